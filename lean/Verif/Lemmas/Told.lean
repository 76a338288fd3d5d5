import Verif.Lemmas.RunCase
import Verif.Spec.Told
/-!
# The log of a test case has the shape the reporters rely on
-/
namespace Verif.Run
open Verif

/-- `s'` has the log of `s` followed by events inside a test case. -/
def Ext (s s' : TS) : Prop := ∃ l, s'.log = s.log ++ l ∧ ∀ e ∈ l, isInner e = true

theorem Ext.trans {a b c : TS} (h : Ext a b) (h' : Ext b c) : Ext a c := by
  obtain ⟨l, h1, h2⟩ := h
  obtain ⟨l', h3, h4⟩ := h'
  refine ⟨l ++ l', by rw [h3, h1, List.append_assoc], ?_⟩
  intro e he
  rcases List.mem_append.mp he with h | h
  · exact h2 e h
  · exact h4 e h

theorem steps_ext (ps : List Prim) : ∀ c : Core, ∃ l, (c.steps ps).log = c.log ++ l ∧
    ∀ e ∈ l, isInner e = true := by
  induction ps with
  | nil => intro c; exact ⟨[], by simp [Core.steps], by simp⟩
  | cons p ps ih =>
    intro c
    have h1 : ∃ l, (c.step p).log = c.log ++ l ∧ ∀ e ∈ l, isInner e = true := by
      cases p with
      | neutral e he => exact ⟨[e], rfl, by simpa using he.2.2⟩
      | skip ctx msg => exact ⟨[.caseSkipped ctx msg], rfl, by simp [isInner]⟩
      | assertion ok ctx data =>
        simp only [Core.step]
        split
        · exact ⟨[], by simp, by simp⟩
        · split
          · exact ⟨[.assertionSucceeded ctx data], rfl, by simp [isInner]⟩
          · split
            · exact ⟨[.assertionFailed ctx data c.shouldFail c.mayFail], rfl, by simp [isInner]⟩
            · exact ⟨[.assertionFailed ctx data c.shouldFail c.mayFail], rfl, by simp [isInner]⟩
    obtain ⟨l, h1, h2⟩ := h1
    obtain ⟨l', h3, h4⟩ := ih (c.step p)
    refine ⟨l ++ l', ?_, ?_⟩
    · show ((c.step p).steps ps).log = _
      rw [h3, h1, List.append_assoc]
    · intro e he
      rcases List.mem_append.mp he with h | h
      · exact h2 e h
      · exact h4 e h

theorem Reach.ext {s s' : TS} (h : Reach s s') : Ext s s' := by
  obtain ⟨ps, hp⟩ := h
  obtain ⟨l, h1, h2⟩ := steps_ext ps (core s)
  exact ⟨l, by have := congrArg Core.log hp; rw [h1] at this; exact this, h2⟩

theorem checkShouldFail_ext (cfg : Cfg) (s : TS) : Ext s (checkShouldFail (full cfg) s) := by
  unfold checkShouldFail
  split
  · obtain ⟨l, h1, h2⟩ := (reach_reportAssertion cfg (decide (s.state = .allowedFail))
      "expected test to fail".toList (setInCheck true (setShouldFail false s))).ext
    exact ⟨l, h1, h2⟩
  · exact ⟨[], by simp, by simp⟩

/-- The log of a test case from verbosity *high* on. -/
theorem run_log_counts [MessageLimit] {cfg : Cfg} {fuel : Nat} {t : TestCase} {s : TS} (hv : 2 ≤ cfg.verbosity)
    (h : run cfg fuel t = some (.ok s)) :
    ∃ mid, s.log = .caseStarted t.id :: mid ++ [.caseEnded t.id s.asserts s.failures s.allowed s.state] ∧
      ∀ e ∈ mid, isInner e = true := by
  rw [run_hide] at h
  cases hr : run (full cfg) fuel t with
  | none => rw [hr] at h; cases h
  | some o =>
    rw [hr] at h
    cases o with
    | abort => cases h
    | ub => cases h
    | ok u =>
      simp only [omapo, omap_ok, Option.some.injEq, Outcome.ok.injEq] at h
      obtain ⟨tags, w, r, ht, hl, rfl⟩ := run_parts hr
      have he : Ext (initState (full cfg) t tags) (checkShouldFail (full cfg) (afterLoop (full cfg) w r)) :=
        (((reach_runLoop hl).trans (reach_afterLoop cfg w r)).ext).trans (checkShouldFail_ext cfg _)
      obtain ⟨l, h1, h2⟩ := he
      have h3 : (initState (full cfg) t tags).log = [.caseStarted t.id] := rfl
      rw [h3] at h1
      generalize checkShouldFail (full cfg) (afterLoop (full cfg) w r) = x at h h1
      have h4 : (endCase (full cfg) t x).log = x.log ++ [.caseEnded t.id x.asserts x.failures x.allowed x.state] := rfl
      have hst : s.state = x.state ∧ s.asserts = x.asserts ∧ s.failures = x.failures ∧ s.allowed = x.allowed := by
        rw [← h]; exact ⟨rfl, rfl, rfl, rfl⟩
      refine ⟨Spec.shown cfg.verbosity l, ?_, ?_⟩
      · rw [hst.1, hst.2.1, hst.2.2.1, hst.2.2.2, ← h]
        show Spec.shown cfg.verbosity (endCase (full cfg) t x).log = _
        rw [h4, h1]
        have e1 : ∀ a b, Spec.shown cfg.verbosity (a ++ b) =
            Spec.shown cfg.verbosity a ++ Spec.shown cfg.verbosity b := fun a b => List.filter_append ..
        have e2 : ∀ e, Spec.levelOf e = 2 → Spec.shown cfg.verbosity [e] = [e] := by
          intro e he; simp [Spec.shown, he, hv]
        rw [e1, e1, e2 _ rfl, e2 _ rfl]
        rfl
      · intro e he
        exact h2 e (List.mem_filter.mp he).1

theorem run_log_state [MessageLimit] {cfg : Cfg} {fuel : Nat} {t : TestCase} {s : TS} (hv : 2 ≤ cfg.verbosity)
    (h : run cfg fuel t = some (.ok s)) :
    ∃ mid a f al, s.log = .caseStarted t.id :: mid ++ [.caseEnded t.id a f al s.state] ∧
      ∀ e ∈ mid, isInner e = true := by
  obtain ⟨mid, h1, h2⟩ := run_log_counts hv h
  exact ⟨mid, _, _, _, h1, h2⟩

theorem run_log_shape [MessageLimit] {cfg : Cfg} {fuel : Nat} {t : TestCase} {s : TS} (hv : 2 ≤ cfg.verbosity)
    (h : run cfg fuel t = some (.ok s)) :
    ∃ mid a f al st, s.log = .caseStarted t.id :: mid ++ [.caseEnded t.id a f al st] ∧
      ∀ e ∈ mid, isInner e = true := by
  obtain ⟨mid, a, f, al, h1, h2⟩ := run_log_state hv h
  exact ⟨mid, a, f, al, s.state, h1, h2⟩

end Verif.Run

namespace Verif.Report.Spec
open Verif

theorem ToldAll.append_inv [Run.MessageLimit] {a b : List Run.Event} : ∀ {es : List Event}, ToldAll (a ++ b) es →
    ∃ es1 es2, es = es1 ++ es2 ∧ ToldAll a es1 ∧ ToldAll b es2 := by
  induction a with
  | nil => intro es h; exact ⟨[], es, rfl, .nil, h⟩
  | cons x a ih =>
    intro es h
    cases h with
    | cons hx hr =>
      obtain ⟨e1, e2, rfl, h1, h2⟩ := ih hr
      exact ⟨_, e2, (List.append_assoc ..).symm, .cons hx h1, h2⟩

theorem ToldAll.cons_inv [Run.MessageLimit] {x : Run.Event} {b : List Run.Event} {es : List Event} (h : ToldAll (x :: b) es) :
    ∃ es1 es2, es = es1 ++ es2 ∧ Told x es1 ∧ ToldAll b es2 := by
  cases h with
  | cons hx hr => exact ⟨_, _, rfl, hx, hr⟩

theorem Tells.append [Run.MessageLimit] {lim : Limits} {a b : List Event} {n m : List Node} (h1 : Tells lim a n)
    (h2 : Tells lim b m) : Tells lim (a ++ b) (n ++ m) := by
  induction h1 with
  | nil => exact h2
  | leaf hl _ ih => rw [List.append_assoc]; exact .leaf hl ih
  | «section» hi _ _ ih =>
    simp only [List.cons_append, List.append_assoc]
    exact .section hi ih

/-- Logs without sections. -/
theorem tells_flat [Run.MessageLimit] (lim : Limits) (log : List Run.Event) : ∀ {es : List Event},
    Run.Spec.sectionMarks log = [] → (∀ e ∈ log, Run.isInner e = true) → ToldAll log es →
    ∃ ns, Tells lim es ns := by
  induction log with
  | nil => intro es _ _ h; cases h; exact ⟨[], .nil⟩
  | cons x log ih =>
    intro es hm hi h
    obtain ⟨e1, e2, rfl, hx, hr⟩ := h.cons_inv
    have hm' : Run.Spec.sectionMarks log = [] := by
      cases x <;> simp [Run.Spec.sectionMarks] at hm ⊢ <;> exact hm
    obtain ⟨ns, hn⟩ := ih hm' (fun e he => hi e (by simp [he])) hr
    have hix := hi x (by simp)
    cases hx with
    | user a => exact ⟨ns, hn⟩
    | sectionStarted => simp [Run.Spec.sectionMarks] at hm
    | sectionEnded => simp [Run.Spec.sectionMarks] at hm
    | assertionSucceeded => exact ⟨_, .leaf rfl hn⟩
    | assertionFailed => exact ⟨_, .leaf rfl hn⟩
    | caseSkipped => exact ⟨_, .leaf rfl hn⟩
    | caseStarted => cases hix
    | caseEnded => cases hix
    | runStarted => cases hix
    | runEnded => cases hix

theorem marks_append [Run.MessageLimit] (a b : List Run.Event) : Run.Spec.sectionMarks (a ++ b) =
    Run.Spec.sectionMarks a ++ Run.Spec.sectionMarks b := by
  simp [Run.Spec.sectionMarks, List.filterMap_append]

theorem tells_nested [Run.MessageLimit] (lim : Limits) {m : List (Nat × Bool)} (hn : Nested m) :
    ∀ {log : List Run.Event} {es : List Event}, Run.Spec.sectionMarks log = m →
    (∀ e ∈ log, Run.isInner e = true) → ToldAll log es → ∃ ns, Tells lim es ns := by
  induction hn with
  | nil => intro log es hm hi h; exact tells_flat lim log hm hi h
  | @pair id inner rest _ _ ih1 ih2 =>
    intro log es hm hi h
    rw [List.cons_append] at hm
    obtain ⟨pre, x, log1, rfl, hpre, hx, hm1⟩ := List.filterMap_eq_cons_iff.mp hm
    obtain ⟨li, lr, rfl, hmi, hmr⟩ := List.filterMap_eq_append_iff.mp hm1
    obtain ⟨pre2, y, lrest, rfl, hpre2, hy, hmrest⟩ := List.filterMap_eq_cons_iff.mp hmr
    have hx' : x = .sectionStarted id := by
      cases x <;> simp at hx
      rw [hx]
    obtain ⟨sk, a, f, al, hy'⟩ : ∃ sk a f al, y = .sectionEnded id sk a f al := by
      cases y <;> simp at hy
      subst hy; exact ⟨_, _, _, _, rfl⟩
    subst hx' hy'
    obtain ⟨e1, e2, rfl, t1, t2⟩ := h.append_inv
    obtain ⟨e3, e4, rfl, t3, t4⟩ := t2.cons_inv
    rw [← List.append_assoc] at t4
    obtain ⟨e5, e6, rfl, t5, t6⟩ := t4.append_inv
    obtain ⟨e7, e8, rfl, t7, t8⟩ := t6.cons_inv
    obtain ⟨n1, k1⟩ := tells_flat lim pre (List.filterMap_eq_nil_iff.mpr hpre)
      (fun e he => hi e (by simp [he])) t1
    obtain ⟨n2, k2⟩ := ih1 (log := li ++ pre2) (by
      rw [marks_append]
      have h2 : Run.Spec.sectionMarks pre2 = [] := List.filterMap_eq_nil_iff.mpr hpre2
      rw [h2, List.append_nil]; exact hmi)
      (fun e he => hi e (by
        rcases List.mem_append.mp he with h | h <;> simp [h])) t5
    obtain ⟨n3, k3⟩ := ih2 (log := lrest) hmrest (fun e he => hi e (by simp [he])) t8
    cases t3
    cases t7
    exact ⟨_, k1.append (by
      simp only [List.cons_append, List.nil_append]
      exact .section k2 k3)⟩

theorem Nested.append [Run.MessageLimit] {a b : List (Nat × Bool)} (h1 : Nested a) (h2 : Nested b) : Nested (a ++ b) := by
  induction h1 with
  | nil => exact h2
  | pair hi _ _ ih =>
    simp only [List.cons_append, List.append_assoc]
    exact .pair hi ih

theorem nested_brackets [Run.MessageLimit] (b : Run.Prog) : Nested (Run.Spec.brackets b) := by
  induction b with
  | done => exact .nil
  | stmt m k ih => exact ih
  | sec id loc b k ih1 ih2 => exact .pair ih1 ih2
  | capture c k ih => exact ih
  | block b k ih1 ih2 => exact ih1.append ih2
  | tryCatch t b h k _ _ ih => exact ih
  | nested loc o a k _ ih => exact ih
  | guard c k _ ih => exact ih

theorem nested_mirror [Run.MessageLimit] (l : List Nat) :
    Nested (l.map (fun id => (id, true)) ++ l.reverse.map (fun id => (id, false))) := by
  induction l with
  | nil => exact .nil
  | cons x l ih =>
    have := Nested.pair (id := x) ih .nil
    simpa using this

theorem tellsCases_append [Run.MessageLimit] {lim : Limits} {a b : List Event} {n m : List Node} (h1 : TellsCases lim a n)
    (h2 : TellsCases lim b m) : TellsCases lim (a ++ b) (n ++ m) := by
  induction h1 with
  | nil => exact h2
  | case hi _ ih =>
    simp only [List.cons_append, List.append_assoc]
    exact .case hi ih

/-- The events of one test case. -/
theorem tells_case [Run.MessageLimit] (lim : Limits) {cfg : Run.Cfg} {fuel : Nat} {t : Run.TestCase} {s : Run.TS}
    (hv : 2 ≤ cfg.verbosity) (h : Run.run cfg fuel t = some (.ok s))
    (hn : Nested (Run.Spec.sectionMarks s.log)) {es : List Event} (ht : ToldAll s.log es) :
    ∃ n, TellsCases lim es [n] ∧
      testName n = some (attr (fullName ⟨t.id.name, t.id.tags, t.id.type, []⟩)) ∧
      testSuccess n = some (yesNo (decide (s.state ≠ .failed))) := by
  obtain ⟨mid, a, f, al, hl, hin⟩ := Run.run_log_state hv h
  generalize hst : s.state = st at *
  rw [hl] at ht hn
  rw [List.cons_append] at ht
  obtain ⟨e1, e2, rfl, t1, t2⟩ := ht.cons_inv
  obtain ⟨e3, e4, rfl, t3, t4⟩ := t2.append_inv
  obtain ⟨e5, e6, rfl, t5, t6⟩ := t4.cons_inv
  cases t6
  have hmid : Nested (Run.Spec.sectionMarks mid) := by
    have e : Run.Spec.sectionMarks (Run.Event.caseStarted t.id :: mid ++
        [Run.Event.caseEnded t.id a f al st]) = Run.Spec.sectionMarks mid := by
      rw [List.cons_append, show ∀ l, Run.Spec.sectionMarks (Run.Event.caseStarted t.id :: l) =
        Run.Spec.sectionMarks l from fun l => rfl, marks_append]
      simp [Run.Spec.sectionMarks]
    rwa [e] at hn
  obtain ⟨ns, k⟩ := tells_nested lim hmid rfl hin t3
  cases t1
  cases t5
  rename_i hp
  refine ⟨_, TellsCases.case (lim := lim) k .nil, by simp [testName, fullName], ?_⟩
  unfold testSuccess
  dsimp only
  rw [List.getLast?_concat]
  cases st <;> cases hp <;> rfl

theorem tells_cases [Run.MessageLimit] (lim : Limits) {cfg : Run.Cfg} {fuel : Nat} (hv : 2 ≤ cfg.verbosity)
    (ts : List Run.TestCase) : ∀ {rs : List Run.TS} {es : List Event},
    ts.map (fun t => Run.run cfg fuel t) = rs.map (fun r => some (.ok r)) →
    (∀ r ∈ rs, Nested (Run.Spec.sectionMarks r.log)) → ToldAll (rs.flatMap (·.log)) es →
    ∃ ns, TellsCases lim es ns ∧ ns.map testName =
      (ts.map fun t => some (attr (fullName ⟨t.id.name, t.id.tags, t.id.type, []⟩))) ∧
      ns.map testSuccess = rs.map fun r => some (yesNo (decide (r.state ≠ .failed))) := by
  induction ts with
  | nil =>
    intro rs es h _ ht
    cases rs with
    | nil => cases ht; exact ⟨[], .nil, rfl, rfl⟩
    | cons r rs => simp at h
  | cons t ts ih =>
    intro rs es h hn ht
    cases rs with
    | nil => simp at h
    | cons r rs =>
      simp only [List.map_cons, List.cons.injEq] at h
      rw [List.flatMap_cons] at ht
      obtain ⟨e1, e2, rfl, t1, t2⟩ := ht.append_inv
      obtain ⟨n, k1, k2, k5⟩ := tells_case lim hv h.1 (hn r (by simp)) t1
      obtain ⟨ns, k3, k4, k6⟩ := ih h.2 (fun x hx => hn x (by simp [hx])) t2
      exact ⟨n :: ns, tellsCases_append k1 k3, by simp only [List.map_cons, k2, k4],
        by simp only [List.map_cons, k5, k6]⟩

end Verif.Report.Spec
