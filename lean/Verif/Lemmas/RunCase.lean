import Verif.Lemmas.Accounting
/-! # The whole run of one test case, seen through its primitive reports -/
namespace Verif.Run
open Spec

/-- The parts of a run that ended: decoded tags, end of the loop. -/
theorem run_parts [MessageLimit] {cfg : Cfg} {fuel : Nat} {t : TestCase} {s : TS}
    (h : run cfg fuel t = some (.ok s)) :
    ∃ tags u r, Filter.forEachTag cfg.maxTag t.id.tags = .ok tags ∧
      runLoop cfg t.body.no fuel 0 (initState cfg t tags) = some (.ok (u, r)) ∧
      s = endCase cfg t (checkShouldFail cfg (afterLoop cfg u r)) := by
  unfold run at h
  cases ht : Filter.forEachTag cfg.maxTag t.id.tags with
  | abort => simp [ht] at h
  | ub => simp [ht] at h
  | ok tags =>
    simp only [ht] at h
    cases hl : runLoop cfg t.body.no fuel 0 (initState cfg t tags) with
    | none => simp [hl] at h
    | some o =>
      cases o with
      | abort => simp [hl] at h
      | ub => simp [hl] at h
      | ok x =>
        obtain ⟨u, r⟩ := x
        simp only [hl, Option.some.injEq, Outcome.ok.injEq] at h
        exact ⟨tags, u, r, rfl, hl, h.symm⟩

/-- The failure events of a body carry the flags of the test, and after a skip that is not preceded
by a failure there is no assertion. -/
structure Marked (c : Core) : Prop where
  flags : ∀ e ∈ c.log, isFailure e = true →
    ∃ ctx data, e = .assertionFailed ctx data c.shouldFail c.mayFail
  quiet : ∀ l₁ e l₂, c.log = l₁ ++ e :: l₂ → isSkip e = true → l₁.any isFailure = false →
    l₂.any isAssertion = false ∧ c.state = .skipped

theorem append_eq_snoc_cons {α : Type} {l l₁ l₂ : List α} {x e : α}
    (h : l ++ [x] = l₁ ++ e :: l₂) :
    (l₂ = [] ∧ l₁ = l ∧ e = x) ∨ (∃ l₃, l₂ = l₃ ++ [x] ∧ l = l₁ ++ e :: l₃) := by
  rcases List.eq_nil_or_concat l₂ with h2 | ⟨l₃, y, h2⟩
  · subst h2
    have := List.append_inj' h rfl
    left
    refine ⟨rfl, this.1.symm, ?_⟩
    have h3 := this.2
    simp at h3
    exact h3.symm
  · right
    rw [List.concat_eq_append] at h2
    subst h2
    have h' : l ++ [x] = (l₁ ++ e :: l₃) ++ [y] := by rw [h]; simp
    have := List.append_inj' h' rfl
    have h3 := this.2
    simp at h3
    exact ⟨l₃, by rw [h3], this.1⟩

theorem Marked.step {c : Core} (hc : Counted c) (h : Marked c) (p : Prim) : Marked (c.step p) := by
  obtain ⟨hf, hq⟩ := h
  cases p with
  | neutral e he =>
    obtain ⟨ha, hs, _⟩ := he
    have hfe : isFailure e = false := by cases e <;> first | rfl | cases ha
    constructor
    · intro e' he' hf'
      simp only [Core.step, List.mem_append, List.mem_singleton] at he'
      rcases he' with he' | rfl
      · exact hf e' he' hf'
      · rw [hfe] at hf'; cases hf'
    · intro l₁ e' l₂ hl hs' hl1
      rcases append_eq_snoc_cons hl with ⟨rfl, rfl, rfl⟩ | ⟨l₃, rfl, hl3⟩
      · rw [hs] at hs'; cases hs'
      · have := hq l₁ e' l₃ hl3 hs' hl1
        exact ⟨by rw [List.any_append, this.1]; simp [ha], this.2⟩
  | skip ctx msg =>
    constructor
    · intro e' he' hf'
      simp only [Core.step, List.mem_append, List.mem_singleton] at he'
      rcases he' with he' | rfl
      · exact hf e' he' hf'
      · cases hf'
    · intro l₁ e' l₂ hl hs' hl1
      rcases append_eq_snoc_cons hl with ⟨rfl, rfl, rfl⟩ | ⟨l₃, rfl, hl3⟩
      · refine ⟨rfl, ?_⟩
        simp only [Core.step, hc.state, stateOf, hl1, Bool.false_eq_true, if_false, raiseTo]
        cases c.log.any isSkip <;> rfl
      · have := hq l₁ e' l₃ hl3 hs' hl1
        refine ⟨by rw [List.any_append, this.1]; rfl, ?_⟩
        simp only [Core.step, this.2, raiseTo, CaseState.toNat]
        rfl
  | assertion ok ctx data =>
    by_cases hs : c.state = .skipped
    · simp only [Core.step, hs, if_true]
      exact ⟨hf, hq⟩
    · have key : ∀ (c' : Core) e, c'.log = c.log ++ [e] →
          (isFailure e = true → ∃ ctx data, e = .assertionFailed ctx data c.shouldFail c.mayFail) →
          c'.shouldFail = c.shouldFail → c'.mayFail = c.mayFail → isSkip e = false → Marked c' := by
        intro c' e hl1 he h1 h2 hsk
        constructor
        · intro e' he' hf'
          rw [hl1, List.mem_append, List.mem_singleton] at he'
          rw [h1, h2]
          rcases he' with he' | rfl
          · exact hf e' he' hf'
          · exact he hf'
        · intro l₁ e' l₂ hl hs' hl2
          rw [hl1] at hl
          rcases append_eq_snoc_cons hl with ⟨rfl, rfl, rfl⟩ | ⟨l₃, rfl, hl3⟩
          · rw [hsk] at hs'; cases hs'
          · exact absurd (hq l₁ e' l₃ hl3 hs' hl2).2 hs
      cases ok with
      | true =>
        refine key _ (.assertionSucceeded ctx data) ?_ ?_ ?_ ?_ rfl
        · simp [Core.step, hs]
        · intro h; cases h
        · simp [Core.step, hs]
        · simp [Core.step, hs]
      | false =>
        by_cases hm : c.mayFail || c.shouldFail
        · refine key _ (.assertionFailed ctx data c.shouldFail c.mayFail) ?_ ?_ ?_ ?_ rfl
          · simp only [Core.step, hs, hm, if_false, if_true, Bool.false_eq_true]
          · intro h; exact ⟨ctx, data, rfl⟩
          · simp only [Core.step, hs, hm, if_false, if_true, Bool.false_eq_true]
          · simp only [Core.step, hs, hm, if_false, if_true, Bool.false_eq_true]
        · refine key _ (.assertionFailed ctx data c.shouldFail c.mayFail) ?_ ?_ ?_ ?_ rfl
          · simp only [Core.step, hs, hm, if_false, Bool.false_eq_true]
          · intro h; exact ⟨ctx, data, rfl⟩
          · simp only [Core.step, hs, hm, if_false, Bool.false_eq_true]
          · simp only [Core.step, hs, hm, if_false, Bool.false_eq_true]

theorem Marked.steps {c : Core} (hc : Counted c) (h : Marked c) (ps : List Prim) :
    Marked (c.steps ps) := by
  induction ps generalizing c with
  | nil => exact h
  | cons p ps ih => exact ih (hc.step p) (h.step hc p)

theorem Marked.reach {s s' : TS} (hc : Counted (core s)) (h : Marked (core s)) (hr : Reach s s') :
    Marked (core s') := by
  obtain ⟨ps, hp⟩ := hr
  rw [hp]
  exact h.steps hc ps

theorem counted_init (cfg : Cfg) (t : TestCase) (tags : List Filter.ParsedTag) :
    Counted (core (initState (full cfg) t tags)) ∧ Marked (core (initState (full cfg) t tags)) := by
  have e : core (initState (full cfg) t tags) =
      { core (freshState t tags) with log := [.caseStarted t.id] } := rfl
  rw [e]
  constructor
  · constructor
    · rfl
    · exact (ite_self 0).symm
    · exact (ite_self 0).symm
    · rfl
  · constructor
    · intro e he hf
      simp only [List.mem_singleton] at he
      subst he; cases hf
    · intro l₁ e l₂ hl hs
      cases l₁ with
      | nil => cases hl; cases hs
      | cons a l =>
        simp only [List.cons_append, List.cons.injEq] at hl
        cases l <;> simp at hl

theorem full_full {cfg : Cfg} (h : cfg.verbosity = 3) : full cfg = cfg := by
  cases cfg; simp only at h; subst h; rfl

/-- The state `b` after the body and what follows it, and the final state. -/
theorem run_body [MessageLimit] {cfg : Cfg} {fuel : Nat} {t : TestCase} {s : TS} (hv : cfg.verbosity = 3)
    (h : run cfg fuel t = some (.ok s)) :
    ∃ tags b, Filter.forEachTag cfg.maxTag t.id.tags = .ok tags ∧ Counted (core b) ∧
      Marked (core b) ∧ b.mayFail = tags.contains .mayFail ∧
      b.shouldFail = tags.contains .shouldFail ∧ s = endCase cfg t (checkShouldFail cfg b) := by
  obtain ⟨tags, u, r, ht, hl, rfl⟩ := run_parts h
  rw [← full_full hv] at hl
  have hr : Reach (initState (full cfg) t tags) (afterLoop (full cfg) u r) :=
    (reach_runLoop hl).trans (reach_afterLoop cfg u r)
  have hi := counted_init cfg t tags
  refine ⟨tags, afterLoop cfg u r, ht, ?_, ?_, ?_, ?_, rfl⟩
  · have := hi.1.reach hr; rwa [full_full hv] at this
  · have := hi.2.reach hi.1 hr; rwa [full_full hv] at this
  · have := hr.flags.1
    rw [full_full hv] at this
    rw [this]
    simp only [initState, emit]; split <;> rfl
  · have := hr.flags.2
    rw [full_full hv] at this
    rw [this]
    simp only [initState, emit]; split <;> rfl

end Verif.Run

namespace Verif.Run
open Spec

/-- The final state of a run, case by case. -/
theorem final_core {cfg : Cfg} (hv : cfg.verbosity = 3) (t : TestCase) {b : TS}
    (hb : Counted (core b)) :
    let s := endCase cfg t (checkShouldFail cfg b)
    s.mayFail = b.mayFail ∧ s.shouldFail = b.shouldFail ∧
    s.log.getLast? = some (.caseEnded t.id s.asserts s.failures s.allowed s.state) ∧
    ((b.shouldFail = false ∨ b.state = .skipped) ∧ s.asserts = b.asserts ∧
        s.failures = b.failures ∧ s.allowed = b.allowed ∧ s.state = b.state ∧
        s.log.dropLast = b.log ∨
      (b.shouldFail = true ∧ b.state = .allowedFail) ∧ s.asserts = b.asserts + 1 ∧
        s.failures = b.failures ∧ s.allowed = b.allowed ∧ s.state = b.state ∧
        (∃ c d, s.log.dropLast = b.log ++ [.assertionSucceeded c d]) ∨
      (b.shouldFail = true ∧ b.state = .success) ∧ s.asserts = b.asserts + 1 ∧
        s.failures = b.failures + (if b.mayFail then 0 else 1) ∧
        s.allowed = b.allowed + (if b.mayFail then 1 else 0) ∧
        s.state = (if b.mayFail then .allowedFail else .failed) ∧
        (∃ c d, s.log.dropLast = b.log ++ [.assertionFailed c d false b.mayFail])) := by
  intro s
  have he : ∀ u : TS, endCase cfg t u = { u with log := u.log ++
      [.caseEnded t.id u.asserts u.failures u.allowed u.state] } := by
    intro u; simp [endCase, emit, hv]
  have hs : s = { checkShouldFail cfg b with log := (checkShouldFail cfg b).log ++
      [.caseEnded t.id (checkShouldFail cfg b).asserts (checkShouldFail cfg b).failures
        (checkShouldFail cfg b).allowed (checkShouldFail cfg b).state] } := he _
  rw [hs]
  clear hs he
  dsimp only
  rw [List.dropLast_concat]
  obtain ⟨c, hc⟩ : ∃ c, c = checkShouldFail cfg b := ⟨_, rfl⟩
  rw [← hc]
  have hst := hb.state
  simp only [core] at hst
  by_cases hsf : b.shouldFail = true
  · -- the final check
    have hd := core_reportAssertion (fl := false) cfg (decide (b.state = .allowedFail))
      "expected test to fail".toList (setInCheck true (setShouldFail false b))
    rw [full_full hv] at hd
    obtain ⟨d, hd'⟩ : ∃ d, d = reportAssertion cfg false (decide (b.state = .allowedFail))
      "expected test to fail".toList (setInCheck true (setShouldFail false b)) := ⟨_, rfl⟩
    rw [← hd'] at hd
    have hcd : c = setShouldFail true (setInCheck false d) := by
      rw [hc, hd']; simp only [checkShouldFail, hsf, if_true]
    have hor : (b.mayFail || b.shouldFail) = true := by simp [hsf]
    rw [hor] at hst
    simp only [Core.steps, List.foldl_cons, List.foldl_nil, core, setInCheck, setShouldFail] at hd
    subst hcd
    simp only [setShouldFail, setInCheck]
    rcases hcase : b.state with _ | _ | _ | _ | _
    · exfalso; rw [hcase, stateOf] at hst; split at hst
      · cases hst
      · split at hst <;> cases hst
    · -- success
      have h1 : decide (CaseState.success = CaseState.allowedFail) = false := rfl
      have h2 : (CaseState.success = CaseState.skipped) = False := by simp
      simp only [hcase, h1, Core.step, h2, if_false, Bool.or_false, Bool.false_eq_true] at hd
      cases hm : b.mayFail with
      | true =>
        simp only [hm, if_true, Core.mk.injEq] at hd
        obtain ⟨e1, e2, e3, e4, e5, e6, e7⟩ := hd
        refine ⟨e4, hsf.symm, ?_, ?_⟩
        · simp
        · right; right
          exact ⟨⟨hsf, rfl⟩, e1, e2, e3, e6, _, _, e7⟩
      | false =>
        simp only [hm, Bool.false_eq_true, if_false, Core.mk.injEq] at hd
        obtain ⟨e1, e2, e3, e4, e5, e6, e7⟩ := hd
        refine ⟨e4, hsf.symm, ?_, ?_⟩
        · simp
        · right; right
          exact ⟨⟨hsf, rfl⟩, e1, e2, e3, e6, _, _, e7⟩
    · -- skipped
      simp only [hcase, Core.step, if_true, Core.mk.injEq] at hd
      obtain ⟨e1, e2, e3, e4, e5, e6, e7⟩ := hd
      refine ⟨e4, hsf.symm, ?_, ?_⟩
      · simp
      · left
        exact ⟨Or.inr rfl, e1, e2, e3, e6, e7⟩
    · exfalso; rw [hcase, stateOf] at hst; split at hst
      · cases hst
      · split at hst <;> cases hst
    · -- allowed failure
      have h2 : (CaseState.allowedFail = CaseState.skipped) = False := by simp
      simp only [hcase, decide_true, Core.step, h2, if_false, if_true, Core.mk.injEq] at hd
      obtain ⟨e1, e2, e3, e4, e5, e6, e7⟩ := hd
      refine ⟨e4, hsf.symm, ?_, ?_⟩
      · simp
      · right; left
        exact ⟨⟨hsf, rfl⟩, e1, e2, e3, e6, _, _, e7⟩
  · have hcb : c = b := by rw [hc]; simp only [checkShouldFail, hsf, if_false, Bool.false_eq_true]
    subst hcb
    refine ⟨rfl, rfl, ?_, ?_⟩
    · simp
    · left
      exact ⟨Or.inl (by simpa using hsf), rfl, rfl, rfl, rfl, rfl⟩

theorem log_split {cfg : Cfg} (hv : cfg.verbosity = 3) (t : TestCase) {b : TS}
    (hb : Counted (core b)) :
    (endCase cfg t (checkShouldFail cfg b)).log =
      (endCase cfg t (checkShouldFail cfg b)).log.dropLast ++
        [.caseEnded t.id (endCase cfg t (checkShouldFail cfg b)).asserts
          (endCase cfg t (checkShouldFail cfg b)).failures
          (endCase cfg t (checkShouldFail cfg b)).allowed
          (endCase cfg t (checkShouldFail cfg b)).state] := by
  have h := (final_core hv t hb).2.2.1
  generalize (endCase cfg t (checkShouldFail cfg b)) = s at h ⊢
  obtain ⟨ys, hy⟩ := List.getLast?_eq_some_iff.mp h
  rw [hy, List.dropLast_concat]

end Verif.Run
