import Verif.Spec.Events
import Verif.Spec.Console
import Verif.Lemmas.Told
import Verif.Props.Registry
/-!
# Lemmas about the events with everything in them
-/
namespace Verif.Events
open Verif.Report Verif.Events.Spec

/-- What a test reports about itself. -/
private def Good (t : Run.TestCase) : Run.Event → Prop
  | .caseStarted i => i = t.id
  | .caseEnded i _ _ _ st => i = t.id ∧ st ≠ .notRun
  | .runStarted => False
  | .runEnded .. => False
  | _ => True

private theorem good_of_inner {t : Run.TestCase} {e : Run.Event} (h : Run.isInner e = true) : Good t e := by
  cases e <;> first | trivial | cases h

private theorem run_good [Run.MessageLimit] {cfg : Run.Cfg} {fuel : Nat} {t : Run.TestCase} {s : Run.TS}
    (h : Run.run cfg fuel t = some (.ok s)) : ∀ e ∈ s.log, Good t e := by
  rw [Run.run_hide] at h
  cases hr : Run.run (Run.full cfg) fuel t with
  | none => rw [hr] at h; cases h
  | some o =>
    rw [hr] at h
    cases o with
    | abort => cases h
    | ub => cases h
    | ok u =>
      simp only [Run.omapo, Run.omap_ok, Option.some.injEq, Outcome.ok.injEq] at h
      obtain ⟨mid, a, f, al, hl, hi⟩ := Run.run_log_state (cfg := Run.full cfg) (by show 2 ≤ 3; omega) hr
      have hst := (Props.C26_failed_iff_failures hr).1
      intro e he
      rw [← h] at he
      have he : e ∈ u.log := (List.mem_filter.1 he).1
      rw [hl] at he
      simp only [List.cons_append, List.mem_cons, List.mem_append, List.not_mem_nil, or_false] at he
      rcases he with rfl | he | rfl
      · rfl
      · exact good_of_inner (hi e he)
      · exact ⟨rfl, hst⟩

/-- The flags of the failures in a log. -/
def logFlags : Run.Event → Option (Bool × Bool)
  | .assertionFailed _ _ expected allowed => some (expected, allowed)
  | _ => none

private theorem tell_good (src : Source) (t : Run.TestCase) (n : Nat) {e : Run.Event} (h : Good t e) :
    ∃ es, tell src t n e = .ok es ∧ Report.Spec.Told e (es.map Event.report) ∧
      Report.Spec.Console.Told (testId src t) e (es.map Event.console) ∧
      (∀ x ∈ es, About (declared src t) (src.loc t.loc) x) ∧
      es.filterMap heard = ([e].filterMap Run.Spec.observed).filterMap (toTell src) ∧
      es.filterMap failedFlags = [e].filterMap logFlags ∧
      (∀ x ∈ es, FlagsTrue false false x) := by
  have hat : ∀ ctx, Report.Spec.Console.At ctx (place src ctx).console := fun ctx =>
    ⟨by simp [place, Place.console], rfl, rfl⟩
  cases e with
  | user a => exact ⟨_, rfl, .user a, .user a, by simp, rfl, rfl, by simp⟩
  | sectionStarted k =>
    exact ⟨_, rfl, .sectionStarted .., .sectionStarted .., by simp [About], rfl, rfl, by simp [FlagsTrue]⟩
  | sectionEnded k sk a f al =>
    exact ⟨_, rfl, .sectionEnded .., .sectionEnded .., by simp [About], rfl, rfl, by simp [FlagsTrue]⟩
  | assertionSucceeded ctx d =>
    exact ⟨_, rfl, .assertionSucceeded .., .assertionSucceeded _ _ (hat ctx), by simp [About, testId, declared], rfl, rfl,
      by simp [FlagsTrue]⟩
  | assertionFailed ctx d ex al =>
    exact ⟨_, rfl, .assertionFailed .., .assertionFailed _ _ _ _ (hat ctx), by simp [About, testId, declared], rfl, rfl,
      by simp [FlagsTrue]⟩
  | caseSkipped ctx m =>
    exact ⟨_, rfl, .caseSkipped .., .caseSkipped _ (hat ctx), by simp [About, testId, declared], rfl, rfl, by simp [FlagsTrue]⟩
  | caseStarted i =>
    obtain rfl : i = t.id := h
    exact ⟨_, rfl, .caseStarted .., .caseStarted (id := testId src t) _, by simp [About, testId, declared], rfl, rfl,
      by simp [FlagsTrue]⟩
  | caseEnded i a f al st =>
    obtain ⟨rfl, h⟩ := h
    obtain ⟨pst, h1, h2⟩ : ∃ pst, publicState st = .ok pst ∧ Report.Spec.publicState st = some pst := by
      cases st <;> first | exact absurd rfl h | exact ⟨_, rfl, rfl⟩
    refine ⟨[.caseEnded (testId src t) (src.loc t.loc) ⟨a, f, al⟩ pst (src.duration n) false false], ?_,
      .caseEnded _ _ _ _ _ _ _ _ _ _ h2, .caseEnded (id := testId src t) _ _ _ _ _, by simp [About, testId, declared], rfl, rfl,
      by simp [FlagsTrue]⟩
    rw [tell, h1]; rfl
  | runStarted => exact absurd h id
  | runEnded => exact absurd h id

private theorem tellLog_good (src : Source) (t : Run.TestCase) (log : List Run.Event) : ∀ n, (∀ e ∈ log, Good t e) →
    ∃ es, tellLog src t n log = .ok es ∧ Report.Spec.ToldAll log (es.map Event.report) ∧
      Report.Spec.Console.ToldLog (testId src t) log (es.map Event.console) ∧
      (∀ x ∈ es, About (declared src t) (src.loc t.loc) x) ∧
      es.filterMap heard = (log.filterMap Run.Spec.observed).filterMap (toTell src) ∧
      es.filterMap failedFlags = log.filterMap logFlags ∧
      (∀ x ∈ es, FlagsTrue false false x) := by
  induction log with
  | nil => intro n _; exact ⟨[], rfl, .nil, .nil, by simp, rfl, rfl, by simp⟩
  | cons e log ih =>
    intro n h
    obtain ⟨x, h1, h2, h3, h4, h5, h7, h6⟩ := tell_good src t n (h e (by simp))
    obtain ⟨es, k1, k2, k3, k4, k5, k7, k6⟩ := ih (n + x.length) fun e he => h e (by simp [he])
    refine ⟨x ++ es, ?_, ?_, ?_, ?_, ?_, ?_, ?_⟩
    · rw [tellLog, h1]
      simp only [Outcome.bind_ok, k1]
      rfl
    · rw [List.map_append]; exact .cons h2 k2
    · rw [List.map_append]; exact .cons h3 k3
    · intro y hy
      rcases List.mem_append.1 hy with hy | hy
      · exact h4 y hy
      · exact k4 y hy
    · rw [List.filterMap_append, h5, k5, ← List.filterMap_append, ← List.filterMap_append, List.singleton_append]
    · rw [List.filterMap_append, h7, k7, ← List.filterMap_append, List.singleton_append]
    · intro y hy
      rcases List.mem_append.1 hy with hy | hy
      · exact h6 y hy
      · exact k6 y hy

/-- What is told about a test that has been run. -/
structure Tells (src : Source) (t : Run.TestCase) (s : Run.TS) (es : List Event) : Prop where
  told : Report.Spec.ToldAll s.log (es.map Event.report)
  console : Report.Spec.Console.ToldLog (testId src t) s.log (es.map Event.console)
  about : ∀ x ∈ es, About (declared src t) (src.loc t.loc) x
  heard : es.filterMap heard = (s.log.filterMap Run.Spec.observed).filterMap (toTell src)
  failures : es.filterMap failedFlags = s.log.filterMap logFlags
  flags : ∀ x ∈ es, FlagsTrue false false x
  ends : ∀ mid a f al st, s.log = .caseStarted t.id :: mid ++ [.caseEnded t.id a f al st] →
    ∃ rest state duration, es = .caseStarted (declared src t) (src.loc t.loc) :: rest ++
      [.caseEnded (declared src t) (src.loc t.loc) ⟨a, f, al⟩ state duration false false] ∧
      Report.Spec.publicState st = some state

private theorem tellLog_append (src : Source) (t : Run.TestCase) (b : List Run.Event) :
    ∀ (a : List Run.Event) (n : Nat) {es : List Event}, tellLog src t n (a ++ b) = .ok es →
      ∃ x y m, es = x ++ y ∧ tellLog src t m b = .ok y
  | [], n, es, h => ⟨[], es, n, rfl, h⟩
  | e :: a, n, es, h => by
    rw [List.cons_append, tellLog] at h
    cases h1 : tell src t n e with
    | abort => rw [h1] at h; cases h
    | ub => rw [h1] at h; cases h
    | ok x =>
      rw [h1, Outcome.bind_ok] at h
      cases h2 : tellLog src t (n + x.length) (a ++ b) with
      | abort => rw [h2] at h; cases h
      | ub => rw [h2] at h; cases h
      | ok y =>
        rw [h2] at h
        cases h
        obtain ⟨u, w, m, rfl, hw⟩ := tellLog_append src t b a (n + x.length) h2
        exact ⟨x ++ u, w, m, by rw [List.append_assoc], hw⟩

private theorem tellLog_ends (src : Source) (t : Run.TestCase) {n : Nat} {mid : List Run.Event} {i j : Filter.TestId}
    {a f al : Nat} {st : Run.CaseState} {es : List Event}
    (h : tellLog src t n (.caseStarted i :: mid ++ [.caseEnded j a f al st]) = .ok es) :
    ∃ rest state duration, es = .caseStarted (declared src t) (src.loc t.loc) :: rest ++
      [.caseEnded (declared src t) (src.loc t.loc) ⟨a, f, al⟩ state duration false false] ∧
      Report.Spec.publicState st = some state := by
  rw [List.cons_append, tellLog, tell, Outcome.bind_ok] at h
  dsimp only [List.length_singleton] at h
  cases h1 : tellLog src t (n + 1) (mid ++ [.caseEnded j a f al st]) with
  | abort => rw [h1] at h; cases h
  | ub => rw [h1] at h; cases h
  | ok y =>
    rw [h1] at h
    cases h
    obtain ⟨u, w, m, rfl, hw⟩ := tellLog_append src t _ mid (n + 1) h1
    rw [tellLog, tell] at hw
    cases st <;> cases hw <;> exact ⟨u, _, _, rfl, rfl⟩

theorem tellLog_run [Run.MessageLimit] (src : Source) {cfg : Run.Cfg} {fuel : Nat} {t : Run.TestCase} {s : Run.TS}
    (h : Run.run cfg fuel t = some (.ok s)) (n : Nat) : ∃ es, tellLog src t n s.log = .ok es ∧ Tells src t s es := by
  obtain ⟨es, h1, h2, h3, h4, h5, h7, h6⟩ := tellLog_good src t s.log n (run_good h)
  exact ⟨es, h1, h2, h3, h4, h5, h7, h6, fun mid a f al st h => tellLog_ends src t (h ▸ h1)⟩

theorem flags_filter {v : Nat} (l : List Run.Event) : (Run.Spec.shown v l).filterMap logFlags =
    l.filterMap logFlags := by
  induction l with
  | nil => rfl
  | cons e l ih =>
    unfold Run.Spec.shown at ih ⊢
    rw [List.filter_cons]
    cases e with
    | assertionFailed c d x y => rw [if_pos (by simp [Run.Spec.levelOf])]; simp only [List.filterMap_cons, logFlags, ih]
    | _ => split <;> simp only [List.filterMap_cons, logFlags, ih]

/-- The failures in the log of a test are marked by its tags, except for the failure of a test that should fail and does
not. -/
theorem run_flags [Run.MessageLimit] {cfg : Run.Cfg} {fuel : Nat} {t : Run.TestCase} {s : Run.TS}
    {ps : List Filter.ParsedTag} (h : Run.run cfg fuel t = some (.ok s))
    (hps : Filter.forEachTag cfg.maxTag t.id.tags = .ok ps) :
    (∀ x ∈ s.log.filterMap logFlags, x = (ps.contains .shouldFail, ps.contains .mayFail)) ∨
      (ps.contains .shouldFail = true ∧ s.log.filterMap logFlags = [(false, ps.contains .mayFail)]) := by
  rw [Run.run_hide] at h
  cases hr : Run.run (Run.full cfg) fuel t with
  | none => rw [hr] at h; cases h
  | some o =>
    rw [hr] at h
    cases o with
    | abort => cases h
    | ub => cases h
    | ok u =>
      simp only [Run.omapo, Run.omap_ok, Option.some.injEq, Outcome.ok.injEq] at h
      subst h
      rw [show (Run.hide cfg.verbosity u).log = Run.Spec.shown cfg.verbosity u.log from rfl, flags_filter]
      obtain ⟨ps', b, hps', hb, hm, h1, h2, rfl⟩ := Run.run_body rfl hr
      obtain rfl : ps = ps' := by
        have : Outcome.ok ps = Outcome.ok ps' := hps.symm.trans hps'
        cases this; rfl
      obtain ⟨_, _, _, hcases⟩ := Run.final_core (cfg := Run.full cfg) rfl t hb
      have hsplit := Run.log_split (cfg := Run.full cfg) rfl t hb
      rw [hsplit, List.filterMap_append]
      have hbody : ∀ x ∈ b.log.filterMap logFlags, x = (ps.contains .shouldFail, ps.contains .mayFail) := by
        intro x hx
        obtain ⟨e, he, hf⟩ := List.mem_filterMap.1 hx
        have : Run.Spec.isFailure e = true := by cases e <;> first | rfl | cases hf
        obtain ⟨ctx, data, rfl⟩ := hm.flags e he this
        cases hf
        rw [← h1, ← h2]; rfl
      simp only [List.filterMap_cons, List.filterMap_nil, logFlags, List.append_nil]
      rcases hcases with ⟨_, _, _, _, _, e⟩ | ⟨_, _, _, _, _, c, d, e⟩ | ⟨⟨hs, hst⟩, _, _, _, _, c, d, e⟩
      · rw [e]; exact .inl hbody
      · rw [e, List.filterMap_append]
        simp only [List.filterMap_cons, List.filterMap_nil, logFlags, List.append_nil]
        exact .inl hbody
      · right
        have hnone : b.log.filterMap logFlags = [] := by
          have hstate := hb.state
          have hno : b.log.any Run.Spec.isFailure = false := by
            cases hany : b.log.any Run.Spec.isFailure with
            | false => rfl
            | true =>
              rw [show (Run.core b).state = b.state from rfl, hst] at hstate
              unfold Run.stateOf at hstate
              rw [show (Run.core b).log = b.log from rfl, hany, if_pos rfl] at hstate
              split at hstate <;> cases hstate
          rw [List.filterMap_eq_nil_iff]
          intro e he
          have := List.any_eq_false.1 hno e he
          cases e <;> first | rfl | exact absurd rfl this
        rw [e, List.filterMap_append, hnone, ← h2, ← h1]
        exact ⟨hs, rfl⟩

private theorem count_flags (l : List Run.Event) :
    (l.filter Props.isRealFailure).length = (l.filterMap logFlags).count (false, false) ∧
    (l.filter Run.Spec.isFailure).length = (l.filterMap logFlags).length := by
  induction l with
  | nil => exact ⟨rfl, rfl⟩
  | cons e l ih =>
    cases e with
    | assertionFailed c d x y =>
      cases x <;> cases y <;>
        simp [Props.isRealFailure, Run.Spec.isFailure, logFlags, ih.1, ih.2, List.filter_cons, List.count_cons]
    | _ => exact ih

/-- The counts of a test, in terms of the failures reported. -/
theorem run_counts [Run.MessageLimit] {cfg : Run.Cfg} {fuel : Nat} {t : Run.TestCase} {s : Run.TS}
    (h : Run.run cfg fuel t = some (.ok s)) :
    s.failures = (s.log.filterMap logFlags).count (false, false) ∧
      s.failures + s.allowed = (s.log.filterMap logFlags).length := by
  rw [Run.run_hide] at h
  cases hr : Run.run (Run.full cfg) fuel t with
  | none => rw [hr] at h; cases h
  | some o =>
    rw [hr] at h
    cases o with
    | abort => cases h
    | ub => cases h
    | ok u =>
      simp only [Run.omapo, Run.omap_ok, Option.some.injEq, Outcome.ok.injEq] at h
      subst h
      rw [show (Run.hide cfg.verbosity u).log = Run.Spec.shown cfg.verbosity u.log from rfl, flags_filter]
      obtain ⟨_, c2, _, c4, _⟩ := Props.C25_counts (cfg := Run.full cfg) rfl hr
      rw [← (count_flags u.log).1, ← (count_flags u.log).2]
      exact ⟨c2, c4⟩

/-- The number of assertions of a test, in terms of what happens in it. -/
theorem run_asserts [Run.MessageLimit] {cfg : Run.Cfg} {fuel : Nat} {t : Run.TestCase} {s : Run.TS}
    {ps : List Filter.ParsedTag} (hf : Props.Fits cfg t ps) (ht : Run.Spec.Always Run.Spec.Tidy t.body)
    (hfuel : Run.Spec.passCount t.body.first ≤ fuel) (h : Run.run cfg fuel t = some (.ok s)) :
    s.asserts = ((Run.Spec.caseStory t (ps.contains .shouldFail)).filter Run.Spec.Item.isAssertion).length := by
  rw [Run.run_hide] at h
  obtain ⟨u, h1, h2, _⟩ := Props.C25_counts_evaluated (cfg := Run.full cfg) rfl (t := t) (tags := ps)
    ⟨hf.alike, hf.sections, hf.captures, hf.tags⟩ ht hfuel
  rw [h1] at h
  cases h
  exact h2

/-- One test of a run: what happened and what is told. -/
structure Part where
  test : Reg.Case
  result : Run.TS
  events : List Event

/-- The loop does what the loop of the registry's model does, and tells about every test that is run. -/
theorem runEach_eq [Run.MessageLimit] (src : Source) (lim : Reg.Limits) (fuel : Nat) (pred : Filter.TestId → Outcome Bool)
    (cases : List Reg.Case) : ∀ (acc : Reg.Acc) (acc' : Acc), acc'.cases = acc.cases → acc'.totals = acc.totals →
    (Reg.runEach lim fuel pred cases acc = none → runEach src lim fuel pred cases acc' = none) ∧
    (Reg.runEach lim fuel pred cases acc = some .abort → runEach src lim fuel pred cases acc' = some .abort) ∧
    (Reg.runEach lim fuel pred cases acc = some .ub → runEach src lim fuel pred cases acc' = some .ub) ∧
    ∀ a, Reg.runEach lim fuel pred cases acc = some (.ok a) → ∃ parts : List Part,
      runEach src lim fuel pred cases acc' = some (.ok ⟨a.cases, a.totals, acc'.events ++ parts.flatMap (·.events)⟩) ∧
      parts.map (·.test) = cases.filter (fun c => decide (pred c.test.id = .ok true)) ∧
      a.log = acc.log ++ parts.flatMap (·.result.log) ∧
      ∀ p ∈ parts, Run.run lim.cfg fuel p.test.test = some (.ok p.result) ∧ Tells src p.test.test p.result p.events := by
  induction cases with
  | nil =>
    intro acc acc' hc ht
    refine ⟨(by intro h; cases h), (by intro h; cases h), (by intro h; cases h), ?_⟩
    intro a ha
    cases ha
    refine ⟨[], ?_, rfl, by simp, by simp⟩
    rw [runEach, ← hc, ← ht]
    simp
  | cons c cs ih =>
    intro acc acc' hc ht
    rw [Reg.runEach, runEach]
    cases hp : pred c.test.id with
    | abort => exact ⟨(by intro h; cases h), fun _ => rfl, (by intro h; cases h), (by intro a h; cases h)⟩
    | ub => exact ⟨(by intro h; cases h), (by intro h; cases h), fun _ => rfl, (by intro a h; cases h)⟩
    | ok b =>
      cases b with
      | false =>
        have := ih { acc with cases := acc.cases ++ [c] } { acc' with cases := acc'.cases ++ [c] } (by rw [hc]) ht
        rw [List.filter_cons_of_neg (by simp [hp])]
        exact this
      | true =>
        rw [List.filter_cons_of_pos (by simp [hp])]
        dsimp only
        cases hr : Run.run lim.cfg fuel c.test with
        | none => exact ⟨fun _ => rfl, (by intro h; cases h), (by intro h; cases h), (by intro a h; cases h)⟩
        | some o =>
          cases o with
          | abort => exact ⟨(by intro h; cases h), fun _ => rfl, (by intro h; cases h), (by intro a h; cases h)⟩
          | ub => exact ⟨(by intro h; cases h), (by intro h; cases h), fun _ => rfl, (by intro a h; cases h)⟩
          | ok s =>
            obtain ⟨es, he, hes⟩ := tellLog_run src hr acc'.events.length
            dsimp only
            rw [he]
            dsimp only
            obtain ⟨i1, i2, i3, i4⟩ := ih
              { cases := acc.cases ++ [{ c with state := s.state }], totals := acc.totals.add s, log := acc.log ++ s.log }
              { cases := acc'.cases ++ [{ c with state := s.state }], totals := acc'.totals.add s
                events := acc'.events ++ es } (by rw [hc]) (by rw [ht])
            refine ⟨i1, i2, i3, ?_⟩
            intro a ha
            obtain ⟨parts, j1, j2, j3, j4⟩ := i4 a ha
            refine ⟨⟨c, s, es⟩ :: parts, ?_, ?_, ?_, ?_⟩
            · rw [j1]; simp
            · rw [List.map_cons, j2]
            · rw [j3]; simp
            · intro p hp
              rcases List.mem_cons.1 hp with rfl | hp
              · exact ⟨hr, hes⟩
              · exact j4 p hp

end Verif.Events
