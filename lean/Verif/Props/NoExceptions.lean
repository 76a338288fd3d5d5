import Verif.Lemmas.NoExceptions
import Verif.Props.Registry
/-!
# The build without exceptions (C73)
-/
namespace Verif.Props
open Verif Verif.NoExc.Spec
open Verif.Run (Cfg TestCase TS Event Prog MessageLimit)
open Verif.NoExc (Stop Ok pl Sim)

section
variable [MessageLimit]

/-! ## One test -/

/-- What the two builds make of a test, case by case. -/
private theorem run_sim (cfg : Cfg) (fuel : Nat) (t : TestCase) (hw : Run.Spec.Always Writable t.body) :
    match NoExc.run cfg fuel t with
    | none => Run.run cfg fuel t = none
    | some .abort => Run.run cfg fuel t = some .abort
    | some .ub => Run.run cfg fuel t = some .ub
    | some (.ok (s0, .finished)) => ∃ s, Run.run cfg fuel t = some (.ok s) ∧ Told cfg t s0 s
    | some (.ok (s0, .terminated)) => (LastWords s0.log ∨ s0.state = .skipped) ∧ (∃ x, Run.run cfg fuel t = some x) ∧
        ∀ s, Run.run cfg fuel t = some (.ok s) → s0.log <+: s.log.map exactly := by
  unfold NoExc.run Run.run
  cases Filter.forEachTag cfg.maxTag t.id.tags with
  | abort => rfl
  | ub => rfl
  | ok tags =>
    dsimp only
    obtain ⟨h1, h2⟩ := NoExc.initState_ok cfg t tags
    have hs := NoExc.runLoop_sim cfg t.body.no hw fuel 0 _ h1
    rw [h2] at hs
    cases hl : NoExc.runLoop cfg t.body.no fuel 0 (Run.initState cfg t tags) with
    | none =>
      rw [hl] at hs
      dsimp only at hs
      rw [hs]
    | some x =>
      rw [hl] at hs
      obtain ⟨y, hy, hs⟩ := hs
      rw [hy]
      cases x with
      | abort => cases hs; rfl
      | ub => cases hs; rfl
      | ok p =>
        obtain ⟨s0, r⟩ := p
        cases r with
        | terminated =>
          obtain ⟨hlast, hs⟩ := hs
          refine ⟨hlast, ?_, ?_⟩
          · cases y with
            | abort => exact ⟨_, rfl⟩
            | ub => exact ⟨_, rfl⟩
            | ok q => exact ⟨_, rfl⟩
          · intro s h
            cases y with
            | abort => cases h
            | ub => cases h
            | ok q =>
              obtain ⟨u, r⟩ := q
              obtain ⟨h3, h4⟩ := hs _ rfl
              dsimp only at h3 h4
              subst h3
              cases h
              refine h4.trans (List.IsPrefix.map _ ?_)
              have g1 : Run.Grows u (Run.afterLoop cfg u (.raised Run.abortExn)) := by
                refine Run.Grows.trans (Run.grows_notify cfg (Run.setUnhandled true u)) ?_
                exact Run.Grows.of_log rfl
              have g2 : ∀ v, Run.Grows v (Run.checkShouldFail cfg v) := by
                intro v
                unfold Run.checkShouldFail
                split
                · exact Run.Grows.trans (Run.grows_reportAssertion cfg _ _ (Run.setInCheck true (Run.setShouldFail false v)))
                    (Run.Grows.of_log rfl)
                · exact Run.Grows.refl v
              exact (g1.trans (g2 _)).trans (Run.grows_emit ..)
        | finished =>
          obtain ⟨u, hu, ht, ho⟩ := hs
          subst hu; subst ht
          dsimp only
          refine ⟨_, rfl, ?_⟩
          obtain ⟨h3, h4⟩ := NoExc.checkShouldFail_pl cfg ho
          rw [h3]
          obtain ⟨ctx, hlike, hun⟩ := NoExc.like_after cfg ho
          have hsh := NoExc.like_should cfg hlike ho.2 hun
          have hst : ∀ v : TS, (Run.endCase cfg t v).state = v.state ∧ (Run.endCase cfg t v).failures = v.failures ∧
              (Run.endCase cfg t v).allowed = v.allowed ∧ (Run.endCase cfg t v).asserts = v.asserts ∧
              (Run.endCase cfg t v).log = v.log ++ ended cfg t v.asserts v.failures v.allowed v.state := by
            intro v
            unfold Run.endCase Run.emit ended
            split
            · exact ⟨rfl, rfl, rfl, rfl, rfl⟩
            · exact ⟨rfl, rfl, rfl, rfl, (List.append_nil _).symm⟩
          have hsk : (Run.checkShouldFail cfg (Run.afterLoop cfg u .normal)).state = .skipped ↔ u.state = .skipped := by
            rw [NoExc.implicit_state, hlike.state]
          have hi : implicitCount (Run.checkShouldFail cfg (Run.afterLoop cfg u .normal)).state = implicitCount u.state := by
            unfold implicitCount; simp only [hsk]
          have hj : implicit cfg (Run.checkShouldFail cfg (Run.afterLoop cfg u .normal)).state ctx = implicit cfg u.state ctx := by
            unfold implicit; simp only [ne_eq, hsk]
          obtain ⟨e1, e2, e3, e4, e5⟩ := hst (Run.checkShouldFail cfg (Run.afterLoop cfg u .normal))
          obtain ⟨f1, f2, f3, f4, f5⟩ := hst (pl (Run.checkShouldFail cfg u))
          obtain ⟨B, hB1, hB2⟩ := hsh.log
          refine ⟨?_, ?_, ?_, ?_, u.log, B, ctx, ?_, ?_⟩
          · rw [f1, e1, hsh.state]; rfl
          · rw [f2, e2, hsh.failures]; rfl
          · rw [f3, e3, hsh.allowed]; rfl
          · rw [f4, e4, e1, hi, hsh.asserts]; rfl
          · rw [e5, e1, e2, e3, e4, hj, hB2]
          · rw [f5, f1, f2, f3, f4, ← hB1]; rfl

/-- **C73.** A test that runs to its end in the normal build: without exceptions it either does the same (one assertion
is missing, the implicit one at the end), or the program is ended in its middle, after the first events of the normal
build up to the report of the failed REQUIRE or FAIL, or of the SKIP. -/
theorem C73_test {cfg : Cfg} {fuel : Nat} {t : TestCase} {s : TS} (hw : Run.Spec.Always Writable t.body)
    (h : Run.run cfg fuel t = some (.ok s)) :
    (∃ s0, NoExc.run cfg fuel t = some (.ok (s0, .finished)) ∧ Told cfg t s0 s) ∨
      ∃ s0, NoExc.run cfg fuel t = some (.ok (s0, .terminated)) ∧ Cut s0 s := by
  have hs := run_sim cfg fuel t hw
  cases hr : NoExc.run cfg fuel t with
  | none => rw [hr] at hs; rw [h] at hs; cases hs
  | some x =>
    rw [hr] at hs
    cases x with
    | abort => rw [h] at hs; cases hs
    | ub => rw [h] at hs; cases hs
    | ok p =>
      obtain ⟨s0, r⟩ := p
      cases r with
      | finished =>
        obtain ⟨s', h', ht⟩ := hs
        rw [h] at h'
        cases h'
        exact .inl ⟨s0, rfl, ht⟩
      | terminated => exact .inr ⟨s0, rfl, hs.2.2 s h, hs.1⟩

/-- **C73.** A test that runs to its end without exceptions does so in the normal build, and is told in the same way. -/
theorem C73_finished {cfg : Cfg} {fuel : Nat} {t : TestCase} {s0 : TS} (hw : Run.Spec.Always Writable t.body)
    (h : NoExc.run cfg fuel t = some (.ok (s0, .finished))) :
    ∃ s, Run.run cfg fuel t = some (.ok s) ∧ Told cfg t s0 s := by
  have hs := run_sim cfg fuel t hw
  rw [h] at hs
  exact hs

/-- **C73.** When a test ends the program, the last thing reported is a failed assertion or a skip, unless the test had
been skipped before. -/
theorem C73_terminated {cfg : Cfg} {fuel : Nat} {t : TestCase} {s0 : TS} (hw : Run.Spec.Always Writable t.body)
    (h : NoExc.run cfg fuel t = some (.ok (s0, .terminated))) :
    (LastWords s0.log ∨ s0.state = .skipped) ∧ ∀ s, Run.run cfg fuel t = some (.ok s) → Cut s0 s := by
  have hs := run_sim cfg fuel t hw
  rw [h] at hs
  exact ⟨hs.1, fun s h => ⟨hs.2.2 s h, hs.1⟩⟩

/-- **C73.** The build without exceptions takes no more passes over a test, and stops with an error (too many sections,
too many captures) only where the normal build does. -/
theorem C73_ends {cfg : Cfg} {fuel : Nat} {t : TestCase} (hw : Run.Spec.Always Writable t.body) :
    (NoExc.run cfg fuel t = none → Run.run cfg fuel t = none) ∧
    (NoExc.run cfg fuel t = some .abort → Run.run cfg fuel t = some .abort) ∧
    (NoExc.run cfg fuel t = some .ub → Run.run cfg fuel t = some .ub) := by
  have hs := run_sim cfg fuel t hw
  refine ⟨fun h => ?_, fun h => ?_, fun h => ?_⟩ <;> (rw [h] at hs; exact hs)

end

/-! ## Tests that do not end the program -/

private theorem gentle_end {r : Stop} {s : TS} {x : TS × Stop} (h : NoExc.endCheck r s = .ok x) : x.2 = r := by
  cases r with
  | terminated => cases h; rfl
  | finished =>
    obtain ⟨u, _, h⟩ := Run.bind_eq_ok (x := NoExc.checkLeave s) h
    cases h; rfl

private theorem gentle_answer {cfg : Cfg} {ok : Bool} {data : Text} {s : TS} {x : TS × Stop}
    (h : NoExc.answer cfg ok false data s = .ok x) : x.2 = .finished := by
  rw [gentle_end (r := if ok then .finished else NoExc.maybeAbort false) h]
  cases ok <;> rfl

private theorem gentle_exec {cfg : Cfg} {K : Prog} (hK : Gentle K) {s : TS} {x : TS × Stop}
    (h : NoExc.exec cfg K s = .ok x) : x.2 = .finished := by
  induction K generalizing s x with
  | done => cases h; rfl
  | stmt m k ih =>
    unfold NoExc.exec at h
    obtain ⟨⟨t, r⟩, ht, h⟩ := Run.bind_eq_ok h
    have hr : r = .finished := by
      cases m with
      | act a => cases ht; rfl
      | check loc ev abort data =>
        have ha : abort = false := hK.1
        subst ha
        cases ev with
        | val ok =>
          obtain ⟨u, _, ht⟩ := Run.bind_eq_ok (x := NoExc.checkEnter cfg loc s) ht
          exact gentle_answer ht
        | exc e => cases ht
      | skip loc abort msg =>
        have ha : abort = false := hK.1
        subst ha
        obtain ⟨u, _, ht⟩ := Run.bind_eq_ok (x := NoExc.checkEnter cfg loc s) ht
        exact gentle_end (r := .finished) ht
      | throw | notify | throwsAs | throwsMatches | nothrow => cases ht
    subst hr
    exact ih hK.2 h
  | sec id loc b k ihb ihk =>
    unfold NoExc.exec at h
    obtain ⟨⟨t, en⟩, _, h⟩ := Run.bind_eq_ok h
    cases en with
    | false =>
      simp only [Bool.false_eq_true, if_false] at h
      obtain ⟨u, _, h⟩ := Run.bind_eq_ok h
      exact ihk hK.2 h
    | true =>
      simp only [if_true] at h
      obtain ⟨⟨u, r⟩, hu, h⟩ := Run.bind_eq_ok h
      have hr : r = .finished := ihb hK.1 hu
      subst hr
      obtain ⟨w, _, h⟩ := Run.bind_eq_ok h
      exact ihk hK.2 h
  | capture caps k ih =>
    unfold NoExc.exec at h
    obtain ⟨t, _, h⟩ := Run.bind_eq_ok h
    obtain ⟨⟨u, r⟩, hu, h⟩ := Run.bind_eq_ok h
    have hr : r = .finished := ih hK hu
    subst hr
    obtain ⟨w, _, h⟩ := Run.bind_eq_ok h
    cases h; rfl
  | block b k ihb ihk =>
    unfold NoExc.exec at h
    obtain ⟨⟨t, r⟩, ht, h⟩ := Run.bind_eq_ok h
    have hr : r = .finished := ihb hK.1 ht
    subst hr
    exact ihk hK.2 h
  | tryCatch ty b hd k _ _ _ => cases h
  | nested loc o a k iho ihk =>
    cases a with
    | check ok abort data =>
      have ha : abort = false := hK.1
      subst ha
      unfold NoExc.exec at h
      obtain ⟨t, _, h⟩ := Run.bind_eq_ok h
      obtain ⟨⟨u, r⟩, hu, h⟩ := Run.bind_eq_ok h
      have hr : r = .finished := iho hK.2.1 hu
      subst hr
      obtain ⟨⟨w, r⟩, hw, h⟩ := Run.bind_eq_ok h
      have hr : r = .finished := gentle_answer hw
      subst hr
      exact ihk hK.2.2 h
    | throwsAs | throwsMatches | nothrow => cases h
  | guard c k ihc ihk =>
    unfold NoExc.exec at h
    obtain ⟨⟨t, r⟩, ht, h⟩ := Run.bind_eq_ok h
    have hr : r = .finished := ihk hK.2 ht
    subst hr
    exact ihc hK.1 h

private theorem gentle_loop {cfg : Cfg} {bodies : Nat → Prog} (hK : ∀ n, Gentle (bodies n)) {fuel no : Nat} {s : TS} {x : TS × Stop}
    (h : NoExc.runLoop cfg bodies fuel no s = some (.ok x)) : x.2 = .finished := by
  induction fuel generalizing no s with
  | zero => cases h
  | succ n ih =>
    unfold NoExc.runLoop at h
    cases he : NoExc.exec cfg (bodies no) (Run.resetPass s) with
    | abort => rw [he] at h; cases h
    | ub => rw [he] at h; cases h
    | ok p =>
      obtain ⟨t, r⟩ := p
      have hr : r = .finished := gentle_exec (hK no) he
      subst hr
      rw [he] at h
      dsimp only at h
      split at h
      · exact ih h
      · cases h; rfl

/-- **C73.** A test in which only CHECK, FAIL_CHECK and SKIP_CHECK are used does not end the program. -/
theorem C73_gentle {cfg : Cfg} {fuel : Nat} {t : TestCase} {s0 : TS} {r : Stop} (hg : Run.Spec.Always Gentle t.body)
    (h : NoExc.run cfg fuel t = some (.ok (s0, r))) : r = .finished := by
  unfold NoExc.run at h
  cases hf : Filter.forEachTag cfg.maxTag t.id.tags with
  | abort => rw [hf] at h; cases h
  | ub => rw [hf] at h; cases h
  | ok tags =>
    rw [hf] at h
    dsimp only at h
    cases hl : NoExc.runLoop cfg t.body.no fuel 0 (Run.initState cfg t tags) with
    | none => rw [hl] at h; cases h
    | some x =>
      rw [hl] at h
      cases x with
      | abort => cases h
      | ub => cases h
      | ok p =>
        obtain ⟨s, r⟩ := p
        have hr : r = .finished := gentle_loop hg hl
        subst hr
        cases h; rfl

/-! ## A whole run -/

/-- The totals of the two builds: they differ in the number of assertions. -/
private structure Near (a0 a : Reg.Acc) : Prop where
  cases : a0.cases = a.cases
  success : a0.totals.success = a.totals.success
  run : a0.totals.run = a.totals.run
  fail : a0.totals.fail = a.totals.fail
  allowedFail : a0.totals.allowedFail = a.totals.allowedFail
  skip : a0.totals.skip = a.totals.skip
  failures : a0.totals.failures = a.totals.failures
  allowed : a0.totals.allowed = a.totals.allowed
  asserts : a.totals.asserts + a.totals.skip = a0.totals.asserts + a.totals.run
  le : a.totals.skip ≤ a.totals.run

private theorem near_add {a0 a : Reg.Acc} (h : Near a0 a) (c : Reg.Case) {cfg : Cfg} {t : TestCase} {s0 s : TS}
    (ht : Told cfg t s0 s) : Near
      { cases := a0.cases ++ [{ c with state := s0.state }], totals := a0.totals.add s0, log := a0.log ++ s0.log }
      { cases := a.cases ++ [{ c with state := s.state }], totals := a.totals.add s, log := a.log ++ s.log } := by
  have hst := ht.state
  have ha := ht.asserts
  have hb := h.asserts
  have hle := h.le
  have h1 := h.run
  have h2 := h.skip
  unfold implicitCount at ha
  cases hc : s.state <;> (
    rw [hc] at hst ha
    simp only [reduceCtorEq, if_false, if_true, Nat.add_zero] at ha
    refine ⟨?_, ?_, ?_, ?_, ?_, ?_, ?_, ?_, ?_, ?_⟩ <;>
      simp only [Reg.Totals.add, hst, hc, Reg.Totals.addState, h.cases, h.success, h.run, h.fail, h.allowedFail, h.skip,
        h.failures, h.allowed, ht.failures, ht.allowed] <;> omega)

private theorem near_each [MessageLimit] {lim : Reg.Limits} {fuel : Nat} {pred : Filter.TestId → Outcome Bool}
    {cs : List Reg.Case} (hw : ∀ c ∈ cs, Run.Spec.Always Writable c.test.body) {a0 a a0' : Reg.Acc} (hn : Near a0 a)
    (h : NoExc.runEach lim fuel pred cs a0 = some (.ok (a0', .finished))) :
    ∃ a', Reg.runEach lim fuel pred cs a = some (.ok a') ∧ Near a0' a' := by
  induction cs generalizing a0 a with
  | nil => cases h; exact ⟨a, rfl, hn⟩
  | cons c cs ih =>
    unfold NoExc.runEach at h
    unfold Reg.runEach
    cases hp : pred c.test.id with
    | abort => rw [hp] at h; cases h
    | ub => rw [hp] at h; cases h
    | ok b =>
      rw [hp] at h
      cases b with
      | false =>
        refine ih (fun d hd => hw d (List.mem_cons_of_mem _ hd)) ?_ h
        exact ⟨by simp only [hn.cases], hn.success, hn.run, hn.fail, hn.allowedFail, hn.skip, hn.failures, hn.allowed,
          hn.asserts, hn.le⟩
      | true =>
        dsimp only at h ⊢
        cases hr : NoExc.run lim.cfg fuel c.test with
        | none => rw [hr] at h; cases h
        | some x =>
          rw [hr] at h
          cases x with
          | abort => cases h
          | ub => cases h
          | ok p =>
            obtain ⟨s0, r⟩ := p
            cases r with
            | terminated => cases h
            | finished =>
              obtain ⟨s, hs, ht⟩ := C73_finished (hw c (List.mem_cons_self ..)) hr
              rw [hs]
              exact ih (fun d hd => hw d (List.mem_cons_of_mem _ hd)) (near_add hn c ht) h

/-- The tests selected. -/
private abbrev chosen (pred : Filter.TestId → Outcome Bool) (cases : List Reg.Case) : List Reg.Case :=
  cases.filter fun c => decide (pred c.test.id = .ok true)

private theorem each_finished {lim : Reg.Limits} {fuel : Nat} {pred : Filter.TestId → Outcome Bool}
    {cs : List Reg.Case} {a a' : Reg.Acc} (h : NoExc.runEach lim fuel pred cs a = some (.ok (a', .finished))) :
    ∃ rs : List TS, (chosen pred cs).map (fun c => NoExc.run lim.cfg fuel c.test) =
        rs.map (fun r => some (.ok (r, .finished))) ∧ a'.log = a.log ++ rs.flatMap (·.log) := by
  induction cs generalizing a with
  | nil => cases h; exact ⟨[], rfl, by simp⟩
  | cons c cs ih =>
    unfold NoExc.runEach at h
    cases hp : pred c.test.id with
    | abort => rw [hp] at h; cases h
    | ub => rw [hp] at h; cases h
    | ok b =>
      rw [hp] at h
      cases b with
      | false =>
        obtain ⟨rs, h1, h2⟩ := ih h
        exact ⟨rs, by simpa [chosen, List.filter_cons, hp] using h1, h2⟩
      | true =>
        dsimp only at h
        cases hr : NoExc.run lim.cfg fuel c.test with
        | none => rw [hr] at h; cases h
        | some x =>
          rw [hr] at h
          cases x with
          | abort => cases h
          | ub => cases h
          | ok p =>
            obtain ⟨s0, r⟩ := p
            cases r with
            | terminated => cases h
            | finished =>
              obtain ⟨rs, h1, h2⟩ := ih h
              refine ⟨s0 :: rs, ?_, by simp [h2]⟩
              simp only [chosen, List.filter_cons, hp, decide_true, if_true, List.map_cons, hr]
              rw [← h1]

private theorem each_terminated {lim : Reg.Limits} {fuel : Nat} {pred : Filter.TestId → Outcome Bool}
    {cs : List Reg.Case} {a a' : Reg.Acc} (h : NoExc.runEach lim fuel pred cs a = some (.ok (a', .terminated))) :
    ∃ (before : List Reg.Case) (c : Reg.Case) (after : List Reg.Case) (rs : List TS) (s0 : TS),
      cs = before ++ c :: after ∧ pred c.test.id = .ok true ∧
      NoExc.run lim.cfg fuel c.test = some (.ok (s0, .terminated)) ∧
      (chosen pred before).map (fun c => NoExc.run lim.cfg fuel c.test) =
        rs.map (fun r => some (.ok (r, .finished))) ∧ a'.log = a.log ++ rs.flatMap (·.log) ++ s0.log := by
  induction cs generalizing a with
  | nil => cases h
  | cons c cs ih =>
    unfold NoExc.runEach at h
    cases hp : pred c.test.id with
    | abort => rw [hp] at h; cases h
    | ub => rw [hp] at h; cases h
    | ok b =>
      rw [hp] at h
      cases b with
      | false =>
        obtain ⟨before, d, after, rs, s0, h1, h2, h3, h4, h5⟩ := ih h
        exact ⟨c :: before, d, after, rs, s0, by rw [h1]; rfl, h2, h3,
          by simpa [chosen, List.filter_cons, hp] using h4, h5⟩
      | true =>
        dsimp only at h
        cases hr : NoExc.run lim.cfg fuel c.test with
        | none => rw [hr] at h; cases h
        | some x =>
          rw [hr] at h
          cases x with
          | abort => cases h
          | ub => cases h
          | ok p =>
            obtain ⟨s0, r⟩ := p
            cases r with
            | terminated =>
              cases h
              exact ⟨[], c, cs, [], s0, rfl, hp, hr, rfl, by simp⟩
            | finished =>
              obtain ⟨before, d, after, rs, s1, h1, h2, h3, h4, h5⟩ := ih h
              refine ⟨c :: before, d, after, s0 :: rs, s1, by rw [h1]; rfl, h2, h3, ?_, by simp [h5]⟩
              simp only [chosen, List.filter_cons, hp, decide_true, if_true, List.map_cons, hr]
              rw [← h4]

/-- **C73.** A run that returns: every selected test has run to its end, and the events are theirs, between one start
and one end event. The normal build runs the same tests with the same results, and returns the same value; the end
events differ in the number of assertions, by one for each test that was not skipped. -/
theorem C73_returned [MessageLimit] {lim : Reg.Limits} {fuel : Nat} {pred : Filter.TestId → Outcome Bool}
    {cases cases' : List Reg.Case} {log : List Event} {success : Bool} (hw : ∀ c ∈ cases, Run.Spec.Always Writable c.test.body)
    (h : NoExc.runSelected lim fuel pred cases = some (.ok (.returned cases' log success))) :
    ∃ (rs : List TS) (log' : List Event),
      (cases.filter fun c => decide (pred c.test.id = .ok true)).map (fun c => NoExc.run lim.cfg fuel c.test) =
        rs.map (fun r => some (.ok (r, .finished))) ∧
      Reg.runSelected lim fuel pred cases = some (.ok (cases', log', success)) ∧
      (lim.cfg.verbosity = 0 → log = rs.flatMap (·.log)) ∧
      (lim.cfg.verbosity ≥ 1 → ∃ l' run fail allowedFail skip asserts failures allowed, skip ≤ run ∧
        log = [.runStarted] ++ rs.flatMap (·.log) ++ [.runEnded run fail allowedFail skip asserts failures allowed success] ∧
        log' = l' ++ [.runEnded run fail allowedFail skip (asserts + (run - skip)) failures allowed success]) := by
  unfold NoExc.runSelected at h
  cases hr : NoExc.runEach lim fuel pred cases { log := Reg.shown lim 1 .runStarted } with
  | none => rw [hr] at h; cases h
  | some x =>
    rw [hr] at h
    cases x with
    | abort => cases h
    | ub => cases h
    | ok p =>
      obtain ⟨a0, r⟩ := p
      cases r with
      | terminated => cases h
      | finished =>
        cases h
        obtain ⟨rs, h1, h2⟩ := each_finished hr
        obtain ⟨a, ha, hn⟩ := near_each hw (a := { log := Reg.shown lim 1 .runStarted })
          ⟨rfl, rfl, rfl, rfl, rfl, rfl, rfl, rfl, rfl, Nat.le_refl _⟩ hr
        refine ⟨rs, a.log ++ Reg.shown lim 1 a.totals.event, h1, ?_, ?_, ?_⟩
        · unfold Reg.runSelected
          rw [ha]
          dsimp only
          rw [hn.cases, hn.success]
        · intro hv
          rw [h2]
          simp [Reg.shown, hv]
        · intro hv
          refine ⟨a.log, a0.totals.run, a0.totals.fail, a0.totals.allowedFail, a0.totals.skip, a0.totals.asserts,
            a0.totals.failures, a0.totals.allowed, by rw [hn.skip, hn.run]; exact hn.le, ?_, ?_⟩
          · rw [h2]
            simp [Reg.shown, hv, Reg.Totals.event]
          · have h3 := hn.asserts
            have h4 := hn.le
            have h5 : a0.totals.asserts + (a.totals.run - a.totals.skip) = a.totals.asserts := by omega
            simp only [Reg.shown, hv, if_true, Reg.Totals.event, hn.run, hn.fail, hn.allowedFail, hn.skip, hn.failures,
              hn.allowed, hn.success, h5]

/-- **C73.** A run that is ended in the middle: the selected tests before a certain one have run to their end, this one
ended the program, the following ones are not executed, and there is no end event. -/
theorem C73_stopped {lim : Reg.Limits} {fuel : Nat} {pred : Filter.TestId → Outcome Bool}
    {cases : List Reg.Case} {log : List Event}
    (h : NoExc.runSelected lim fuel pred cases = some (.ok (.terminated log))) :
    ∃ (before : List Reg.Case) (c : Reg.Case) (after : List Reg.Case) (rs : List TS) (s0 : TS),
      cases = before ++ c :: after ∧ pred c.test.id = .ok true ∧
      NoExc.run lim.cfg fuel c.test = some (.ok (s0, .terminated)) ∧
      (before.filter fun c => decide (pred c.test.id = .ok true)).map (fun c => NoExc.run lim.cfg fuel c.test) =
        rs.map (fun r => some (.ok (r, .finished))) ∧
      (lim.cfg.verbosity = 0 → log = rs.flatMap (·.log) ++ s0.log) ∧
      (lim.cfg.verbosity ≥ 1 → log = [.runStarted] ++ rs.flatMap (·.log) ++ s0.log) := by
  unfold NoExc.runSelected at h
  cases hr : NoExc.runEach lim fuel pred cases { log := Reg.shown lim 1 .runStarted } with
  | none => rw [hr] at h; cases h
  | some x =>
    rw [hr] at h
    cases x with
    | abort => cases h
    | ub => cases h
    | ok p =>
      obtain ⟨a0, r⟩ := p
      cases r with
      | finished => cases h
      | terminated =>
        cases h
        obtain ⟨before, c, after, rs, s0, h1, h2, h3, h4, h5⟩ := each_terminated hr
        refine ⟨before, c, after, rs, s0, h1, h2, h3, h4, fun hv => ?_, fun hv => ?_⟩
        · rw [h5]; simp [Reg.shown, hv]
        · rw [h5]; simp [Reg.shown, hv]

/-- **C73.** When all tests use only CHECK, FAIL_CHECK and SKIP_CHECK, the program is not ended in the middle. -/
theorem C73_gentle_run {lim : Reg.Limits} {fuel : Nat} {pred : Filter.TestId → Outcome Bool}
    {cases : List Reg.Case} (hg : ∀ c ∈ cases, Run.Spec.Always Gentle c.test.body) (log : List Event) :
    NoExc.runSelected lim fuel pred cases ≠ some (.ok (.terminated log)) := by
  intro h
  obtain ⟨before, c, after, rs, s0, h1, _, h3, _⟩ := C73_stopped h
  have := C73_gentle (hg c (by rw [h1]; simp)) h3
  cases this

/-! ## Examples -/

private def requires : Prog :=
  .stmt (.act 1) (.sec 1 1 (.stmt (.check 2 (.val true) true []) .done)
    (.sec 2 2 (.stmt (.check 3 (.val false) true "no".toList) (.stmt (.act 2) .done)) .done))

private def checks : Prog :=
  .stmt (.act 1) (.nested 5 (.stmt (.check 6 (.val true) false []) .done) (.check false false "no".toList)
    (.sec 1 1 (.stmt (.check 2 (.val false) false []) .done) (.sec 2 2 (.stmt (.skip 3 false []) .done) .done)))

example : Writable requires ∧ Writable checks ∧ Gentle checks := by
  simp [requires, checks, Writable, WritableStmt, WritableAsk, Gentle, GentleStmt, GentleAsk]

/-- The run comes to its end in the normal build; without exceptions it is ended by the second section. -/
private def two : List Reg.Case := [⟨mkTest "a" "" checks, .notRun⟩, ⟨mkTest "b" "" requires, .notRun⟩,
  ⟨mkTest "c" "" checks, .notRun⟩]

open Defaults in
example : (match NoExc.runSelected (defaultLimits 1) 5 (fun _ => .ok true) two with
    | some (.ok (.terminated log)) => log.length
    | _ => 0) = 10 ∧
    (match NoExc.runSelected (defaultLimits 1) 5 (fun _ => .ok true) (two.take 1) with
    | some (.ok (.returned _ _ success)) => success
    | _ => true) = false ∧
    (match Reg.runSelected (defaultLimits 1) 5 (fun _ => .ok true) two with
    | some (.ok (_, log, _)) => log.length
    | _ => 0) > 10 := by
  refine ⟨by decide +kernel, by decide +kernel, by decide +kernel⟩

end Verif.Props
