import Verif.Lemmas.Separate
import Verif.Props.Quiet
/-!
# C98: A test with sections is as good as separate tests

For every leaf section there is the separate test `alone t n`: the code outside sections and the sections leading to that leaf.
-/
namespace Verif.Props
open Verif Verif.Run Verif.Run.Spec Verif.Reg Verif.Reg.Spec

/-- A separate test keeps within the limits if the test does. -/
theorem sound_alone {lim : Limits} {fuel : Nat} {t : TestCase} {ts : List Text} (h : Sound lim fuel t ts) (n : Nat) :
    Sound lim fuel (alone t n) ts where
  name := h.name
  tags := h.tags
  tidy := always_one (Separate.tidy_only _ _ (h.tidy n))
  alike := alike_one _
  sections := always_one (Nat.le_trans (Separate.secDepth_only _ _) (h.sections n))
  captures := always_one (Nat.le_trans (Separate.capDepth_only _ _) (h.captures n))
  fuel := by
    refine Nat.le_trans ?_ h.fuel
    show max 1 (leaves (only (t.body.no n) (if leaves (t.body.no n) = 0 then none else some n))) ≤ max 1 (leaves t.body.first)
    have : leaves (only (t.body.no n) (if leaves (t.body.no n) = 0 then none else some n)) ≤ 1 := by
      split
      · rw [Separate.leaves_only_none]; omega
      · exact Separate.leaves_only_le _ _
    omega

theorem noSkip_alone {t : TestCase} (h : Always NoSkip t.body) (n : Nat) : Always NoSkip (alone t n).body :=
  always_one (@Separate.noSkip_only ⟨0⟩ _ _ (h n))

/-- **C98**. The separate tests behave like the test: for a test without skips (and not expected to fail), which keeps within the
limits, each separate test can be run. What the test does, its statements and its failures with their places, in order, is what the
separate tests do one after the other, up to and including the first one that is ended by an exception. -/
theorem C98_sum [Run.MessageLimit] {lim : Limits} {fuel : Nat} {t : TestCase} {ts : List Text} (h : Sound lim fuel t ts)
    (hs : Always NoSkip t.body) (hf : hasTag ts "!shouldfail" = false) :
    ∃ (s : TS) (r : Nat → TS) (m : Nat), run lim.cfg fuel t = some (.ok s) ∧
      (∀ n, run lim.cfg fuel (alone t n) = some (.ok (r n))) ∧
      0 < m ∧ m ≤ passCount t.body.first ∧
      deeds s.log = ((List.range m).map fun n => deeds (r n).log).flatten ∧
      (∀ n, n + 1 < m → ¬ interrupted (alone t n)) ∧
      (m = passCount t.body.first ∨ interrupted (alone t (m - 1))) := by
  have key : ∀ u : TestCase, Always NoSkip u.body → Sound lim fuel u ts → ∃ s, run lim.cfg fuel u = some (.ok s) ∧
      deeds s.log = Separate.dl lim.cfg.verbosity (happens u) := by
    intro u hu hsu
    obtain ⟨s, h1, _, h2⟩ := C67_verdict hsu.alike hsu.sections hsu.captures hsu.tags hsu.tidy hsu.fuel
    refine ⟨s, h1, Separate.deeds_observed _ _ _ ?_⟩
    rw [h2, hf]
    have : caseStory u false = effective (happens u ++ []) := rfl
    rw [this, List.append_nil, effective_none (Separate.happens_noSkip hu)]
  obtain ⟨s, h1, h2⟩ := key t hs h
  have hall : ∀ n, ∃ s, run lim.cfg fuel (alone t n) = some (.ok s) ∧
      deeds s.log = Separate.dl lim.cfg.verbosity (happens (alone t n)) := fun n => key _ (noSkip_alone hs n) (sound_alone h n)
  obtain ⟨m, a1, a2, a3, a4, a5, _⟩ := Separate.happens_sum h.alike hs lim.cfg.verbosity
  refine ⟨s, fun n => (hall n).choose, m, h1, fun n => (hall n).choose_spec.1, a1, a2, ?_, a4, a5.imp (fun x => x.1) id⟩
  rw [h2, a3]
  congr 1
  exact List.map_congr_left fun n _ => (hall n).choose_spec.2.symm

/-- **C98**. If nothing is thrown and no `REQUIRE` fails (`CHECK`s may fail), all separate tests take part. -/
theorem C98_all [Run.MessageLimit] {lim : Limits} {fuel : Nat} {t : TestCase} {ts : List Text} (h : Sound lim fuel t ts)
    (hc : Always Calm t.body) (hf : hasTag ts "!shouldfail" = false) :
    ∃ (s : TS) (r : Nat → TS), run lim.cfg fuel t = some (.ok s) ∧
      (∀ n, run lim.cfg fuel (alone t n) = some (.ok (r n))) ∧
      deeds s.log = ((List.range (passCount t.body.first)).map fun n => deeds (r n).log).flatten := by
  obtain ⟨s, r, m, h1, h2, h3, h4, h5, _, h7⟩ := C98_sum h (fun n => Separate.calm_noSkip _ (hc n)) hf
  refine ⟨s, r, h1, h2, ?_⟩
  rcases h7 with h7 | h7
  · rw [← h7]; exact h5
  · exact absurd (calm_pass (Separate.calm_only _ _ (hc (m - 1))) _ _).exit h7

/-- The verdict of a test without skips which is not expected to fail. -/
theorem verdict_noSkip [Run.MessageLimit] {t : TestCase} {ts : List Text} (hs : Always NoSkip t.body)
    (hf : hasTag ts "!shouldfail" = false) : verdictOf t ts =
      if (happens t).any Item.isFailure then (if hasTag ts "!mayfail" then .allowedFail else .failed) else .success := by
  unfold verdictOf
  simp only [skipsTest_none (Separate.happens_noSkip hs), hf, Bool.or_false, Bool.false_eq_true, if_false]

/-- Something fails in the test exactly if something fails in a separate test. -/
theorem fails_iff [Run.MessageLimit] {t : TestCase} (ha : Alike t.body) (hs : Always NoSkip t.body) (ho : Always OwnThrows t.body) :
    (happens t).any Item.isFailure = true ↔
      ∃ n, n < passCount t.body.first ∧ (happens (alone t n)).any Item.isFailure = true := by
  obtain ⟨m, a1, a2, _, _, a5, a6⟩ := Separate.happens_sum ha hs 0
  rw [a6]
  constructor
  · rintro ⟨n, hn, hh⟩
    exact ⟨n, by omega, hh⟩
  · rintro ⟨n, hn, hh⟩
    rcases a5 with ⟨a5, _⟩ | a5
    · exact ⟨n, by omega, hh⟩
    · exact ⟨m - 1, by omega, Separate.interrupted_fails ha hs ho (by omega) a5⟩

theorem verdict_iff [Run.MessageLimit] {t : TestCase} {ts : List Text} (ha : Alike t.body) (hs : Always NoSkip t.body)
    (ho : Always OwnThrows t.body) (hf : hasTag ts "!shouldfail" = false) :
    (verdictOf t ts = .success ↔ ∀ n, n < passCount t.body.first → verdictOf (alone t n) ts = .success) ∧
    (verdictOf t ts = .failed ↔ ∃ n, n < passCount t.body.first ∧ verdictOf (alone t n) ts = .failed) := by
  have hv := verdict_noSkip hs hf
  have hva := fun n => verdict_noSkip (noSkip_alone hs n) hf
  have hi := fails_iff ha hs ho
  have e1 : ∀ b c : Bool, (if b then (if c then CaseState.allowedFail else .failed) else .success) = .success ↔ ¬ b = true := by decide
  have e2 : ∀ b c : Bool, (if b then (if c then CaseState.allowedFail else .failed) else .success) = .failed ↔
      b = true ∧ c = false := by decide
  constructor
  · simp only [hv, hva, e1]
    rw [hi]
    simp only [not_exists, not_and]
  · simp only [hv, hva, e2]
    rw [hi]
    constructor
    · rintro ⟨⟨n, h1, h2⟩, h3⟩
      exact ⟨n, h1, h2, h3⟩
    · rintro ⟨n, h1, h2, h3⟩
      exact ⟨⟨n, h1, h2⟩, h3⟩

/-- **C98**. Sections hide nothing: the test succeeds exactly if all the separate tests do, and fails exactly if one of them does, also
when an exception keeps the test from reaching the later ones. -/
theorem C98_verdict [Run.MessageLimit] {lim : Limits} {fuel : Nat} {t : TestCase} {ts : List Text} (h : Sound lim fuel t ts)
    (hs : Always NoSkip t.body) (ho : Always OwnThrows t.body) (hf : hasTag ts "!shouldfail" = false) :
    ∃ (s : TS) (r : Nat → TS), run lim.cfg fuel t = some (.ok s) ∧
      (∀ n, run lim.cfg fuel (alone t n) = some (.ok (r n))) ∧
      (s.state = .success ↔ ∀ n, n < passCount t.body.first → (r n).state = .success) ∧
      (s.state = .failed ↔ ∃ n, n < passCount t.body.first ∧ (r n).state = .failed) := by
  obtain ⟨s, h1, h2, _⟩ := C67_verdict h.alike h.sections h.captures h.tags h.tidy h.fuel
  have hall : ∀ n, ∃ s, run lim.cfg fuel (alone t n) = some (.ok s) ∧ s.state = verdictOf (alone t n) ts := by
    intro n
    have ha := sound_alone h n
    obtain ⟨s, h1, h2, _⟩ := C67_verdict ha.alike ha.sections ha.captures ha.tags ha.tidy ha.fuel
    exact ⟨s, h1, h2⟩
  refine ⟨s, fun n => (hall n).choose, h1, fun n => (hall n).choose_spec.1, ?_⟩
  simp only [h2, fun n => (hall n).choose_spec.2]
  exact verdict_iff h.alike hs ho hf

/-- **C98**. The program ends with success exactly if all separate tests of all selected tests would not fail. -/
theorem C98_program [Run.MessageLimit] {lim : Limits} {fuel maxArgs : Nat} (reporters : List Text) (init : Nat → Nat → Nat)
    (config : Cli.Config) (argv0 : Text) {argv : List Text} {cases : List Case} (hlen : argv.length ≤ maxArgs)
    (tags : Case → List Text) (hcases : ∀ c ∈ cases, Sound lim fuel c.test (tags c) ∧ Always NoSkip c.test.body ∧
      Always OwnThrows c.test.body ∧ hasTag (tags c) "!shouldfail" = false)
    {ts : List Cli.Spec.Token} (hts : Cli.Spec.tokens argv = some ts) (hn : (Cli.Spec.optionNames ts).Nodup)
    (hno : ∀ l ∈ listing, l ∉ Cli.Spec.optionNames ts) :
    ∃ (code : Nat) (out : List Out) (sel : Case → Bool),
      main lim fuel maxArgs reporters init config argv0 argv cases = some (.ok (code, out)) ∧
      (∀ c ∈ cases, sel c = true ↔
        Verif.Spec.Selected (Cli.Spec.positionalsOf ts) ⟨fullName c.test.id, tags c⟩) ∧
      (∀ c ∈ cases, ∀ n, ∃ x, run lim.cfg fuel (alone c.test n) = some (.ok x)) ∧
      (code = 0 ↔ ∀ c ∈ cases, sel c = true → ∀ n, n < passCount c.test.body.first →
        ∀ x, run lim.cfg fuel (alone c.test n) = some (.ok x) → x.state ≠ .failed) := by
  obtain ⟨code, out, sel, v, h1, h2, _, h4, _⟩ := C67_program reporters init config argv0 hlen tags
    (fun c hc => (hcases c hc).1) hts hn hno
  have hall : ∀ c ∈ cases, ∀ n, ∃ s, run lim.cfg fuel (alone c.test n) = some (.ok s) ∧
      s.state = verdictOf (alone c.test n) (tags c) := by
    intro c hc n
    have ha := sound_alone (hcases c hc).1 n
    obtain ⟨s, h1, h2, _⟩ := C67_verdict ha.alike ha.sections ha.captures ha.tags ha.tidy ha.fuel
    exact ⟨s, h1, h2⟩
  refine ⟨code, out, sel, h1, h2, fun c hc n => (hall c hc n).imp fun _ h => h.1, ?_⟩
  rw [h4]
  have hq : ∀ c ∈ cases, (verdictOf c.test (tags c) ≠ .failed ↔ ∀ n, n < passCount c.test.body.first →
      ∀ x, run lim.cfg fuel (alone c.test n) = some (.ok x) → x.state ≠ .failed) := by
    intro c hc
    obtain ⟨a, b, d, e⟩ := hcases c hc
    rw [Ne, (verdict_iff a.alike b d e).2]
    simp only [not_exists, not_and]
    constructor
    · intro h n hn x hx
      obtain ⟨s, hs, hv⟩ := hall c hc n
      rw [hs] at hx
      cases hx
      rw [hv]
      exact h n hn
    · intro h n hn
      obtain ⟨s, hs, hv⟩ := hall c hc n
      rw [← hv]
      exact h n hn s hs
  exact ⟨fun h c hc hs => (hq c hc).1 (h c hc hs), fun h c hc hs => (hq c hc).2 (h c hc hs)⟩

/-! ## The hypotheses can be met -/

/-- A test with nested sections, a failing `CHECK` in one, a failing `REQUIRE` in another one, and statements all around. -/
def threeLeaves : Prog :=
  .stmt (.act 1) (.sec 1 2 (.stmt (.act 10) (.sec 2 3 (.stmt (.check 4 (.val false) false "c".toList) .done)
      (.sec 3 5 (.stmt (.act 30) (.stmt (.check 6 (.val false) true "r".toList) (.stmt (.act 31) .done))) .done)))
    (.stmt (.act 2) (.sec 4 7 (.stmt (.act 40) .done) .done)))

theorem threeLeaves_sound : Sound (defaultLimits 3) 5 (mkTest "t" "" threeLeaves) [] ∧ NoSkip threeLeaves ∧ OwnThrows threeLeaves := by
  refine ⟨sound_same rfl (by decide) ⟨by decide, ?_, ?_⟩ ?_ (by decide) (by decide) (by decide), ?_, ?_⟩
  all_goals simp [mkTest, Tidy, threeLeaves, NoSkip, OwnThrows]

example : ∃ (lim : Limits) (fuel : Nat) (t : TestCase) (ts : List Text), Sound lim fuel t ts ∧ Always NoSkip t.body ∧
    Always OwnThrows t.body ∧ hasTag ts "!shouldfail" = false ∧ passCount t.body.first = 3 :=
  ⟨_, _, _, _, threeLeaves_sound.1, always_one threeLeaves_sound.2.1, always_one threeLeaves_sound.2.2, by decide, by decide⟩

/-- What was done, and the verdict, if the run ends. -/
def doneIn (o : Option (Outcome TS)) : Option (List Deed × CaseState) :=
  match o with
  | some (.ok s) => some (deeds s.log, s.state)
  | _ => none

open Defaults in
/-- The separate tests: the first one fails with a `CHECK`, the second one is interrupted by a `REQUIRE`, the third one is not reached
in the test with sections. -/
example :
    doneIn (run (defaults 3) 5 (alone (plain threeLeaves) 0)) =
      some ([.did 1, .did 10, .failed ⟨[1, 2], [], 4, .exact⟩ "c".toList, .did 2], .failed) ∧
    doneIn (run (defaults 3) 5 (alone (plain threeLeaves) 1)) =
      some ([.did 1, .did 10, .did 30, .failed ⟨[1, 3], [], 6, .exact⟩ "r".toList], .failed) ∧
    doneIn (run (defaults 3) 5 (alone (plain threeLeaves) 2)) = some ([.did 1, .did 2, .did 40], .success) ∧
    doneIn (run (defaults 3) 5 (plain threeLeaves)) =
      some ([.did 1, .did 10, .failed ⟨[1, 2], [], 4, .exact⟩ "c".toList, .did 2,
        .did 1, .did 10, .did 30, .failed ⟨[1, 3], [], 6, .exact⟩ "r".toList], .failed) := by decide +kernel

/-- A test that nothing interrupts. -/
example : Sound (defaultLimits 3) 5 (mkTest "t" "" (.sec 1 2 (.stmt (.act 1) .done) (.sec 2 3 (.stmt (.check 4 (.val false) false []) .done)
      .done))) [] ∧ Calm (.sec 1 2 (.stmt (.act 1) .done) (.sec 2 3 (.stmt (.check 4 (.val false) false []) .done) .done)) := by
  refine ⟨sound_same rfl (by decide) ⟨by decide, ?_, ?_⟩ ?_ (by decide) (by decide) (by decide), ?_⟩
  all_goals simp [mkTest, Tidy, Calm, calmStmt]

example : (∀ c ∈ [({ test := mkTest "t" "" threeLeaves } : Case)], Sound (defaultLimits 3) 5 c.test [] ∧ Always NoSkip c.test.body ∧
      Always OwnThrows c.test.body ∧ hasTag [] "!shouldfail" = false) ∧
    ∃ ts, Cli.Spec.tokens (["t*"].map String.toList) = some ts ∧ (Cli.Spec.optionNames ts).Nodup ∧
      (∀ l ∈ listing, l ∉ Cli.Spec.optionNames ts) ∧ Cli.Spec.positionalsOf ts = ["t*".toList] := by
  constructor
  · intro c hc
    rw [List.mem_singleton] at hc
    subst hc
    exact ⟨threeLeaves_sound.1, always_one threeLeaves_sound.2.1, always_one threeLeaves_sound.2.2, by decide⟩
  · exact ⟨_, rfl, by decide, by decide, rfl⟩

/-! ## What separate tests do differently -/

/-- A `SKIP_CHECK` in the first section, a failure in the second one. -/
def skipThenFail : Prog :=
  .sec 1 2 (.stmt (.skip 3 false "s".toList) .done) (.sec 2 4 (.stmt (.check 5 (.val false) false "c".toList) .done) .done)

open Defaults in
/-- **C98**. That nothing is skipped has to be asked for: a skip in one section keeps the failure in another one from being seen, which a
separate test would show. -/
theorem C98_skip :
    doneIn (run (defaults 3) 5 (plain skipThenFail)) = some ([], .skipped) ∧
    doneIn (run (defaults 3) 5 (alone (plain skipThenFail) 0)) = some ([], .skipped) ∧
    doneIn (run (defaults 3) 5 (alone (plain skipThenFail) 1)) =
      some ([.failed ⟨[2], [], 5, .exact⟩ "c".toList], .failed) := by decide +kernel

/-- The first section throws the exception of the framework itself, the second one has a failure. -/
def abortThenFail : Prog :=
  .sec 1 2 (.stmt (.throw abortExn) .done) (.sec 2 4 (.stmt (.check 5 (.val false) false "c".toList) .done) .done)

open Defaults in
/-- **C98**. So has that the code under test does not throw the framework's own exception (which is not a documented thing to do): such a
test ends as a success, and the failure behind it is never seen. -/
theorem C98_own_exception :
    doneIn (run (defaults 3) 5 (plain abortThenFail)) = some ([], .success) ∧
    doneIn (run (defaults 3) 5 (alone (plain abortThenFail) 1)) =
      some ([.failed ⟨[2], [], 5, .exact⟩ "c".toList], .failed) := by decide +kernel

/-- One section that fails, and one that does not. -/
def oneFails : TestCase :=
  mkTest "t" "[!shouldfail]" (.sec 1 2 (.stmt (.check 3 (.val false) false "c".toList) .done) (.sec 2 4 .done .done))

open Defaults in
/-- **C98**. And that the test is not expected to fail: one failure is enough for the test with sections, whereas the separate test
without a failure is reported as failed. -/
theorem C98_should_fail :
    (doneIn (run (defaults 3) 5 oneFails)).map Prod.snd = some .allowedFail ∧
    (doneIn (run (defaults 3) 5 (alone oneFails 0))).map Prod.snd = some .allowedFail ∧
    (doneIn (run (defaults 3) 5 (alone oneFails 1))).map Prod.snd = some .failed := by decide +kernel

end Verif.Props
