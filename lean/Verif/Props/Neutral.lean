import Verif.Lemmas.Neutral
import Verif.Props.Program
/-!
# C97: adding checks that pass
-/
namespace Verif.Props
open Verif.Run Verif.Run.Spec Verif.Reg Verif.Reg.Spec

/-- **C97**. Checks that pass can be added to a test anywhere (in sections, try blocks, handlers, operands and destructors): if the run of
the new test ends, so does the run of the old one, with the same verdict and the same failures; the same statements of the user are
executed in the same order, between the same sections started, failures told, and skips. -/
theorem C97_test [Run.MessageLimit] {cfg : Cfg} {fuel : Nat} {t u : TestCase} (h : AddsTest t u) {y : TS}
    (hy : run cfg fuel u = some (.ok y)) :
    ∃ x, run cfg fuel t = some (.ok x) ∧ x.state = y.state ∧ x.failures = y.failures ∧ x.allowed = y.allowed ∧
      x.log.filterMap essence = y.log.filterMap essence := by
  obtain ⟨x, hx, hl⟩ := Run.Neutral.run_adds h hy
  have := Run.Neutral.like_iff.mp hl
  rw [Run.Neutral.ess_true] at this
  exact ⟨x, hx, this.2.2.2.2.2.2.2.2.2.2.2.1, this.2.2.2.2.2.2.1, this.2.2.2.2.2.2.2.1, this.2.2.2.2.2.2.2.2.2.2.2.2⟩

/-- **C97**. The run of the new test does end if it is written as documented and keeps within the limits. -/
theorem C97_tidy [Run.MessageLimit] {cfg : Cfg} {t u : TestCase} (h : AddsTest t u) {tags : List Filter.ParsedTag}
    (hf : Fits cfg u tags) (ht : Always Tidy u.body) {fuel : Nat} (hfuel : passCount u.body.first ≤ fuel) :
    ∃ x y, run cfg fuel t = some (.ok x) ∧ run cfg fuel u = some (.ok y) ∧ x.state = y.state ∧ x.failures = y.failures ∧
      x.allowed = y.allowed ∧ x.log.filterMap essence = y.log.filterMap essence := by
  obtain ⟨y, hy, _⟩ := C19_meaning hf ht hfuel
  obtain ⟨x, hx, h'⟩ := C97_test h hy
  exact ⟨x, y, hx, hy, h'⟩

/-- **C97**. For a whole program, with any command line: the same exit status, and the same output apart from checks that pass, numbers of
assertions, places of failures and ends of sections. -/
theorem C97_program [Run.MessageLimit] {lim : Limits} {fuel maxArgs : Nat} {reporters : List Text} {init : Nat → Nat → Nat}
    {config : Cli.Config} {argv0 : Text} {argv : List Text} {cs ds : List Case}
    (h : List.Forall₂ (fun c d : Case => AddsTest c.test d.test) cs ds) {code : Nat} {out : List Out}
    (hr : main lim fuel maxArgs reporters init config argv0 argv ds = some (.ok (code, out))) :
    ∃ out', main lim fuel maxArgs reporters init config argv0 argv cs = some (.ok (code, out')) ∧
      out'.filterMap essenceOut = out.filterMap essenceOut :=
  Reg.Neutral.main_adds h hr

/-- `SECTION(1) { user 10; CHECK(false); } try { throw e; } catch (...) { user 20; } SECTION(2) { SKIP(); }` -/
def beforeChecks : Prog :=
  .sec 1 2 (.stmt (.act 10) (.stmt (.check 3 (.val false) false "CHECK(false)".toList) .done))
    (.tryCatch none (.stmt (.throw ⟨[7], none, false⟩) .done) (.stmt (.act 20) .done)
      (.sec 2 5 (.stmt (.skip 6 true "later".toList) .done) .done))

/-- The same with a check of each kind added. -/
def afterChecks : Prog :=
  .stmt (.check 11 (.val true) true "REQUIRE(true)".toList)
  (.sec 1 2 (.stmt (.act 10) (.stmt (.nothrow 12 none "f()".toList false)
      (.stmt (.check 3 (.val false) false "CHECK(false)".toList) .done)))
    (.tryCatch none (.stmt (.check 13 (.val true) false "CHECK(true)".toList) (.stmt (.throw ⟨[7], none, false⟩) .done))
      (.stmt (.act 20) (.stmt .notify .done))
      (.stmt (.throwsAs 14 (some ⟨[7], none, false⟩) 7 "E".toList true)
        (.sec 2 5 (.stmt (.throwsMatches 15 (some ⟨[7], none, false⟩) 7 "E".toList true "m".toList true)
          (.stmt (.skip 6 true "later".toList) .done)) .done))))

theorem afterChecks_adds : Adds beforeChecks afterChecks :=
  .more rfl (.sec (.stmt (.more rfl (.stmt .done)))
    (.tryCatch (.more rfl (.stmt .done)) (.stmt (.more rfl .done)) (.more rfl (.sec (.more rfl (.stmt .done)) .done))))

theorem adds_one {name tags : String} {p q : Prog} (h : Adds p q) : AddsTest (mkTest name tags p) (mkTest name tags q) :=
  ⟨rfl, rfl, fun n => by cases n <;> exact h⟩

/-- The hypotheses can be met. -/
example : AddsTest (mkTest "t" "" beforeChecks) (mkTest "t" "" afterChecks) ∧
    Fits (defaults 3) (mkTest "t" "" afterChecks) [] ∧ Always Tidy (mkTest "t" "" afterChecks).body ∧
    passCount (mkTest "t" "" afterChecks).body.first = 2 := by
  have ht : Tidy afterChecks := by simp [Tidy, afterChecks, leaves, Notifies, Bare]
  exact ⟨adds_one afterChecks_adds, ⟨alike_one _, always_one (by decide), always_one (by decide), rfl⟩, always_one ht, by decide⟩

/-- The number of assertions and what matters of the events, if the run ends. -/
def outline (o : Option (Outcome TS)) : Option (Nat × List Essence) :=
  match o with
  | some (.ok s) => some (s.asserts, s.log.filterMap essence)
  | _ => none

/-- What the two tests of the example have in common. -/
def inCommon : List Essence :=
  [.caseStarted ⟨"t".toList, [], []⟩, .sectionStarted 1, .user 10, .failure "CHECK(false)".toList false false, .user 20, .user 20,
    .sectionStarted 2, .skip [2] [] 6 "later".toList, .caseEnded ⟨"t".toList, [], []⟩ 1 0 .failed]

open Defaults in
example : outline (run (defaults 3) 2 (mkTest "t" "" beforeChecks)) = some (1, inCommon) ∧
    outline (run (defaults 3) 2 (mkTest "t" "" afterChecks)) = some (9, inCommon) := by decide +kernel

/-! ## What may change -/

/-- `n` sections inside each other around some code. -/
def deep : Nat → Prog → Prog
  | 0, p => p
  | n + 1, p => .sec n n (deep n p) .done

open Defaults in
/-- **C97**. The place shown with a failure may change: if an operand makes a check of its own, the failure of the outer check is no longer
said to be at its exact place, though the inner check passes. -/
theorem C97_place :
    (∃ x, run (defaults 0) 1 (plain (.nested 5 .done (.check false false "a".toList) .done)) = some (.ok x) ∧
      x.log = [.assertionFailed ⟨[], [], 5, .exact⟩ "a".toList false false]) ∧
    ∃ x, run (defaults 0) 1 (plain (.nested 5 (.stmt (.check 6 (.val true) false "b".toList) .done)
        (.check false false "a".toList) .done)) = some (.ok x) ∧
      x.log = [.assertionFailed ⟨[], [], 5, .inCheck⟩ "a".toList false false] :=
  ⟨⟨_, rfl, by decide⟩, ⟨_, rfl, by decide⟩⟩

open Defaults in
/-- **C97**. That the run of the new test ends has to be asked for: a check inside an operand needs one more location, and at the deepest
level of sections there is none left, so the program is aborted. -/
theorem C97_limit :
    (∃ x, run (defaults 3) 1 (plain (deep 8 (.nested 5 .done (.check true false []) .done))) = some (.ok x) ∧ x.state = .success) ∧
    run (defaults 3) 1 (plain (deep 8 (.nested 5 (.stmt (.check 6 (.val true) false []) .done) (.check true false []) .done))) =
      some .abort :=
  ⟨⟨_, rfl, by decide⟩, rfl⟩

end Verif.Props
