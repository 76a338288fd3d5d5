import Verif.Lemmas.Infos
import Verif.Props.Neutral
/-!
# C99: adding `INFO` and `CAPTURE`
-/
namespace Verif.Props
open Verif.Run Verif.Run.Spec Verif.Reg Verif.Reg.Spec

/-- **C99**. `INFO` and `CAPTURE` can be added to a test anywhere: if the run of the new test ends, so does the run of the old one, with the
same verdict and the same numbers of assertions and failures; the same statements of the user are executed in the same order, between the
same sections started, failures told, and skips. -/
theorem C99_test [Run.MessageLimit] {cfg : Cfg} {fuel : Nat} {t u : TestCase} (h : NotesTest t u) {y : TS}
    (hy : run cfg fuel u = some (.ok y)) :
    ∃ x, run cfg fuel t = some (.ok x) ∧ x.state = y.state ∧ x.asserts = y.asserts ∧ x.failures = y.failures ∧ x.allowed = y.allowed ∧
      x.log.filterMap unnoted = y.log.filterMap unnoted := by
  obtain ⟨x, hx, hl⟩ := Run.Neutral.run_notes h hy
  have := Run.Neutral.like_iff.mp hl
  rw [Run.Neutral.ess_false] at this
  exact ⟨x, hx, this.2.2.2.2.2.2.2.2.2.2.2.1, congrArg Prod.snd this.2.2.2.2.1, this.2.2.2.2.2.2.1, this.2.2.2.2.2.2.2.1,
    this.2.2.2.2.2.2.2.2.2.2.2.2⟩

/-- **C99**. The run of the new test does end if it is written as documented and keeps within the limits. -/
theorem C99_tidy [Run.MessageLimit] {cfg : Cfg} {t u : TestCase} (h : NotesTest t u) {tags : List Filter.ParsedTag}
    (hf : Fits cfg u tags) (ht : Always Tidy u.body) {fuel : Nat} (hfuel : passCount u.body.first ≤ fuel) :
    ∃ x y, run cfg fuel t = some (.ok x) ∧ run cfg fuel u = some (.ok y) ∧ x.state = y.state ∧ x.asserts = y.asserts ∧
      x.failures = y.failures ∧ x.allowed = y.allowed ∧ x.log.filterMap unnoted = y.log.filterMap unnoted := by
  obtain ⟨y, hy, _⟩ := C19_meaning hf ht hfuel
  obtain ⟨x, hx, h'⟩ := C99_test h hy
  exact ⟨x, y, hx, hy, h'⟩

/-- **C99**. For a whole program, with any command line: the same exit status, and the same output apart from captures, places of
failures, checks that pass, numbers of assertions and ends of sections. -/
theorem C99_program [Run.MessageLimit] {lim : Limits} {fuel maxArgs : Nat} {reporters : List Text} {init : Nat → Nat → Nat}
    {config : Cli.Config} {argv0 : Text} {argv : List Text} {cs ds : List Case}
    (h : List.Forall₂ (fun c d : Case => NotesTest c.test d.test) cs ds) {code : Nat} {out : List Out}
    (hr : main lim fuel maxArgs reporters init config argv0 argv ds = some (.ok (code, out))) :
    ∃ out', main lim fuel maxArgs reporters init config argv0 argv cs = some (.ok (code, out')) ∧
      out'.filterMap unnotedOut = out.filterMap unnotedOut :=
  Reg.Neutral.main_notes h hr

/-! ## The hypotheses can be met -/

/-- `CAPTURE(a); SECTION(1) { user 10; CHECK(false); } try { throw e; } catch (...) { user 20; } SECTION(2) { SKIP(); }` -/
def beforeNotes : Prog :=
  .capture ["a := 1".toList] (.sec 1 2 (.stmt (.act 10) (.stmt (.check 3 (.val false) false "CHECK(false)".toList) .done))
    (.tryCatch none (.stmt (.throw ⟨[7], none, false⟩) .done) (.stmt (.act 20) .done)
      (.sec 2 5 (.stmt (.skip 6 true "later".toList) .done) .done)))

/-- The same with notes everywhere. -/
def afterNotes : Prog :=
  .capture ["i".toList] (.capture ["a := 1".toList]
    (.sec 1 2 (.capture ["b := 2".toList, "c := 3".toList] (.stmt (.act 10) (.stmt (.check 3 (.val false) false "CHECK(false)".toList) .done)))
      (.tryCatch none (.capture ["x".toList] (.stmt (.throw ⟨[7], none, false⟩) .done)) (.capture ["y".toList] (.stmt (.act 20) .done))
        (.sec 2 5 (.capture ["z".toList] (.stmt (.skip 6 true "later".toList) .done)) .done))))

theorem afterNotes_notes : Notes beforeNotes afterNotes :=
  .more (.capture (.sec (.more (.stmt (.stmt .done))) (.tryCatch (.more (.stmt .done)) (.more (.stmt .done))
    (.sec (.more (.stmt .done)) .done))))

theorem notes_one {name tags : String} {p q : Prog} (h : Notes p q) : NotesTest (mkTest name tags p) (mkTest name tags q) :=
  ⟨rfl, rfl, fun n => by cases n <;> exact h⟩

example : NotesTest (mkTest "t" "" beforeNotes) (mkTest "t" "" afterNotes) ∧
    Fits (defaults 3) (mkTest "t" "" afterNotes) [] ∧ passCount (mkTest "t" "" afterNotes).body.first = 2 :=
  ⟨notes_one afterNotes_notes, ⟨alike_one _, always_one (by decide), always_one (by decide), rfl⟩, by decide⟩

/-- The number of assertions, the skips and failures with their captures, and the verdict, if the run ends. -/
def notesIn (o : Option (Outcome TS)) : Option (Nat × List (List Text) × CaseState) :=
  match o with
  | some (.ok s) => some (s.asserts, s.log.filterMap (fun e => match e with
      | .assertionFailed c .. => some c.caps
      | .caseSkipped c _ => some c.caps
      | _ => none), s.state)
  | _ => none

open Defaults in
example : notesIn (run (defaults 3) 2 (mkTest "t" "" beforeNotes)) = some (1, [["a := 1".toList], ["a := 1".toList]], .failed) ∧
    notesIn (run (defaults 3) 2 (mkTest "t" "" afterNotes)) =
      some (1, [["i".toList, "a := 1".toList, "b := 2".toList, "c := 3".toList], ["i".toList, "a := 1".toList, "z".toList]], .failed) :=
  ⟨by decide +kernel, by decide +kernel⟩

set_option maxRecDepth 20000 in
open Defaults in
/-- The two tests in a program, with a command line. -/
example : List.Forall₂ (fun c d : Case => NotesTest c.test d.test) [{ test := mkTest "t" "" beforeNotes }]
      [{ test := mkTest "t" "" afterNotes }] ∧
    ∃ out, main (defaultLimits 3) 2 1024 [] (fun _ v => v) (initialConfig true) "p".toList ["t".toList]
      [{ test := mkTest "t" "" afterNotes }] = some (.ok (1, out)) :=
  ⟨.cons (notes_one afterNotes_notes) .nil, _, by rfl⟩

/-! ## What may change -/

open Defaults in
/-- **C99**. That the run of the new test ends has to be asked for: the ninth capture (with the default limit of eight) aborts the program. -/
theorem C99_limit :
    (∃ x, run (defaults 3) 1 (plain (.capture (List.replicate 8 []) .done)) = some (.ok x) ∧ x.state = .success) ∧
    run (defaults 3) 1 (plain (.capture (List.replicate 8 []) (.capture [[]] .done))) = some .abort :=
  ⟨⟨_, rfl, by decide⟩, rfl⟩

/-- Where the failures are said to be. -/
def placesIn (o : Option (Outcome TS)) : List (List Nat × Nat) :=
  match o with
  | some (.ok s) => s.log.filterMap (fun ev => match ev with | .assertionFailed c .. => some (c.path, c.loc) | _ => none)
  | _ => []

open Defaults in
/-- **C99**. A `CAPTURE` in a handler that throws the exception again changes the place shown with the unexpected exception: without it, the
section where the exception came from is told; with it, the test case only. -/
theorem C99_place :
    placesIn (run (defaults 0) 1 (plain (.tryCatch none (.sec 1 2 (.stmt (.throw ⟨[7], none, false⟩) .done) .done)
      (.stmt (.throw ⟨[7], none, false⟩) .done) .done))) = [([1], 2)] ∧
    placesIn (run (defaults 0) 1 (plain (.tryCatch none (.sec 1 2 (.stmt (.throw ⟨[7], none, false⟩) .done) .done)
      (.capture ["a".toList] (.stmt (.throw ⟨[7], none, false⟩) .done)) .done))) = [([], 1)] :=
  ⟨by decide +kernel, by decide +kernel⟩

end Verif.Props
