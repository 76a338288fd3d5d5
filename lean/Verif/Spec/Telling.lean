import Verif.Spec.Events
import Verif.Spec.Narration
/-!
# Specification of what a program may tell its reporter

From the declarations of the tests alone: no execution is needed to say which events may be told.
-/
namespace Verif.Events.Spec
open Verif.Report

/-- What happens in a test with these tags. -/
def storyOf [Run.MessageLimit] (t : Run.TestCase) (tags : List Text) : List Run.Spec.Item :=
  Run.Spec.caseStory t (Run.Spec.hasTag tags "!shouldfail")

/-- Counts of at most `n` assertions. -/
def Within (n : Nat) (c : Counts) : Prop := c.all ≤ n ∧ c.failed + c.allowed ≤ c.all

/-- The place of an assertion or skip. -/
def placeOf (src : Source) (ctx : Run.Ctx) : Place := ⟨ctx.path.map src.sec, ctx.caps, src.loc ctx.loc, ctx.locType⟩

/-- The events that may be told about a test with these tags. -/
inductive TestMayTell [Run.MessageLimit] (src : Source) (t : Run.TestCase) (tags : List Text) : Event → Prop
  | started : TestMayTell src t tags (.caseStarted (declared src t) (src.loc t.loc))
  | ended {counts : Counts} (state : State) (n : Nat) : Within (assertions t tags) counts →
      TestMayTell src t tags (.caseEnded (declared src t) (src.loc t.loc) counts state (src.duration n) false false)
  | entered {k : Nat} {first : Bool} : .enter k first ∈ storyOf t tags →
      TestMayTell src t tags (.sectionStarted (src.sec k).id (src.sec k).loc)
  | left {k : Nat} {last : Bool} (skipped : Bool) {counts : Counts} (n : Nat) : .leave k last ∈ storyOf t tags →
      Within (assertions t tags) counts →
      TestMayTell src t tags (.sectionEnded (src.sec k).id (src.sec k).loc skipped counts (src.duration n))
  | succeeded {ctx : Run.Ctx} {d : Text} : .assertion true ctx d ∈ storyOf t tags →
      TestMayTell src t tags (.assertionSucceeded (declared src t) (placeOf src ctx) (src.data ctx d))
  | failed {ctx : Run.Ctx} {d : Text} (expected allowed : Bool) : .assertion false ctx d ∈ storyOf t tags →
      TestMayTell src t tags (.assertionFailed (declared src t) (placeOf src ctx) (src.data ctx d) expected allowed)
  | skipped {ctx : Run.Ctx} {m : Text} : .skip ctx m ∈ storyOf t tags →
      TestMayTell src t tags (.caseSkipped (declared src t) (placeOf src ctx) m)

/-- The events that may be told by a program of this name, with these tests and filters. -/
inductive MayTell [Run.MessageLimit] (src : Source) (tags : Reg.Case → List Text) (cases : List Reg.Case) (name : Text)
    (filters : List Text) : Event → Prop
  | runStarted : MayTell src tags cases name filters (.runStarted name filters)
  | runEnded {run fail allowedFail skip : Nat} {counts : Counts} (n : Nat) (success : Bool) : run ≤ cases.length →
      fail + allowedFail ≤ run → skip ≤ run →
      Within (cases.map fun c => assertions c.test (tags c)).sum counts →
      MayTell src tags cases name filters
        (.runEnded name filters run fail allowedFail skip counts (src.duration n) success)
  | test {c : Reg.Case} {e : Event} : c ∈ cases → TestMayTell src c.test (tags c) e →
      MayTell src tags cases name filters e

/-- The failures in a test. -/
def failuresIn [Run.MessageLimit] (t : Run.TestCase) (tags : List Text) : Nat :=
  ((storyOf t tags).filter Run.Spec.Item.isFailure).length

/-- The failures in a test that count: none if they are expected or allowed. -/
def realFailures [Run.MessageLimit] (t : Run.TestCase) (tags : List Text) : Nat :=
  if failsAsExpected t tags || Run.Spec.hasTag tags "!mayfail" then 0 else failuresIn t tags

/-- The sections that begin for the first time and end for the last time in what happens. -/
def marksOf (story : List Run.Spec.Item) : List (Nat × Bool) :=
  story.filterMap fun x => match x with
    | .enter k true => some (k, true)
    | .leave k true => some (k, false)
    | _ => none

/-- A number of events that is not exceeded. -/
def eventBound [Run.MessageLimit] (tags : Reg.Case → List Text) (cases : List Reg.Case) : Nat :=
  2 + (cases.map fun c => 2 + (storyOf c.test (tags c)).length).sum

end Verif.Events.Spec
