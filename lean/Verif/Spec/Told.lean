import Verif.Spec.Sections
import Verif.Spec.Xml
/-!
# From the events of a run to the events a reporter is given

The model of running tests has events with less detail than the ones reporters get. The relation `Told`
says which reporter events belong to an event of the run: any names, locations, texts and durations are
allowed where the model of running tests has none.
-/
namespace Verif.Report.Spec
open Verif

/-- The state of a test case as reporters see it. -/
def publicState : Run.CaseState → Option State
  | .notRun => none
  | .success => some .success
  | .skipped => some .skipped
  | .failed => some .failed
  | .allowedFail => some .allowedFail

/-- The reporter events that belong to an event of the run. -/
inductive Told : Run.Event → List Event → Prop where
  | user (a : Nat) : Told (.user a) []
  | sectionStarted (id : Nat) (sid : SectionId) (loc : Location) :
      Told (.sectionStarted id) [.sectionStarted sid loc]
  | sectionEnded (id : Nat) (skipped : Bool) (a f al : Nat) (sid : SectionId) (loc : Location) (d : Text) :
      Told (.sectionEnded id skipped a f al) [.sectionEnded sid loc skipped ⟨a, f, al⟩ d]
  | assertionSucceeded (ctx : Run.Ctx) (t : Text) (id : Id) (loc : Location) (data : Data) :
      Told (.assertionSucceeded ctx t) [.assertionSucceeded id ctx.caps loc data]
  | assertionFailed (ctx : Run.Ctx) (t : Text) (ex al : Bool) (id : Id) (loc : Location) (data : Data) :
      Told (.assertionFailed ctx t ex al) [.assertionFailed id ctx.caps loc data ex al]
  | caseSkipped (ctx : Run.Ctx) (m : Text) (id : Id) (loc : Location) :
      Told (.caseSkipped ctx m) [.caseSkipped id ctx.caps loc m]
  | caseStarted (id : Filter.TestId) (fixture : Text) (loc : Location) :
      Told (.caseStarted id) [.caseStarted ⟨id.name, id.tags, id.type, fixture⟩ loc]
  | caseEnded (id : Filter.TestId) (a f al : Nat) (st : Run.CaseState) (pst : State) (fixture : Text)
      (loc : Location) (d : Text) (us : Nat) : publicState st = some pst →
      Told (.caseEnded id a f al st) [.caseEnded ⟨id.name, id.tags, id.type, fixture⟩ loc pst d us]
  | runStarted (name : Text) (filters : List Text) : Told .runStarted [.runStarted name filters]
  | runEnded (run fail allowedFail skip a f al : Nat) (success : Bool) (name : Text)
      (filters : List Text) :
      Told (.runEnded run fail allowedFail skip a f al success)
        [.runEnded name filters run fail allowedFail skip ⟨a, f, al⟩]

/-- The reporter events of a log. -/
inductive ToldAll : List Run.Event → List Event → Prop where
  | nil : ToldAll [] []
  | cons {e es log events} : Told e es → ToldAll log events → ToldAll (e :: log) (es ++ events)

/-- Starts and ends that match like brackets. -/
inductive Nested : List (Nat × Bool) → Prop where
  | nil : Nested []
  | pair {id inner rest} : Nested inner → Nested rest →
      Nested ((id, true) :: inner ++ (id, false) :: rest)

/-- The name of the test an element is about. -/
def testName : Node → Option Text
  | .elem n ((k, v) :: _) _ => if n = "TestCase".toList ∧ k = "name".toList then some v else none
  | _ => none

/-- What an element about a test says about its result: the attribute `success` of its last child. -/
def testSuccess : Node → Option Text
  | .elem n _ children =>
    match children.getLast? with
    | some (.elem m ((k, v) :: _) _) =>
      if n = "TestCase".toList ∧ m = "OverallResult".toList ∧ k = "success".toList then some v else none
    | _ => none
  | _ => none

end Verif.Report.Spec
