import Verif.Model.Events
import Verif.Spec.Told
import Verif.Spec.Program
/-!
# Specification of what events have to tell
-/
namespace Verif.Events.Spec
open Verif.Report

/-- The event is about the test with this identity, declared at this place (events about sections do not name their test). -/
def About (id : Id) (loc : Location) : Event → Prop
  | .caseStarted i l => i = id ∧ l = loc
  | .caseEnded i l _ _ _ _ _ => i = id ∧ l = loc
  | .assertionFailed i _ _ _ _ => i = id
  | .assertionSucceeded i _ _ => i = id
  | .caseSkipped i _ _ => i = id
  | .sectionStarted _ _ => True
  | .sectionEnded _ _ _ _ _ => True
  | _ => False

/-- What is told about what happens in a test. -/
inductive Heard where
  | enter (sec : Section)
  | leave (sec : Section)
  | assertion (ok : Bool) (place : Place) (data : Data)
  | skip (place : Place) (message : Text)
deriving DecidableEq, Repr

/-- What an event tells about what happens in its test. -/
def heard : Event → Option Heard
  | .sectionStarted id loc => some (.enter ⟨id, loc⟩)
  | .sectionEnded id loc .. => some (.leave ⟨id, loc⟩)
  | .assertionSucceeded _ place data => some (.assertion true place data)
  | .assertionFailed _ place data _ _ => some (.assertion false place data)
  | .caseSkipped _ place message => some (.skip place message)
  | _ => none

/-- What there is to be told about something that happens: sections with names and places, and for assertions and skips the
sections they are in, the captures that hold there, and the place in the source. -/
def toTell (src : Source) : Run.Spec.Item → Option Heard
  | .enter k _ => some (.enter (src.sec k))
  | .leave k _ => some (.leave (src.sec k))
  | .assertion ok ctx d => some (.assertion ok ⟨ctx.path.map src.sec, ctx.caps, src.loc ctx.loc, ctx.locType⟩
      (src.data ctx d))
  | .skip ctx m => some (.skip ⟨ctx.path.map src.sec, ctx.caps, src.loc ctx.loc, ctx.locType⟩ m)
  | _ => none

/-- The flags of the failures that are told: expected, allowed. -/
def failedFlags : Event → Option (Bool × Bool)
  | .assertionFailed _ _ _ expected allowed => some (expected, allowed)
  | _ => none

/-- The identity of a test, from its declaration. -/
def declared (src : Source) (t : Run.TestCase) : Id :=
  { name := t.id.name, tags := t.id.tags, type := t.id.type, fixture := src.fixture t }

/-- The number of assertions in a test. -/
def assertions [Run.MessageLimit] (t : Run.TestCase) (tags : List Text) : Nat :=
  ((Run.Spec.caseStory t (Run.Spec.hasTag tags "!shouldfail")).filter Run.Spec.Item.isAssertion).length

/-- What is told about one test with the given tags, at verbosity `v`: everything is about this test; what happens in it is
told as it happens, as far as the verbosity allows; from *high* on its start comes first and its end last, with what became of
it and the numbers of assertions, failures, and failures that were expected or allowed; failures are marked as expected and
allowed if the test has the tags that say so, except for the failure which says that a test that should fail did not. The two
flags of the end are left open. -/
structure OneTest (src : Source) (v : Nat) (t : Run.TestCase) (tags : List Text) (es : List Event)
    [Run.MessageLimit] : Prop where
  about : ∀ e ∈ es, About (declared src t) (src.loc t.loc) e
  story : es.filterMap heard = ((Run.Spec.caseStory t (Run.Spec.hasTag tags "!shouldfail")).filter
    (Run.Spec.Item.visible v)).filterMap (toTell src)
  ends : 2 ≤ v → ∃ mid counts state duration expected allowed, es = .caseStarted (declared src t) (src.loc t.loc) :: mid ++
    [.caseEnded (declared src t) (src.loc t.loc) counts state duration expected allowed] ∧
    Report.Spec.publicState (Run.Spec.verdictOf t tags) = some state ∧
    counts.all = assertions t tags ∧ counts.failed = (es.filterMap failedFlags).count (false, false) ∧
    counts.failed + counts.allowed = (es.filterMap failedFlags).length
  failures : (∀ x ∈ es.filterMap failedFlags, x = (Run.Spec.hasTag tags "!shouldfail", Run.Spec.hasTag tags "!mayfail")) ∨
    (Run.Spec.hasTag tags "!shouldfail" = true ∧ es.filterMap failedFlags = [(false, Run.Spec.hasTag tags "!mayfail")])

/-- The flags at the end of a test say whether failures were expected or allowed. -/
def FlagsTrue (shouldFail mayFail : Bool) : Event → Prop
  | .caseEnded _ _ _ _ _ expected allowed => expected = shouldFail ∧ allowed = mayFail
  | _ => True

/-- An event that names the program and the filters. -/
def named : Event → Option (Text × List Text)
  | .runStarted name filters => some (name, filters)
  | .runEnded name filters .. => some (name, filters)
  | .listStarted name filters => some (name, filters)
  | .listEnded name filters => some (name, filters)
  | _ => none

end Verif.Events.Spec
