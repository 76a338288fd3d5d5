import Verif.Spec.TestCase
import Verif.Spec.Registry
/-!
# Specification of the result of a whole program

Uses the stories of test cases (Spec/TestCase) and the selection of tests (Spec/Filter).
-/
namespace Verif.Run.Spec
variable [MessageLimit]

/-- What happens in a test case: the executions of the body, one for each leaf section, and the end. -/
def happens (t : TestCase) : List Item :=
  let x := (story t.body.no (topCtx t.loc) (passCount t.body.first) 0 []).1
  x.1 ++ ending t.loc x.2

/-- The written tags of a test include this one (possibly in a short form like `[.x]`). -/
def hasTag (tags : List Text) (tag : String) : Bool := (tags.flatMap Verif.Spec.ordinary).contains tag.toList

/-- How a test case ends. A skip counts if nothing has failed before; a test that should fail fails if nothing failed;
failures are allowed for tests that may or should fail. -/
def verdictOf (t : TestCase) (tags : List Text) : CaseState :=
  let may := hasTag tags "!mayfail"
  let should := hasTag tags "!shouldfail"
  if skipsTest (happens t) then .skipped
  else if (happens t).any Item.isFailure then (if may || should then .allowedFail else .failed)
  else if should then (if may then .allowedFail else .failed)
  else .success

end Verif.Run.Spec
