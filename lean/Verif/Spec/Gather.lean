import Verif.Spec.Separate
/-!
# Specification of tests gathered as the sections of one test
-/
namespace Verif.Run.Spec
open Verif.Run

/-- A test, and the section (its name and its place) which it is to become. -/
structure Part where
  id : Nat
  loc : Nat
  test : TestCase

/-- The code of a test with one section after the other, in each the code of a test. The code of a test may differ from execution to
execution: the executions that enter its section are, in order, its executions. -/
def gather : List Part → Nat → Prog
  | [], _ => .done
  | p :: ps, n => .sec p.id p.loc (p.test.body.no n) (gather ps (n - passCount p.test.body.first))

/-- A place in a test, when the test has become a section: the section comes in front, and what was directly in the test is directly in
the section. -/
def Part.place (p : Part) (c : Ctx) : Ctx :=
  { c with path := p.id :: c.path
           loc := if c.locType = .testCaseScope then p.loc else c.loc
           locType := if c.locType = .testCaseScope then .sectionScope else c.locType }

/-- The same for what was done. -/
def Part.deed (p : Part) : Deed → Deed
  | .did a => .did a
  | .failed ctx text => .failed (p.place ctx) text

variable [MessageLimit]

/-- The test is ended by an exception that leaves it (that of a failed `REQUIRE`, or another one), in whichever execution. -/
def stopped (t : TestCase) : Prop :=
  (story t.body.no (topCtx t.loc) (passCount t.body.first) 0 []).1.2 ≠ .normal

end Verif.Run.Spec
