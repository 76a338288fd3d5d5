import Verif.Spec.TestCase
import Verif.Model.Registry
/-!
# Specification of checks that pass being added to a test
-/
namespace Verif.Run.Spec
open Verif.Run

/-- A check that passes (`CHECK` or `REQUIRE` of a condition that holds, an expected exception that is thrown, no exception where none is
expected), or `notify_exception_handled()`. -/
def passes : Stmt → Bool
  | .check _ (.val ok) _ _ => ok
  | .throwsAs _ ev type _ _ => throwsType ev type
  | .throwsMatches _ ev type _ matched _ _ => throwsType ev type && matched
  | .nothrow _ ev _ _ => ev.isNone
  | .notify => true
  | _ => false

/-- `Adds p q`: the code `q` is `p` with any number of such checks added, in any places. -/
inductive Adds : Prog → Prog → Prop
  | done : Adds .done .done
  | more {m p q} : passes m = true → Adds p q → Adds p (.stmt m q)
  | stmt {m p q} : Adds p q → Adds (.stmt m p) (.stmt m q)
  | sec {id loc b c p q} : Adds b c → Adds p q → Adds (.sec id loc b p) (.sec id loc c q)
  | capture {caps p q} : Adds p q → Adds (.capture caps p) (.capture caps q)
  | block {b c p q} : Adds b c → Adds p q → Adds (.block b p) (.block c q)
  | tryCatch {type b c g h p q} : Adds b c → Adds g h → Adds p q → Adds (.tryCatch type b g p) (.tryCatch type c h q)
  | nested {loc b c ask p q} : Adds b c → Adds p q → Adds (.nested loc b ask p) (.nested loc c ask q)
  | guard {b c p q} : Adds b c → Adds p q → Adds (.guard b p) (.guard c q)

/-- The same test, with checks that pass added to its executions. -/
structure AddsTest (t u : TestCase) : Prop where
  id : u.id = t.id
  loc : u.loc = t.loc
  body : ∀ n, Adds (t.body.no n) (u.body.no n)

/-- What matters of an event, apart from numbers of assertions and the place shown with a failure: the user's own statements, sections
that are started, texts of failures, skips, the start and the end of tests with their failures and verdict. -/
inductive Essence
  | user (a : Nat)
  | sectionStarted (id : Nat)
  | failure (data : Text) (expected allowed : Bool)
  | skip (path : List Nat) (caps : List Text) (loc : Nat) (msg : Text)
  | caseStarted (id : Filter.TestId)
  | caseEnded (id : Filter.TestId) (failures allowed : Nat) (state : CaseState)
  | runStarted
  | runEnded (run fail allowedFail skip failures allowed : Nat) (success : Bool)
  deriving DecidableEq, Repr

/-- See `Essence`. -/
def essence : Event → Option Essence
  | .user a => some (.user a)
  | .sectionStarted id => some (.sectionStarted id)
  | .sectionEnded .. => none
  | .assertionSucceeded .. => none
  | .assertionFailed _ data expected allowed => some (.failure data expected allowed)
  | .caseSkipped c msg => some (.skip c.path c.caps c.loc msg)
  | .caseStarted id => some (.caseStarted id)
  | .caseEnded id _ failures allowed state => some (.caseEnded id failures allowed state)
  | .runStarted => some .runStarted
  | .runEnded run fail allowedFail skip _ failures allowed success =>
    some (.runEnded run fail allowedFail skip failures allowed success)

end Verif.Run.Spec

namespace Verif.Reg.Spec
open Verif.Reg Verif.Run.Spec

/-- What matters of the output of a program: what matters of the events, and everything else as it is. -/
def essenceOut : Out → Option (Essence ⊕ Out)
  | .event e => (essence e).map .inl
  | o => some (.inr o)

end Verif.Reg.Spec
