import Verif.Spec.TestCase
/-!
# Specification of try blocks in which nothing is thrown
-/
namespace Verif.Run.Spec
open Verif.Run

/-- Code from which no exception comes: statements that neither throw nor skip nor abort, anywhere in sections, blocks, try blocks,
operands and destructors. (Checks may fail. Handlers of such try blocks are not executed, whatever is in them.) -/
def quiet : Prog → Bool
  | .done => true
  | .stmt m k => calmStmt m && quiet k
  | .sec _ _ b k => quiet b && quiet k
  | .capture _ k => quiet k
  | .block b k => quiet b && quiet k
  | .tryCatch _ b _ k => quiet b && quiet k
  | .nested _ o ask k => calmAsk ask && quiet o && quiet k
  | .guard c k => quiet c && quiet k

/-- The same code without the try blocks in which nothing is thrown: `try { b } catch (...) { h }` becomes `{ b }`. -/
def unTry : Prog → Prog
  | .done => .done
  | .stmt m k => .stmt m (unTry k)
  | .sec id loc b k => .sec id loc (unTry b) (unTry k)
  | .capture caps k => .capture caps (unTry k)
  | .block b k => .block (unTry b) (unTry k)
  | .tryCatch type b h k => if quiet b then .block (unTry b) (unTry k) else .tryCatch type (unTry b) (unTry h) (unTry k)
  | .nested loc o ask k => .nested loc (unTry o) ask (unTry k)
  | .guard c k => .guard (unTry c) (unTry k)

/-- The same for all executions of a test. -/
def unTryTest (t : TestCase) : TestCase := { t with body := { first := unTry t.body.first, later := t.body.later.map unTry } }

end Verif.Run.Spec
