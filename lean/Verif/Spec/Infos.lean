import Verif.Spec.Neutral
/-!
# Specification of `INFO` and `CAPTURE` being added to a test
-/
namespace Verif.Run.Spec
open Verif.Run

/-- `Notes p q`: the code `q` is `p` with any number of `INFO` and `CAPTURE` added, in any places. -/
inductive Notes : Prog → Prog → Prop
  | done : Notes .done .done
  | more {caps p q} : Notes p q → Notes p (.capture caps q)
  | stmt {m p q} : Notes p q → Notes (.stmt m p) (.stmt m q)
  | sec {id loc b c p q} : Notes b c → Notes p q → Notes (.sec id loc b p) (.sec id loc c q)
  | capture {caps p q} : Notes p q → Notes (.capture caps p) (.capture caps q)
  | block {b c p q} : Notes b c → Notes p q → Notes (.block b p) (.block c q)
  | tryCatch {type b c g h p q} : Notes b c → Notes g h → Notes p q → Notes (.tryCatch type b g p) (.tryCatch type c h q)
  | nested {loc b c ask p q} : Notes b c → Notes p q → Notes (.nested loc b ask p) (.nested loc c ask q)
  | guard {b c p q} : Notes b c → Notes p q → Notes (.guard b p) (.guard c q)

/-- The same test, with `INFO` and `CAPTURE` added to its executions. -/
structure NotesTest (t u : TestCase) : Prop where
  id : u.id = t.id
  loc : u.loc = t.loc
  body : ∀ n, Notes (t.body.no n) (u.body.no n)

/-- What matters of an event (see `essence`) apart from the captures shown. -/
def unnoted (e : Event) : Option Essence :=
  match essence e with
  | some (.skip path _ loc msg) => some (.skip path [] loc msg)
  | x => x

end Verif.Run.Spec

namespace Verif.Reg.Spec
open Verif.Reg Verif.Run.Spec

/-- The same of the output of a program. -/
def unnotedOut : Out → Option (Essence ⊕ Out)
  | .event e => (unnoted e).map .inl
  | o => some (.inr o)

end Verif.Reg.Spec
