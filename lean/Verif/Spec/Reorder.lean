import Verif.Spec.Separate
/-!
# Specification of tests whose sections come in another order
-/
namespace Verif.Run.Spec
open Verif.Run

/-- `q` is `p` with neighbouring sections (one directly after the other) in another order, anywhere in the code: also in sections and
in blocks. -/
inductive Reordered : Prog → Prog → Prop
  | refl (p : Prog) : Reordered p p
  | trans {p q r : Prog} : Reordered p q → Reordered q r → Reordered p r
  /-- `SECTION(a) {...} SECTION(b) {...}` becomes `SECTION(b) {...} SECTION(a) {...}` -/
  | swap (a la : Nat) (x : Prog) (b lb : Nat) (y k : Prog) : Reordered (.sec a la x (.sec b lb y k)) (.sec b lb y (.sec a la x k))
  | stmt (m : Stmt) {k k' : Prog} : Reordered k k' → Reordered (.stmt m k) (.stmt m k')
  | sec (id loc : Nat) {b b' k k' : Prog} : Reordered b b' → Reordered k k' → Reordered (.sec id loc b k) (.sec id loc b' k')
  | capture (caps : List Text) {k k' : Prog} : Reordered k k' → Reordered (.capture caps k) (.capture caps k')
  | block {b b' k k' : Prog} : Reordered b b' → Reordered k k' → Reordered (.block b k) (.block b' k')
  | tryCatch (type : Option Nat) (b h : Prog) {k k' : Prog} : Reordered k k' → Reordered (.tryCatch type b h k) (.tryCatch type b h k')
  | nested (loc : Nat) (o : Prog) (ask : Ask) {k k' : Prog} : Reordered k k' → Reordered (.nested loc o ask k) (.nested loc o ask k')
  | guard (c : Prog) {k k' : Prog} : Reordered k k' → Reordered (.guard c k) (.guard c k')

/-- The same test, which does the same in each execution, with sections in another order. -/
structure ReorderedTest (t u : TestCase) : Prop where
  id : u.id = t.id
  loc : u.loc = t.loc
  same : t.body.later = []
  same' : u.body.later = []
  body : Reordered t.body.first u.body.first

end Verif.Run.Spec
