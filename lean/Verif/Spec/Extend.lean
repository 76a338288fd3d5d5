import Verif.Spec.Separate
/-!
# Specification of tests to which sections are added
-/
namespace Verif.Run.Spec
open Verif.Run

/-- `q` is `p` with further sections, each directly before or after another section, anywhere in the code: also in sections and in
blocks. -/
inductive Extended : Prog → Prog → Prop
  | refl (p : Prog) : Extended p p
  | trans {p q r : Prog} : Extended p q → Extended q r → Extended p r
  /-- `SECTION(a) {...}` becomes `SECTION(a) {...} SECTION(b) {...}` -/
  | after (a la : Nat) (x : Prog) (b lb : Nat) (y k : Prog) : Extended (.sec a la x k) (.sec a la x (.sec b lb y k))
  /-- `SECTION(a) {...}` becomes `SECTION(b) {...} SECTION(a) {...}` -/
  | before (a la : Nat) (x : Prog) (b lb : Nat) (y k : Prog) : Extended (.sec a la x k) (.sec b lb y (.sec a la x k))
  | stmt (m : Stmt) {k k' : Prog} : Extended k k' → Extended (.stmt m k) (.stmt m k')
  | sec (id loc : Nat) {b b' k k' : Prog} : Extended b b' → Extended k k' → Extended (.sec id loc b k) (.sec id loc b' k')
  | capture (caps : List Text) {k k' : Prog} : Extended k k' → Extended (.capture caps k) (.capture caps k')
  | block {b b' k k' : Prog} : Extended b b' → Extended k k' → Extended (.block b k) (.block b' k')
  | tryCatch (type : Option Nat) (b h : Prog) {k k' : Prog} : Extended k k' → Extended (.tryCatch type b h k) (.tryCatch type b h k')
  | nested (loc : Nat) (o : Prog) (ask : Ask) {k k' : Prog} : Extended k k' → Extended (.nested loc o ask k) (.nested loc o ask k')
  | guard (c : Prog) {k k' : Prog} : Extended k k' → Extended (.guard c k) (.guard c k')

/-- The same test, which does the same in each execution, with further sections. -/
structure ExtendedTest (t u : TestCase) : Prop where
  id : u.id = t.id
  loc : u.loc = t.loc
  same : t.body.later = []
  same' : u.body.later = []
  body : Extended t.body.first u.body.first

end Verif.Run.Spec
