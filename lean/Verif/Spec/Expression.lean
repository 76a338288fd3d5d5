import Verif.Model.Expression
import Verif.Spec.StringUtil
/-!
# What a comparison displays
-/
namespace Verif.Expr.Spec

/-- The symbols a reader sees, and the relation each stands for. -/
def symbols {α β : Type} : List (Text × (Comparison α β → α → β → Bool)) :=
  [("<".toList, Comparison.lt), (">".toList, Comparison.gt), ("<=".toList, Comparison.le),
    (">=".toList, Comparison.ge), ("==".toList, Comparison.eq), ("!=".toList, Comparison.ne)]

/-- The relation a C++ operator stands for. -/
def meaning {α β : Type} : Op → Comparison α β → α → β → Bool
  | .less, c => c.lt
  | .greater, c => c.gt
  | .lessEqual, c => c.le
  | .greaterEqual, c => c.ge
  | .equal, c => c.eq
  | .notEqual, c => c.ne

/-- The comparisons behave like those of a totally ordered type: each is the negation of its
opposite. -/
def Total {α β : Type} (c : Comparison α β) : Prop :=
  ∀ l r, c.ge l r = !c.lt l r ∧ c.le l r = !c.gt l r ∧ c.ne l r = !c.eq l r

/-- How an operand is displayed. -/
def display : Option Text → Text
  | some t => t
  | none => "?".toList

/-- A text is displayed in `cap` characters only if it fits completely. -/
def allOrNothing (cap : Nat) (t : Text) : Text := if t.length ≤ cap then t else []

/-- `'a', 'b', 'c'` -/
def quotedList {α : Type} (showV : α → Text) : List α → Text
  | [] => []
  | [v] => "'".toList ++ showV v ++ "'".toList
  | v :: w :: vs => "'".toList ++ showV v ++ "', ".toList ++ quotedList showV (w :: vs)

end Verif.Expr.Spec
