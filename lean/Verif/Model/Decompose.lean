import Verif.Model.Expression
import Verif.Spec.Cpp
/-!
# Model of the decomposition of conditions

Source: include/snitch/snitch_expression.hpp 58-291, include/snitch/snitch_macros_check_base.hpp 22-38,
include/snitch/snitch_macros_check.hpp 15-30.

The macros put `expression_extractor{...} <=` in front of the condition; how the result is grouped is decided by the
C++ grammar (Verif/Spec/Cpp.lean), and what it means by the operators overloaded for the types that come out.
Simplified: all operands have one type `V`, for which all operators exist and are without side effects, and which can be
converted to `bool`; no operand is a matcher (see `withMatcher` in Verif/Model/Expression.lean).
-/
namespace Verif.Decompose
open Verif.Cpp

/-- What `expression_extractor{...} <= ...` can be, by type: include/snitch/snitch_expression.hpp 276-285
`expression_extractor`, 194-274 `extracted_unary_expression`, 99-192 `extracted_binary_expression`,
60-97 `invalid_expression`. The operands are those of the condition. -/
inductive Form (α : Type) where
  | extractor
  | unary (e : Expr α)
  | binary (o : Op) (l r : Expr α)
  | invalid
deriving DecidableEq, Repr

/-- include/snitch/snitch_expression.hpp 71-92: the operators of `invalid_expression`. The comma is missing. -/
def invalidOps : List Op :=
  [.le, .lt, .ge, .gt, .eq, .ne, .and, .or, .assign, .addAssign, .subAssign, .mulAssign, .divAssign, .modAssign,
    .xorAssign, .andAssign, .orAssign, .shlAssign, .shrAssign, .bitXor, .bitOr, .bitAnd]

/-- include/snitch/snitch_expression.hpp 121-145: the operators of `extracted_binary_expression`. -/
def binaryOps : List Op :=
  [.le, .lt, .ge, .gt, .eq, .ne, .and, .or, .assign, .addAssign, .subAssign, .mulAssign, .divAssign, .modAssign,
    .xorAssign, .andAssign, .orAssign, .shlAssign, .shrAssign, .bitXor, .bitOr, .bitAnd, .comma]

/-- include/snitch/snitch_expression.hpp 212-217: the operators of `extracted_unary_expression` that are
decomposed. -/
def decomposedOps : List Op := [.lt, .gt, .le, .ge, .eq, .ne]

/-- include/snitch/snitch_expression.hpp 229-247: the other operators of `extracted_unary_expression`. -/
def unaryOps : List Op :=
  [.and, .or, .assign, .addAssign, .subAssign, .mulAssign, .divAssign, .modAssign,
    .xorAssign, .andAssign, .orAssign, .shlAssign, .shrAssign, .bitXor, .bitOr, .bitAnd, .comma]

/-- An overloaded operator applied: include/snitch/snitch_expression.hpp 280-284, 205-210, 223-227, 115-119,
65-69. `none`: there is no such operator, the program is refused by the compiler (for the comma: the built-in one is
chosen, and `to_expression` is not found afterwards). -/
def Form.apply {α : Type} : Form α → Op → Expr α → Option (Form α)
  | .extractor, o, r => if o = .le then some (.unary r) else none
  | .unary e, o, r =>
    if o ∈ decomposedOps then some (.binary o e r) else if o ∈ unaryOps then some .invalid else none
  | .binary _ _ _, o, _ => if o ∈ binaryOps then some .invalid else none
  | .invalid, o, _ => if o ∈ invalidOps then some .invalid else none

/-- The operands of an expression in which the extractor (`none`) does not occur. -/
def plain {α : Type} : Expr (Option α) → Option (Expr α)
  | .operand a => a.map .operand
  | .node l o r => do return .node (← plain l) o (← plain r)

/-- What the text with the extractor (`none`) in front is, once grouped: include/snitch/snitch_macros_check_base.hpp
24. -/
def form {α : Type} : Expr (Option α) → Option (Form α)
  | .operand none => some .extractor
  | .operand (some _) => none
  | .node l o r => do (← form l).apply o (← plain r)

/-- The meaning of operands and operators: values, their conversion to `bool`, and the texts they are printed as. -/
structure Meaning (α V : Type) where
  operand : α → V
  operator : Op → V → V → V
  truth : V → Bool
  display : V → Option Text

/-- The comparison functions of include/snitch/snitch_expression.hpp 31-36. -/
def comparison : Op → Option Expr.Op
  | .lt => some .less
  | .gt => some .greater
  | .le => some .lessEqual
  | .ge => some .greaterEqual
  | .eq => some .equal
  | .ne => some .notEqual
  | _ => none

/-- The C++ comparison operators of `V`; include/snitch/snitch_expression.hpp 23-28 converts their results to
`bool`. -/
def Meaning.comparisons {α V : Type} (m : Meaning α V) : Expr.Comparison V V where
  lt a b := m.truth (m.operator .lt a b)
  gt a b := m.truth (m.operator .gt a b)
  le a b := m.truth (m.operator .le a b)
  ge a b := m.truth (m.operator .ge a b)
  eq a b := m.truth (m.operator .eq a b)
  ne a b := m.truth (m.operator .ne a b)

/-- include/snitch/snitch_macros_check.hpp 15-30: the expression reported by `CHECK(condition)` (`expected` is
true), `CHECK_FALSE`, `REQUIRE`, `REQUIRE_FALSE`; `condition` is the condition as grouped by C++, `spliced` what
stands behind `(` in include/snitch/snitch_macros_check_base.hpp 24. `none`: refused by the compiler. `to_expression`
of the extractor does not exist. -/
def requireImpl {α V : Type} (m : Meaning α V) (always ce : Bool) (cap : Nat) (expected : Bool) (condition : Expr α)
    (spliced : Expr (Option α)) : Option (Outcome Expr.Expression) :=
  match form spliced with
  | some (.unary e) =>
    some (Expr.unary always ce cap expected m.truth m.display (e.value m.operand m.operator))
  | some (.binary o l r) =>
    (comparison o).map fun o =>
      Expr.binary always ce cap expected m.comparisons o m.display m.display (l.value m.operand m.operator)
        (r.value m.operand m.operator)
  | some .invalid =>
    some (.ok (Expr.undecomposed expected (m.truth (condition.value m.operand m.operator))))
  | some .extractor | none => none

end Verif.Decompose
