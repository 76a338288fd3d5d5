/-!
# How C++ groups binary operators

Independent of the model: the grammar of C++ expressions made of operands and binary operators ([expr] of the
standard, 7.6.4 to 7.6.20). What binds more tightly than all of these, or is in parentheses, is part of an
operand. The conditional operator and `throw` are left out.
-/
namespace Verif.Cpp

/-- The binary operators of C++. -/
inductive Op where
  | member                      -- `.*` and `->*`
  | mul | div | mod
  | add | sub
  | shl | shr
  | spaceship
  | lt | gt | le | ge
  | eq | ne
  | bitAnd
  | bitXor
  | bitOr
  | and
  | or
  | assign | addAssign | subAssign | mulAssign | divAssign | modAssign | xorAssign | andAssign | orAssign | shlAssign
  | shrAssign
  | comma
deriving DecidableEq, Repr

/-- How tightly an operator binds. -/
def Op.level : Op → Nat
  | .member => 13
  | .mul | .div | .mod => 12
  | .add | .sub => 11
  | .shl | .shr => 10
  | .spaceship => 9
  | .lt | .gt | .le | .ge => 8
  | .eq | .ne => 7
  | .bitAnd => 6
  | .bitXor => 5
  | .bitOr => 4
  | .and => 3
  | .or => 2
  | .assign | .addAssign | .subAssign | .mulAssign | .divAssign | .modAssign | .xorAssign | .andAssign | .orAssign
  | .shlAssign | .shrAssign => 1
  | .comma => 0

/-- Assignments are grouped from the right, all others from the left. -/
def Op.fromRight (o : Op) : Bool := o.level == 1

/-- The six comparisons. -/
def Op.isComparison : Op → Bool
  | .lt | .gt | .le | .ge | .eq | .ne => true
  | _ => false

/-- Expressions, grouped. -/
inductive Expr (α : Type) where
  | operand (a : α)
  | node (l : Expr α) (o : Op) (r : Expr α)
deriving DecidableEq, Repr

/-- How tightly an expression binds: operands bind more tightly than any operator. -/
def Expr.level {α : Type} : Expr α → Nat
  | .operand _ => 14
  | .node _ o _ => o.level

/-- What is written: the first operand, and the others with the operator before each. -/
def Expr.written {α : Type} : Expr α → α × List (Op × α)
  | .operand a => (a, [])
  | .node l o r => (l.written.1, l.written.2 ++ (o, r.written.1) :: r.written.2)

/-- The grouping is that of the C++ grammar: an operator has on its sides only what binds more tightly or, on the
side it is grouped from, equally tightly. -/
def Expr.Grouped {α : Type} : Expr α → Prop
  | .operand _ => True
  | .node l o r => l.Grouped ∧ r.Grouped ∧
    if o.fromRight then o.level < l.level ∧ o.level ≤ r.level else o.level ≤ l.level ∧ o.level < r.level

/-- The value of an expression, from the values of the operands and the meaning of the operators. -/
def Expr.value {α V : Type} (operand : α → V) (meaning : Op → V → V → V) : Expr α → V
  | .operand a => operand a
  | .node l o r => meaning o (l.value operand meaning) (r.value operand meaning)

/-- A condition that is shown in two parts, or in one: a comparison whose left side binds more tightly than
comparisons do, or something that does so as a whole. -/
def Simple {α : Type} (e : Expr α) : Prop :=
  8 < e.level ∨ ∃ l o r, e = .node l o r ∧ o.isComparison = true ∧ 8 < l.level

end Verif.Cpp
