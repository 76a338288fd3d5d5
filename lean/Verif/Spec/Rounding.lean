import Mathlib.Data.Int.Log
import Mathlib.Data.Rat.Floor
import Verif.Spec.Float
/-!
# Rounding to a `float`

Independent of the model: what floating-point arithmetic of IEEE 754 does with exact results.
-/
namespace Verif.Spec

/-- Rounding to the nearest `float`, as far as it is used: numbers that can be represented do not change, the order is kept, and
what is in the range of normal numbers changes by at most one in 2 ^ 24. -/
structure Rounds (rnd : ℚ → ℚ) : Prop where
  exact : Exact single rnd
  mono : ∀ a b, 0 ≤ a → a ≤ b → rnd a ≤ rnd b
  near : ∀ a, 1 / 2 ^ 126 ≤ a → a < 2 ^ 127 → |rnd a - a| ≤ a / 2 ^ 24

/-- The nearest integer, the even one of two. -/
def nearestInt (x : ℚ) : ℤ :=
  if x - ⌊x⌋ < 1 / 2 then ⌊x⌋
  else if 1 / 2 < x - ⌊x⌋ then ⌊x⌋ + 1
  else if ⌊x⌋ % 2 = 0 then ⌊x⌋ else ⌊x⌋ + 1

/-- Rounding to 24 binary digits, to the nearest, ties to even. -/
def toSingle (q : ℚ) : ℚ :=
  if q ≤ 0 then q else nearestInt (q / 2 ^ (Int.log 2 q - 23)) * 2 ^ (Int.log 2 q - 23)

end Verif.Spec
