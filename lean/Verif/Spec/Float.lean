import Mathlib.Algebra.Order.Field.Power
import Verif.Spec.Text
/-!
# Binary floating-point numbers and decimal notation

Independent of the model: what a bit pattern stands for in the binary interchange formats of IEEE 754, and
what a number in scientific notation stands for.
-/
namespace Verif.Spec

/-- The number of bits of the fraction and of the exponent. -/
structure Binary where
  fractionBits : ℕ
  exponentBits : ℕ

/-- `float`. -/
def single : Binary := ⟨23, 8⟩
/-- `double`. -/
def double : Binary := ⟨52, 11⟩

/-- The lowest bits. -/
def Binary.fraction (b : Binary) (pattern : ℕ) : ℕ := pattern % 2 ^ b.fractionBits

/-- The bits above the fraction. -/
def Binary.biased (b : Binary) (pattern : ℕ) : ℕ := pattern / 2 ^ b.fractionBits % 2 ^ b.exponentBits

/-- The bit above the exponent. -/
def Binary.negative (b : Binary) (pattern : ℕ) : Bool :=
  decide (pattern / 2 ^ (b.fractionBits + b.exponentBits) % 2 = 1)

/-- The largest exponent is kept for infinity and for what is not a number. -/
def Binary.Finite (b : Binary) (pattern : ℕ) : Prop := b.biased pattern < 2 ^ b.exponentBits - 1

/-- Zero is written as zeros everywhere but in the sign. -/
def Binary.IsZero (b : Binary) (pattern : ℕ) : Prop := b.biased pattern = 0 ∧ b.fraction pattern = 0

/-- Infinity. -/
def Binary.IsInfinite (b : Binary) (pattern : ℕ) : Prop :=
  b.biased pattern = 2 ^ b.exponentBits - 1 ∧ b.fraction pattern = 0

/-- Not a number. -/
def Binary.IsNan (b : Binary) (pattern : ℕ) : Prop :=
  b.biased pattern = 2 ^ b.exponentBits - 1 ∧ b.fraction pattern ≠ 0

/-- The absolute value of a finite number. -/
def Binary.magnitude (b : Binary) (pattern : ℕ) : ℚ :=
  let bias : ℤ := 2 ^ (b.exponentBits - 1) - 1
  if b.biased pattern = 0 then (b.fraction pattern : ℚ) / 2 ^ b.fractionBits * 2 ^ (1 - bias)
  else (1 + (b.fraction pattern : ℚ) / 2 ^ b.fractionBits) * 2 ^ ((b.biased pattern : ℤ) - bias)

/-- The value of a finite number. -/
def Binary.value (b : Binary) (pattern : ℕ) : ℚ :=
  if b.negative pattern then -b.magnitude pattern else b.magnitude pattern

/-- Rounding a positive number (or zero) that can be represented changes nothing. -/
def Exact (b : Binary) (round : ℚ → ℚ) : Prop := ∀ p, b.Finite p → round (b.magnitude p) = b.magnitude p

/-- The distance between two numbers. -/
def distance (a b : ℕ) : ℕ := (a - b) + (b - a)

/-- `r * 10 ^ j` is `d` rounded to `p` significant digits, to the nearest, ties to even. -/
structure RoundedTo (p d r j : ℕ) : Prop where
  /-- It has at most `p` digits. -/
  digits : r < 10 ^ p
  /-- No number of `p` digits is nearer. -/
  nearest : ∀ s i, s < 10 ^ p → distance (r * 10 ^ j) d ≤ distance (s * 10 ^ i) d
  /-- If another one is as near, then the last one of the `p` digits is even: `10 ^ u` is what this digit
  counts. -/
  even : ∀ s i, s < 10 ^ p → s * 10 ^ i ≠ r * 10 ^ j → distance (s * 10 ^ i) d = distance (r * 10 ^ j) d →
    ∃ u m, 10 ^ (p + u) ≤ 10 * d ∧ d < 10 ^ (p + u) ∧ r * 10 ^ j = 2 * m * 10 ^ u

/-- Reading what comes after the sign of a number in scientific notation: one digit, a point, digits, the
letter `e`, a sign and the exponent. The first digit is zero only if all are. The exponent has two digits, or
more if it does not begin with zero. The result is a whole number (all the digits) and the power of ten by which it is to be multiplied. -/
def readUnsignedScientific : List Char → Option (ℕ × ℤ)
  | c :: '.' :: t =>
    let fraction := t.takeWhile (· ≠ 'e')
    match t.dropWhile (· ≠ 'e') with
    | 'e' :: sign :: exponent =>
      if exponent.length < 2 ∨ (2 < exponent.length ∧ exponent.head? = some '0') then none
      else if c = '0' ∧ fraction.any (· ≠ '0') then none
      else
        match readNat 10 (c :: fraction), readNat 10 exponent with
        | some d, some x =>
          if sign = '+' then some (d, (x : ℤ) - fraction.length)
          else if sign = '-' then some (d, -(x : ℤ) - fraction.length)
          else none
        | _, _ => none
    | _ => none
  | _ => none

/-- Reading a number in scientific notation: whether it has a minus sign, and its absolute value. -/
def readScientific : List Char → Option (Bool × ℕ × ℤ)
  | '-' :: t => (readUnsignedScientific t).map fun x => (true, x)
  | t => (readUnsignedScientific t).map fun x => (false, x)

end Verif.Spec
