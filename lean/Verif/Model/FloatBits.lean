import Verif.Model.Float
/-!
# Model of taking a floating-point number apart without `std::bit_cast`

Source: include/snitch/snitch_fixed_point.hpp 252-258, 268-322 (`to_bits` when `SNITCH_CONSTEXPR_FLOAT_USE_BITCAST`
is 0). The other variant is `toBits` in Verif/Model/Float.lean.

A product or quotient of floating-point numbers is the exact one, rounded by a function `rnd`, of which the
theorems assume only that it leaves alone the numbers that the type can represent.
-/
namespace Verif.Float
open Verif

/-- What the program can tell about a floating-point number by computing with it. The two zeros compare equal;
negating a number and comparing it to zero does not tell them apart either. -/
inductive Number where
  | nan
  | infinite (negative : Bool)
  | finite (value : Rat)

/-- The number of values of `bits_exp_t` (include/snitch/snitch_fixed_point.hpp 153, 193): `std::uint8_t` or
`std::uint16_t`. -/
def exponentValues (fmt : Format) : Nat := if fmt.expBits ≤ 8 then 2 ^ 8 else 2 ^ 16

/-- include/snitch/snitch_fixed_point.hpp 295-299: `if (f >= 2) do { ... } while (f >= 2)`, which is a `while`
loop. `none`: not done after the number of rounds given. -/
def halveLoop (rnd : Rat → Rat) (values : Nat) : Nat → Rat → Nat → Option (Rat × Nat)
  | 0, _, _ => none
  | n + 1, f, e => if f ≥ 2 then halveLoop rnd values n (rnd (f / 2)) ((e + 1) % values) else some (f, e)

/-- include/snitch/snitch_fixed_point.hpp 301-304: `do { ... } while (f < 1 && b.exponent > 0)`. -/
def doubleLoop (rnd : Rat → Rat) (values : Nat) : Nat → Rat → Nat → Option (Rat × Nat)
  | 0, _, _ => none
  | n + 1, f, e =>
    let f := rnd (f * 2)
    let e := (e + values - 1) % values
    if f < 1 ∧ e > 0 then doubleLoop rnd values n f e else some (f, e)

/-- include/snitch/snitch_fixed_point.hpp 293-305: the number brought between 1 and 2, if it is not too small,
and the exponent. 3000 rounds are enough (Verif/Lemmas/FloatBits.lean). -/
def normalise (rnd : Rat → Rat) (fmt : Format) (f : Rat) : Option (Rat × Nat) :=
  let e := fmt.origin.natAbs % exponentValues fmt
  if f ≥ 2 then halveLoop rnd (exponentValues fmt) 3000 f e
  else if f < 1 then doubleLoop rnd (exponentValues fmt) 3000 f e
  else some (f, e)

/-- `static_cast<bits_full_t>(f) & traits::sig_mask` (include/snitch/snitch_fixed_point.hpp 315): the conversion
cuts off the fraction; it is undefined if the result is out of range. -/
def toSigBits (fmt : Format) (f : Rat) : Outcome Nat :=
  if 0 ≤ f ∧ f < 2 ^ (fmt.sigBits + fmt.expBits + 1) then .ok (f.floor.toNat % 2 ^ fmt.sigBits) else .ub

/-- include/snitch/snitch_fixed_point.hpp 307-315: the bits of the significand. -/
def scaled (rnd : Rat → Rat) (fmt : Format) (f : Rat) (e : Nat) : Rat :=
  if e = 0 then rnd (f * 2 ^ (fmt.sigBits - 1)) else rnd (f * 2 ^ fmt.sigBits)

/-- include/snitch/snitch_fixed_point.hpp 268-322 `to_bits`, without `std::bit_cast`. `sig_bits_nan` is the highest
bit of the significand (165, 207), `exp_bits_special` has all bits set (164, 206). -/
def toBitsArithmetic (rnd : Rat → Rat) (fmt : Format) : Number → Option (Outcome Bits)
  | .nan => some (.ok ⟨2 ^ (fmt.sigBits - 1), 2 ^ fmt.expBits - 1, false⟩)
  | .infinite negative => some (.ok ⟨0, 2 ^ fmt.expBits - 1, negative⟩)
  | .finite f =>
    (normalise rnd fmt (if f < 0 then -f else f)).map fun r => do
      return ⟨← toSigBits fmt (scaled rnd fmt r.1 r.2), r.2, decide (f < 0)⟩

end Verif.Float
