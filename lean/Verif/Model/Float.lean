import Verif.Model.Append
/-!
# Model of printing floating-point numbers at compile time

Source: include/snitch/snitch_fixed_point.hpp, include/snitch/snitch_append.hpp 103-267.

Digits are `std::uint64_t`: every sum and product of digits is stored through a function `w`, which is
`word64` (the remainder modulo `2 ^ 64`) in the program. It is a parameter so that "no operation overflows"
can be stated: the result is then the same for every `w` that leaves the numbers below `2 ^ 64` alone.
Exponents are `std::int32_t`: leaving the range is undefined behaviour.
-/
namespace Verif.Float
open Verif

/-- Storing a number in a `std::uint64_t`. -/
def word64 (n : Nat) : Nat := n % 2 ^ 64

/-- Subtraction of `std::uint64_t` numbers (at most `2 ^ 64` apart). -/
def sub64 (a b : Nat) : Nat := (a + 2 ^ 64 - b) % 2 ^ 64

/-- A result of type `std::int32_t`: overflow is undefined behaviour. -/
def int32 (e : Int) : Outcome Int := if -2 ^ 31 ≤ e ∧ e < 2 ^ 31 then .ok e else .ub

/-- include/snitch/snitch_fixed_point.hpp 18-21 `unsigned_fixed_data`, 38-39 `unsigned_fixed`. -/
structure Fixed where
  digits : Nat
  exponent : Int
deriving DecidableEq, Repr

/-- include/snitch/snitch_fixed_point.hpp 23-27 `signed_fixed_data`. -/
structure SignedFixed where
  digits : Nat
  exponent : Int
  sign : Bool
deriving DecidableEq, Repr

/-- include/snitch/snitch_fixed_point.hpp 64: `std::numeric_limits<fixed_digits_t>::max() / 10u`. -/
def cap : Nat := (2 ^ 64 - 1) / 10

/-- include/snitch/snitch_fixed_point.hpp 66-71: `if (digits_in < cap) do { ... } while (digits_in < cap)`,
which is a `while` loop. The first argument bounds the number of rounds: from 1 there are 19 multiplications,
so the case in which it is used up does not occur (`Lemmas/FloatWord.lean`). -/
def scaleUp (w : Nat → Nat) : Nat → Nat → Int → Outcome Fixed
  | 0, _, _ => .ub
  | n + 1, d, e => if d < cap then do scaleUp w n (w (d * 10)) (← int32 (e - 1)) else .ok ⟨d, e⟩

/-- include/snitch/snitch_fixed_point.hpp 61-81, the constructor of `unsigned_fixed`. -/
def make (w : Nat → Nat) (digits : Nat) (exponent : Int) : Outcome Fixed :=
  if digits > 0 then scaleUp w 20 digits exponent else .ok ⟨0, -2 ^ 31⟩

/-- include/snitch/snitch_fixed_point.hpp 43-51: one round of the loop of `raise_exponent_to`. -/
def raiseStep (w : Nat → Nat) (new : Int) (x : Fixed) : Outcome Fixed := do
  if x.digits = 0 then return { x with exponent := new }
  else if x.exponent < (← int32 (new - 1)) then return ⟨x.digits / 10, ← int32 (x.exponent + 1)⟩
  else return ⟨w (x.digits + 5) / 10, ← int32 (x.exponent + 1)⟩

/-- include/snitch/snitch_fixed_point.hpp 41-53 `raise_exponent_to`. The first argument bounds the number of
rounds: digits below `2 ^ 64` are used up after 20 divisions. -/
def raiseTo (w : Nat → Nat) (new : Int) : Nat → Fixed → Outcome Fixed
  | 0, _ => .ub
  | n + 1, x => do
    let x ← raiseStep w new x
    if x.exponent < new then raiseTo w new n x else return x

/-- include/snitch/snitch_fixed_point.hpp 55-58 `raise_exponent`. -/
def raise (w : Nat → Nat) (x : Fixed) : Outcome Fixed := do
  return ⟨w (x.digits + 5) / 10, ← int32 (x.exponent + 1)⟩

/-- include/snitch/snitch_fixed_point.hpp 94-103: the two numbers before they are added. -/
def align (w : Nat → Nat) (a b : Fixed) : Outcome (Fixed × Fixed) := do
  if a.exponent > b.exponent then
    let a ← raise w a
    let b ← raiseTo w (← int32 (a.exponent + 1)) 25 b
    return (a, b)
  else if a.exponent < b.exponent then
    let a ← raiseTo w (← int32 (b.exponent + 1)) 25 a
    let b ← raise w b
    return (a, b)
  else
    let a ← raise w a
    let b ← raise w b
    return (a, b)

/-- include/snitch/snitch_fixed_point.hpp 91-106 `operator+`. -/
def add (w : Nat → Nat) (a b : Fixed) : Outcome Fixed := do
  let (a, b) ← align w a b
  make w (w (a.digits + b.digits)) a.exponent

/-- include/snitch/snitch_fixed_point.hpp 34-36 `unpack10`: the lower part. -/
def lower (v : Nat) : Nat := v % 10000000000
/-- include/snitch/snitch_fixed_point.hpp 34-36 `unpack10`: the upper part. -/
def upper (v : Nat) : Nat := v / 10000000000

/-- include/snitch/snitch_fixed_point.hpp 124-135: the digits of the product, divided by `10 ^ 20`. -/
def mulDigits (w : Nat → Nat) (a b : Nat) : Nat :=
  let x := w (w (lower a * upper b) + 5) / 10
  let y := w (w (lower b * upper a) + 5) / 10
  let lOver10 := w (x + y)
  let lOver1e10 := w (lOver10 + 500000000) / 1000000000
  w (w (upper a * upper b) + lOver1e10)

/-- include/snitch/snitch_fixed_point.hpp 112-139 `operator*`. -/
def mul (w : Nat → Nat) (a b : Fixed) : Outcome Fixed := do
  make w (mulDigits w a.digits b.digits) (← int32 ((← int32 (a.exponent + b.exponent)) + 20))

/-- include/snitch/snitch_fixed_point.hpp 146-241 `float_traits`. `elems` are the arguments of the
constructors in `sig_elems`. -/
structure Format where
  sigBits : Nat
  expBits : Nat
  origin : Int
  precision : Nat
  elems : List (Nat × Int)

/-- include/snitch/snitch_fixed_point.hpp 149-187 `float_traits<float>`. -/
def binary32 : Format where
  sigBits := 23
  expBits := 8
  origin := -127
  precision := 7
  elems :=
    [(1192092895507812500, -25), (2384185791015625000, -25), (4768371582031250000, -25),
     (9536743164062500000, -25), (1907348632812500000, -24), (3814697265625000000, -24),
     (7629394531250000000, -24), (1525878906250000000, -23), (3051757812500000000, -23),
     (6103515625000000000, -23), (1220703125000000000, -22), (2441406250000000000, -22),
     (4882812500000000000, -22), (9765625000000000000, -22), (1953125000000000000, -21),
     (3906250000000000000, -21), (7812500000000000000, -21), (1562500000000000000, -20),
     (3125000000000000000, -20), (6250000000000000000, -20), (1250000000000000000, -19),
     (2500000000000000000, -19), (5000000000000000000, -19)]

/-- include/snitch/snitch_fixed_point.hpp 189-241 `float_traits<double>`. -/
def binary64 : Format where
  sigBits := 52
  expBits := 11
  origin := -1023
  precision := 16
  elems :=
    [(2220446049250313081, -34), (4440892098500626162, -34), (8881784197001252323, -34),
     (1776356839400250465, -33), (3552713678800500929, -33), (7105427357601001859, -33),
     (1421085471520200372, -32), (2842170943040400743, -32), (5684341886080801487, -32),
     (1136868377216160297, -31), (2273736754432320595, -31), (4547473508864641190, -31),
     (9094947017729282379, -31), (1818989403545856476, -30), (3637978807091712952, -30),
     (7275957614183425903, -30), (1455191522836685181, -29), (2910383045673370361, -29),
     (5820766091346740723, -29), (1164153218269348145, -28), (2328306436538696289, -28),
     (4656612873077392578, -28), (9313225746154785156, -28), (1862645149230957031, -27),
     (3725290298461914062, -27), (7450580596923828125, -27), (1490116119384765625, -26),
     (2980232238769531250, -26), (5960464477539062500, -26), (1192092895507812500, -25),
     (2384185791015625000, -25), (4768371582031250000, -25), (9536743164062500000, -25),
     (1907348632812500000, -24), (3814697265625000000, -24), (7629394531250000000, -24),
     (1525878906250000000, -23), (3051757812500000000, -23), (6103515625000000000, -23),
     (1220703125000000000, -22), (2441406250000000000, -22), (4882812500000000000, -22),
     (9765625000000000000, -22), (1953125000000000000, -21), (3906250000000000000, -21),
     (7812500000000000000, -21), (1562500000000000000, -20), (3125000000000000000, -20),
     (6250000000000000000, -20), (1250000000000000000, -19), (2500000000000000000, -19),
     (5000000000000000000, -19)]

/-- include/snitch/snitch_fixed_point.hpp 324-334 `binary_table[0]`: the arguments of the constructors. -/
def mulTable : List (Nat × Int) :=
  [(2000000000000000000, -18), (4000000000000000000, -18), (1600000000000000000, -17),
   (2560000000000000000, -16), (6553600000000000000, -14), (4294967296000000000, -9),
   (1844674407370955162, 1), (3402823669209384635, 20), (1157920892373161954, 59),
   (1340780792994259710, 136)]

/-- include/snitch/snitch_fixed_point.hpp 324-334 `binary_table[1]`: the arguments of the constructors. -/
def divTable : List (Nat × Int) :=
  [(5000000000000000000, -19), (2500000000000000000, -19), (6250000000000000000, -20),
   (3906250000000000000, -21), (1525878906250000000, -23), (2328306436538696289, -28),
   (5421010862427522170, -38), (2938735877055718770, -57), (8636168555094444625, -96),
   (7458340731200206743, -173)]

/-- include/snitch/snitch_fixed_point.hpp 243-250 `float_bits`. -/
structure Bits where
  significand : Nat
  exponent : Nat
  sign : Bool
deriving DecidableEq, Repr

/-- include/snitch/snitch_fixed_point.hpp 252-267 `to_bits`, with `std::bit_cast`; the number is given by its
bit pattern. -/
def toBits (fmt : Format) (pattern : Nat) : Bits where
  significand := pattern % 2 ^ fmt.sigBits
  exponent := pattern / 2 ^ fmt.sigBits % 2 ^ fmt.expBits
  sign := pattern.testBit (fmt.sigBits + fmt.expBits)

/-- include/snitch/snitch_fixed_point.hpp 351-355: the powers of two for the bits of the exponent from bit
`i` on, multiplied. -/
def powerLoop (w : Nat → Nat) (exponent : Nat) : List (Nat × Int) → Nat → Fixed → Outcome Fixed
  | [], _, power => .ok power
  | t :: ts, i, power => do
    if exponent.testBit i then
      powerLoop w exponent ts (i + 1) (← mul w power (← make w t.1 t.2))
    else powerLoop w exponent ts (i + 1) power

/-- include/snitch/snitch_fixed_point.hpp 336-359 `apply_binary_exponent`. The table has 10 entries; all but
the last bit of the exponent are looked at. -/
def applyExponent (w : Nat → Nat) (fmt : Format) (table : List (Nat × Int)) (exponent : Nat) (fix : Fixed) :
    Outcome Fixed := do
  let power ← powerLoop w exponent (table.take (fmt.expBits - 1)) 0 (← make w 1 0)
  mul w fix power

/-- include/snitch/snitch_fixed_point.hpp 370-374: the elements for the bits of the significand from bit `i`
on, added. -/
def sumLoop (w : Nat → Nat) (significand : Nat) : List (Nat × Int) → Nat → Fixed → Outcome Fixed
  | [], _, fix => .ok fix
  | t :: ts, i, fix => do
    if significand.testBit i then
      sumLoop w significand ts (i + 1) (← add w fix (← make w t.1 t.2))
    else sumLoop w significand ts (i + 1) fix

/-- include/snitch/snitch_fixed_point.hpp 368-380: the significand, with its hidden bit. -/
def toSignificand (w : Nat → Nat) (fmt : Format) (bits : Bits) : Outcome Fixed := do
  let fix ← sumLoop w bits.significand fmt.elems 0 (← make w 0 0)
  if bits.exponent ≠ 0 then add w fix (← make w 1 0) else return fix

/-- include/snitch/snitch_fixed_point.hpp 382-383: the exponent. -/
def binaryExponent (fmt : Format) (bits : Bits) : Int :=
  if bits.exponent = 0 then fmt.origin + 1 else bits.exponent + fmt.origin

/-- include/snitch/snitch_fixed_point.hpp 361-392 `to_fixed`. -/
def toFixed (w : Nat → Nat) (fmt : Format) (bits : Bits) : Outcome SignedFixed := do
  let fix ← toSignificand w fmt bits
  let exponent := binaryExponent fmt bits
  let fix ←
    if exponent > 0 then applyExponent w fmt mulTable exponent.toNat fix
    else if exponent < 0 then applyExponent w fmt divTable (-exponent).toNat fix
    else pure fix
  return ⟨fix.digits, fix.exponent, bits.sign⟩

/-! ## Printing -/

/-- include/snitch/snitch_append.hpp 128-136 `round_half_to_even`. -/
def roundHalfToEven (w : Nat → Nat) (i : Nat) (onlyZero : Bool) : Nat :=
  let r := w (i + 5) / 10
  if onlyZero ∧ i % 10 = 5 then sub64 r (1 - i / 10 % 2) else r

/-- include/snitch/snitch_append.hpp 150-164: the loop of `set_precision`. `none`: it does not end (in the
number of rounds given by the first argument). -/
def precisionLoop (w : Nat → Nat) (p : Nat) : Nat → SignedFixed → Nat → Bool → Option (Outcome SignedFixed)
  | 0, _, _, _ => none
  | n + 1, fd, baseDigits, onlyZero =>
    if baseDigits > p then
      let digits := if baseDigits > p + 1 then fd.digits / 10 else roundHalfToEven w fd.digits onlyZero
      let base' := if baseDigits > p + 1 then baseDigits - 1 else Append.numDigits 8 digits
      let onlyZero' :=
        if baseDigits > p + 1 ∧ fd.digits % 10 > 0 then false else onlyZero
      match int32 (fd.exponent + 1) with
      | .ok e => precisionLoop w p n ⟨digits, e, fd.sign⟩ base' onlyZero'
      | .abort => some .abort
      | .ub => some .ub
    else some (.ok fd)

/-- include/snitch/snitch_append.hpp 138-167 `set_precision`. The loop ends for a precision of at least 1:
at most 20 digits are removed, and at most one more round is needed if rounding adds a digit. -/
def setPrecision (w : Nat → Nat) (fd : SignedFixed) (p : Nat) : Option (Outcome SignedFixed) :=
  precisionLoop w p 25 fd (Append.numDigits 8 fd.digits) true

/-- `x > 0 ? x : -x` (include/snitch/snitch_append.hpp 107, 205), computed in `std::int32_t`. -/
def magnitude (x : Int) : Outcome Int := if x > 0 then .ok x else int32 (-x)

/-- include/snitch/snitch_append.hpp 103-109 `num_exp_digits`. -/
def numExpDigits (x : Int) : Outcome Nat := do
  return max 2 (Append.numDigits 8 (← magnitude x).toNat)

/-- include/snitch/snitch_append.hpp 111-126 `max_float_length`: 20 digits, a sign, 4 digits of the exponent
of `2 ^ 64 - 1` times `10 ^ -1023`, and 3 other characters. -/
def maxFloatLength : Nat := Append.numDigits 8 (2 ^ 64 - 1) + 1 + max 2 (Append.numDigits 8 1004) + 3

/-- `static_cast<fixed_exp_t>(fd.exponent + stored_digits - 1)` (include/snitch/snitch_append.hpp 199): the
sum is a `std::size_t`, the conversion keeps the lower 32 bits. -/
def shownExponent (fd : SignedFixed) : Int :=
  (fd.exponent + Append.numDigits 8 fd.digits - 1).bmod (2 ^ 32)

/-- `tmp[tmp.size() - k] = c`; the subtraction wraps (out of range) when `k > size`. -/
def setBack (tmp : Str) (k : Nat) (c : Char) : Outcome Str :=
  if k ≤ tmp.size then tmp.setAt (tmp.size - k) c else .abort

/-- include/snitch/snitch_append.hpp 184-191: the loop that writes the digits, with a separator before the
last one (the first in the text). -/
def writeMantissa (tmp : Str) (k j : Nat) : Outcome Str :=
  if j = 0 then .ok tmp
  else do
    let d ← Append.digitAt (j % 10)
    if j < 10 then
      let tmp ← setBack tmp k '.'
      setBack tmp (k + 1) d
    else
      let tmp ← setBack tmp k d
      writeMantissa tmp (k + 1) (j / 10)
termination_by j
decreasing_by exact Nat.div_lt_self (by omega) (by omega)

/-- include/snitch/snitch_append.hpp 193-196: the sign. -/
def writeSign (tmp : Str) (sign : Bool) : Outcome Str := if sign then tmp.setAt 0 '-' else .ok tmp

/-- include/snitch/snitch_append.hpp 204-207: the loop that writes the exponent; also the number of
characters written plus one. -/
def writeExponent (tmp : Str) (k j : Nat) : Outcome (Str × Nat) :=
  if j = 0 then .ok (tmp, k)
  else do
    let d ← Append.digitAt (j % 10)
    let tmp ← setBack tmp k d
    writeExponent tmp (k + 1) (j / 10)
termination_by j
decreasing_by exact Nat.div_lt_self (by omega) (by omega)

/-- include/snitch/snitch_append.hpp 209-212: the padding of the exponent, `for (; k <= 2; ++k)`. -/
def padExponent (tmp : Str) (k : Nat) : Nat → Outcome (Str × Nat)
  | 0 => .ok (tmp, k)
  | n + 1 => do
    if k ≤ 2 then padExponent (← setBack tmp k '0') (k + 1) n else return (tmp, k)

/-- include/snitch/snitch_append.hpp 169-222 `append_constexpr(ss, signed_fixed_data)`. -/
def appendFixed (ss : Str) (fd : SignedFixed) : Outcome (Str × Bool) := do
  let stored := Append.numDigits 8 fd.digits
  let tmp ← (SV.empty maxFloatLength '\x00').resize (stored + 1 + if fd.sign then 1 else 0)
  let tmp ← writeMantissa tmp 1 fd.digits
  let tmp ← writeSign tmp fd.sign
  let exponent := shownExponent fd
  let tmp ← tmp.grow ((← numExpDigits exponent) + 2)
  let (tmp, k) ← writeExponent tmp 1 (← magnitude exponent).toNat
  let (tmp, k) ← padExponent tmp k 2
  let tmp ← setBack tmp k (if exponent ≥ 0 then '+' else '-')
  let tmp ← setBack tmp (k + 1) 'e'
  Append.constexpr ss tmp.contents

/-- include/snitch/snitch_append.hpp 234-241: zero. `precision - 1` wraps for 0, `substr` takes what there
is. -/
def appendZero (ss : Str) (sign : Bool) (precision : Nat) : Outcome (Str × Bool) := do
  let (ss, ok) ← Append.constexpr ss (if sign then "-0.".toList else "0.".toList)
  if !ok then return (ss, false)
  let (ss, ok) ← Append.constexpr ss ("000000000000000000".toList.take (sub64 precision 1))
  if !ok then return (ss, false)
  Append.constexpr ss "e+00".toList

/-- include/snitch/snitch_append.hpp 243, 261: numbers that are neither zero nor special. -/
def appendFinite (w : Nat → Nat) (fmt : Format) (ss : Str) (bits : Bits) (precision : Nat) :
    Option (Outcome (Str × Bool)) :=
  match toFixed w fmt bits with
  | .abort => some .abort
  | .ub => some .ub
  | .ok fd =>
    (setPrecision w fd precision).map fun r => r >>= fun fd => appendFixed ss fd

/-- include/snitch/snitch_append.hpp 230-266: `append_constexpr(ss, T f, precision)` after `to_bits`. `none`: this
does not end (which happens for precision 0 only). -/
def appendBits (w : Nat → Nat) (fmt : Format) (ss : Str) (bits : Bits) (precision : Nat) :
    Option (Outcome (Str × Bool)) :=
  let precision := if precision ≤ 19 then precision else 19
  if bits.exponent = 0 then
    if bits.significand = 0 then some (appendZero ss bits.sign precision)
    else appendFinite w fmt ss bits precision
  else if bits.exponent = 2 ^ fmt.expBits - 1 then
    if bits.significand = 0 then
      some (Append.constexpr ss (if bits.sign then "-inf".toList else "inf".toList))
    else some (Append.constexpr ss "nan".toList)
  else appendFinite w fmt ss bits precision

/-- include/snitch/snitch_append.hpp 224-267 `append_constexpr(ss, T f, precision)`; the number is given by
its bit pattern. -/
def appendFloat (w : Nat → Nat) (fmt : Format) (ss : Str) (pattern precision : Nat) :
    Option (Outcome (Str × Bool)) :=
  appendBits w fmt ss (toBits fmt pattern) precision

end Verif.Float
