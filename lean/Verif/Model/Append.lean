import Verif.Model.Vector
/-!
# Model of text appending

Source: src/snitch_append.cpp, include/snitch/snitch_append.hpp.
-/
namespace Verif

/-- A `small_string_span` (include/snitch/snitch_string.hpp 8-11). -/
abbrev Str := SV Char
/-- A `std::string_view` (value semantics: pointer and length are not modelled). -/
abbrev Text := List Char

namespace Append

/-- src/snitch_append.cpp 74-87 `append_fast(ss, std::string_view)`: the run-time path. -/
def fast (ss : Str) (str : Text) : Outcome (Str × Bool) :=
  if str.isEmpty then .ok (ss, true)
  else
    let couldFit : Bool := decide (str.length ≤ ss.available)
    let copyCount := min str.length ss.available
    let offset := ss.size
    do
      let ss ← ss.grow copyCount
      let ss ← ss.memWrite offset (str.take copyCount)
      return (ss, couldFit)

/-- include/snitch/snitch_append.hpp 41-43: `for (i = 0; i < copy_count; ++i) ss[offset+i] = str[i]`,
over the remaining characters. -/
def constexprLoop (ss : Str) (offset : Nat) : Text → Outcome Str
  | [] => .ok ss
  | c :: cs => do
    let ss ← ss.setAt offset c
    constexprLoop ss (offset + 1) cs

/-- include/snitch/snitch_append.hpp 35-46 `append_constexpr(ss, std::string_view)`: the compile-time
path. -/
def constexpr (ss : Str) (str : Text) : Outcome (Str × Bool) :=
  let couldFit : Bool := decide (str.length ≤ ss.available)
  let copyCount := if couldFit then str.length else ss.available
  let offset := ss.size
  do
    let ss ← ss.grow copyCount
    let ss ← constexprLoop ss offset (str.take copyCount)
    return (ss, couldFit)

/-- include/snitch/snitch_append.hpp 281-287 `append(ss, std::string_view)`: picks the path by
`std::is_constant_evaluated()`. -/
def text (ce : Bool) (ss : Str) (str : Text) : Outcome (Str × Bool) :=
  if ce then constexpr ss str else fast ss str

/-- include/snitch/snitch_append.hpp 378-382 variadic `append`, for arguments that are all
string-like: `append(t) && append(u) && (append(args) && ...)`, i.e. left to right, stopping at the
first failure. (The C++ overload needs two arguments or more; the fold also covers one.) -/
def variadic (ce : Bool) (ss : Str) : List Text → Outcome (Str × Bool)
  | [] => .ok (ss, true)
  | a :: as => do
    let (ss, ok) ← text ce ss a
    if ok then variadic ce ss as else return (ss, false)

/-- include/snitch/snitch_append.hpp 58-59 the digit table. -/
def digits : List Char :=
  ['0', '1', '2', '3', '4', '5', '6', '7', '8', '9', 'a', 'b', 'c', 'd', 'e', 'f']

/-- `digits[i]`: `std::array::operator[]`, UB when out of range. -/
def digitAt (i : Nat) : Outcome Char :=
  match digits[i]? with
  | some c => .ok c
  | none => .ub

/-- include/snitch/snitch_append.hpp 48-51 `num_digits<Base>` for unsigned. `Base` is written
`b + 2` so that the recursion visibly terminates. -/
def numDigits (b : Nat) (x : Nat) : Nat :=
  if x ≥ b + 2 then 1 + numDigits b (x / (b + 2)) else 1
termination_by x
decreasing_by exact Nat.div_lt_self (by omega) (by omega)

/-- include/snitch/snitch_append.hpp 53-56 `num_digits<Base>` for signed: one extra for the sign (and
for zero). Division truncates towards zero as in C++. -/
def numDigitsS (b : Nat) (x : Int) : Nat :=
  if x ≥ (b + 2 : Nat) ∨ x ≤ -((b + 2 : Nat) : Int) then
    1 + numDigitsS b (x.tdiv ((b + 2 : Nat) : Int))
  else if x > 0 then 1 else 2
termination_by x.natAbs
decreasing_by
  rw [Int.natAbs_tdiv]
  simp only [Int.natAbs_natCast]
  exact Nat.div_lt_self (by omega) (by omega)

/-- include/snitch/snitch_append.hpp 61 `max_uint_length` = 20. -/
def maxUintLength : Nat := numDigits 8 (2 ^ 64 - 1)
/-- include/snitch/snitch_append.hpp 62 `max_int_length` = 21. -/
def maxIntLength : Nat := maxUintLength + 1

/-- include/snitch/snitch_append.hpp 69-72: the digit-writing loop
`for (k = 1, j = i; j != 0; j /= Base, ++k) tmp[tmp.size() - k] = digits[j % Base]`.
`tmp.size() - k` is a `size_t` subtraction: it wraps (out of range) when `k > size`. -/
def writeDigits (b : Nat) (tmp : Str) (k : Nat) (j : Nat) : Outcome Str :=
  if j = 0 then .ok tmp
  else do
    let d ← digitAt (j % (b + 2))
    let tmp ← if k ≤ tmp.size then tmp.setAt (tmp.size - k) d else .abort
    writeDigits b tmp (k + 1) (j / (b + 2))
termination_by j
decreasing_by exact Nat.div_lt_self (by omega) (by omega)

/-- include/snitch/snitch_append.hpp 64-77 `append_constexpr<Base>(ss, unsigned)`. -/
def unsigned (b : Nat) (ss : Str) (i : Nat) : Outcome (Str × Bool) :=
  if i ≠ 0 then do
    let tmp ← (SV.empty maxUintLength '\x00').resize (numDigits b i)
    let tmp ← writeDigits b tmp 1 i
    constexpr ss tmp.contents
  else constexpr ss ['0']

/-- include/snitch/snitch_append.hpp 93-95 the digit loop for negative values:
`digits[-(j % Base)]` with C++ remainder (sign of the dividend). -/
def writeDigitsNeg (b : Nat) (tmp : Str) (k : Nat) (j : Int) : Outcome Str :=
  if j = 0 then .ok tmp
  else do
    let r := -(j.tmod ((b + 2 : Nat) : Int))
    let d ← if r ≥ 0 then digitAt r.toNat else .ub
    let tmp ← if k ≤ tmp.size then tmp.setAt (tmp.size - k) d else .abort
    writeDigitsNeg b tmp (k + 1) (j.tdiv ((b + 2 : Nat) : Int))
termination_by j.natAbs
decreasing_by
  rw [Int.natAbs_tdiv]
  simp only [Int.natAbs_natCast]
  exact Nat.div_lt_self (by omega) (by omega)

/-- include/snitch/snitch_append.hpp 85-87 the digit loop for positive signed values. -/
def writeDigitsPos (b : Nat) (tmp : Str) (k : Nat) (j : Int) : Outcome Str :=
  if j = 0 then .ok tmp
  else do
    let r := j.tmod ((b + 2 : Nat) : Int)
    let d ← if r ≥ 0 then digitAt r.toNat else .ub
    let tmp ← if k ≤ tmp.size then tmp.setAt (tmp.size - k) d else .abort
    writeDigitsPos b tmp (k + 1) (j.tdiv ((b + 2 : Nat) : Int))
termination_by j.natAbs
decreasing_by
  rw [Int.natAbs_tdiv]
  simp only [Int.natAbs_natCast]
  exact Nat.div_lt_self (by omega) (by omega)

/-- include/snitch/snitch_append.hpp 79-101 `append_constexpr<Base>(ss, signed)`. The value is a
mathematical integer; that no step leaves the 64-bit range is visible because the code only divides
and takes remainders of `i` (never negates it). -/
def signed (b : Nat) (ss : Str) (i : Int) : Outcome (Str × Bool) :=
  if i > 0 then do
    let tmp ← (SV.empty maxIntLength '\x00').resize (numDigitsS b i)
    let tmp ← writeDigitsPos b tmp 1 i
    constexpr ss tmp.contents
  else if i < 0 then do
    let tmp ← (SV.empty maxIntLength '\x00').resize (numDigitsS b i)
    let tmp ← writeDigitsNeg b tmp 1 i
    let tmp ← tmp.setAt 0 '-'
    constexpr ss tmp.contents
  else constexpr ss ['0']

/-- `std::to_chars(ss.end(), ss.begin() + ss.capacity(), value, base)` (or the floating-point
overload), a standard library function used at src/snitch_append.cpp 22 and 44. It is not modelled
beyond what the C++ standard promises: given that the value's text is `numeral`, it writes exactly
that text if it fits and says how long it is, otherwise it reports an error and leaves unspecified
characters (here: `garbage`) in the range. -/
def toChars (ss : Str) (numeral garbage : Text) : Str × Option Nat :=
  if numeral.length ≤ ss.buf.length - ss.size then
    ({ ss with buf := ss.buf.take ss.size ++ numeral ++ ss.buf.drop (ss.size + numeral.length) },
      some numeral.length)
  else
    ({ ss with buf := ss.buf.take ss.size ++ garbage.take (ss.buf.length - ss.size) ++
        ss.buf.drop (ss.size + (garbage.take (ss.buf.length - ss.size)).length) }, none)

/-- src/snitch_append.cpp 18-60 `append_to` (both overloads) when `SNITCH_APPEND_TO_CHARS` is on:
`numeral` is the text the standard prescribes for the value. -/
def appendTo (ss : Str) (numeral garbage : Text) : Outcome (Str × Bool) :=
  match toChars ss numeral garbage with
  | (ss, some n) => do
    let ss ← ss.grow n
    return (ss, true)
  | (ss, none) =>
    match toChars (SV.empty 32 '\x00') numeral garbage with
    | (_, none) => .ok (ss, false)
    | (fallback, some n) => do
      let fallback ← fallback.grow n
      fast ss fallback.contents

/-- include/snitch/snitch_append.hpp 297-300 `append(ss, nullptr)`. -/
def nullptr (ce : Bool) (ss : Str) : Outcome (Str × Bool) := text ce ss "nullptr".toList

/-- src/snitch_append.cpp 103-111 the zero-padding loop of the pointer overload, in batches of at
most 16. -/
def padZeros (ss : Str) (padding : Nat) : Outcome (Str × Bool) :=
  if padding > 0 then do
    let zeroes : Text := "0000000000000000".toList
    let batch := min zeroes.length padding
    let (ss, ok) ← fast ss (zeroes.take batch)
    if ok then padZeros ss (padding - batch) else return (ss, false)
  else .ok (ss, true)
termination_by padding
decreasing_by
  have : "0000000000000000".toList.length = 16 := by decide
  omega

/-- src/snitch_append.cpp 89-113 `append_fast(ss, const void*)` with `sizeof(void*) = psize`; the
null pointer is address 0. `last` is `append_to<16>(ss, int_ptr)` at line 112: it is either
`append_constexpr<16>` (`unsigned 14` above, when `SNITCH_APPEND_TO_CHARS` is off) or the
`std::to_chars` version (`appendTo` above). -/
def pointer (last : Str → Nat → Outcome (Str × Bool)) (psize : Nat) (ss : Str) (addr : Nat) :
    Outcome (Str × Bool) :=
  if addr = 0 then nullptr false ss
  else do
    let (ss, ok) ← fast ss "0x".toList
    if !ok then return (ss, false)
    let maxDigits := 2 * psize
    let n := numDigits 14 addr
    -- `max_digits - num_digits`: a size_t subtraction
    let padding := if n ≤ maxDigits then maxDigits - n else sizeT + maxDigits - n
    let (ss, ok) ← padZeros ss padding
    if !ok then return (ss, false)
    last ss addr

/-- include/snitch/snitch_append.hpp 269-277 `append_constexpr(ss, const void*)`: the compile-time
path does not know addresses. -/
def pointerConstexpr (ss : Str) (addr : Nat) : Outcome (Str × Bool) :=
  if addr = 0 then nullptr true ss else constexpr ss "0x????????".toList

/-- include/snitch/snitch_append.hpp 333-337 `append(ss, bool)`. -/
def bool (ce : Bool) (ss : Str) (value : Bool) : Outcome (Str × Bool) :=
  text ce ss (if value then "true".toList else "false".toList)

end Append
end Verif
