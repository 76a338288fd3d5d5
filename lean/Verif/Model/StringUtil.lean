import Verif.Model.Append
/-!
# Model of the string utilities

Source: src/snitch_string_utility.cpp, include/snitch/snitch_string_utility.hpp.
-/
namespace Verif
namespace Util

/-- include/snitch/snitch_string_utility.hpp 24-26: `for (i...) ss[offset + i] = '.'`, `n`
iterations left. -/
def dots (ss : Str) (offset : Nat) : Nat → Outcome Str
  | 0 => .ok ss
  | n + 1 => do
    let ss ← ss.setAt offset '.'
    dots ss (offset + 1) n

/-- include/snitch/snitch_string_utility.hpp 13-27 `truncate_end`. -/
def truncateEnd (ss : Str) : Outcome Str :=
  let numDots := 3
  let finalLength := (ss.size + numDots) % sizeT
  let finalLength := if finalLength > ss.capacity then ss.capacity else finalLength
  let offset := if finalLength ≥ numDots then finalLength - numDots else 0
  let numDots := finalLength - offset
  do
    let ss ← ss.resize finalLength
    dots ss offset numDots

/-- include/snitch/snitch_string_utility.hpp 29-37 `append_or_truncate`, for string arguments. -/
def appendOrTruncate (ce : Bool) (ss : Str) (args : List Text) : Outcome (Str × Bool) := do
  let (ss, ok) ← Append.variadic ce ss args
  if !ok then
    let ss ← truncateEnd ss
    return (ss, false)
  else return (ss, true)

/-- `std::string_view::find(pattern)` (standard library): the least index at which `pattern`
occurs. -/
def findAt (pattern : Text) : Text → Option Nat
  | [] => if pattern.isEmpty then some 0 else none
  | c :: cs => if pattern.isPrefixOf (c :: cs) then some 0 else (findAt pattern cs).map (· + 1)

/-- `std::string_view::find(pattern, pos)` (standard library): the least index not below `pos`;
`npos` if `pos` is past the end. -/
def findFrom (s pattern : Text) (pos : Nat) : Option Nat :=
  if pos ≤ s.length then (findAt pattern (s.drop pos)).map (· + pos) else none

/-- `std::rotate(begin + first, begin + mid, begin + last)` (standard library) on the buffer. -/
def rotate (ss : Str) (first mid last : Nat) : Outcome Str :=
  if first ≤ mid ∧ mid ≤ last ∧ last ≤ ss.buf.length then
    .ok { ss with buf := (ss.buf.take first ++ ((ss.buf.take last).drop mid ++
      (ss.buf.take mid).drop first)) ++ ss.buf.drop last }
  else .ub

/-- src/snitch_string_utility.cpp 10-15 `replace_same_size`. -/
def replaceSameSize (ss : Str) (pos : Nat) (replacement : Text) : Outcome (Str × Nat) := do
  let ss ← ss.memWrite pos replacement
  return (ss, pos + replacement.length)

/-- src/snitch_string_utility.cpp 17-32 `replace_smaller`. -/
def replaceSmaller (ss : Str) (charDiff pos : Nat) (replacement : Text) : Outcome (Str × Nat) := do
  let ss ← rotate ss pos (pos + charDiff) ss.size
  let ss ← if charDiff ≤ ss.size then ss.resize (ss.size - charDiff) else .abort
  let ss ← ss.memWrite pos replacement
  return (ss, pos + replacement.length)

/-- src/snitch_string_utility.cpp 34-54 `replace_larger`. `string.size() - pos` (line 49) is a
`size_t` subtraction; `pos ≤ size` at every call, and the model makes the other case `ub`. -/
def replaceLarger (ss : Str) (charDiff pos : Nat) (replacement : Text) : Outcome (Str × Nat) := do
  let charGrowth := min charDiff ss.available
  let ss ← ss.grow charGrowth
  let ss ← if charDiff ≤ ss.size ∧ ss.size - charDiff > pos then
      rotate ss pos (ss.size - charDiff) ss.size
    else .ok ss
  if pos ≤ ss.size then
    let maxChars := min replacement.length (ss.size - pos)
    let ss ← ss.memWrite pos (replacement.take maxChars)
    return (ss, pos + maxChars)
  else .ub

/-- The `while (pos != npos)` loops of src/snitch_string_utility.cpp 65-71, 79-86 and 95-106. The
three loops differ only in the replacement function `rep` and in the `overflow` flag, which only
the third one can set (`grows`). `fuel` bounds the number of iterations: `none` means "still
running". -/
def replaceLoop (rep : Str → Nat → Outcome (Str × Nat)) (grows : Nat) (pattern : Text) :
    Nat → Str → Option Nat → Bool → Option (Outcome (Str × Bool))
  | _, ss, none, overflow => some (.ok (ss, !overflow))
  | 0, _, some _, _ => none
  | fuel + 1, ss, some pos, overflow =>
    let overflow := overflow || decide (grows > ss.available)
    match rep ss pos with
    | .ok (ss, pos) =>
      replaceLoop rep grows pattern fuel ss (findFrom ss.contents pattern pos) overflow
    | .abort => some .abort
    | .ub => some .ub

/-- src/snitch_string_utility.cpp 58-110 `replace_all`. (In the same-size case the view `sv` is
not rebuilt, but it views the same, unchanged-length buffer.) -/
def replaceAll (fuel : Nat) (ss : Str) (pattern replacement : Text) :
    Option (Outcome (Str × Bool)) :=
  if replacement.length = pattern.length then
    replaceLoop (fun ss pos => replaceSameSize ss pos replacement) 0 pattern fuel ss
      (findFrom ss.contents pattern 0) false
  else if replacement.length < pattern.length then
    let charDiff := pattern.length - replacement.length
    replaceLoop (fun ss pos => replaceSmaller ss charDiff pos replacement) 0 pattern fuel ss
      (findFrom ss.contents pattern 0) false
  else
    let charDiff := replacement.length - pattern.length
    replaceLoop (fun ss pos => replaceLarger ss charDiff pos replacement) charDiff pattern fuel ss
      (findFrom ss.contents pattern 0) false

/-- src/snitch_string_utility.cpp 127-148: the loop of `escape_all_or_truncate`; returns the string,
`last_full_pos` and `overflow`. `string.capacity() - pos` is a `size_t` subtraction (`pos ≤ capacity`
always; the model writes the comparison as an addition, and says `ub` for the wrapped case). -/
def escapeLoop (charDiff : Nat) (pattern replacement : Text) :
    Nat → Str → Option Nat → Nat → Bool → Option (Outcome (Str × Nat × Bool))
  | _, ss, none, lastFull, overflow => some (.ok (ss, lastFull, overflow))
  | 0, _, some _, _, _ => none
  | fuel + 1, ss, some pos, lastFull, overflow =>
    if pos > ss.capacity then some .ub else
    let lastFull := if ss.capacity - pos ≥ 3 then pos else lastFull
    let overflow := overflow || decide (charDiff > ss.available)
    match replaceLarger ss charDiff pos replacement with
    | .ok (ss, pos) =>
      if pos > ss.capacity then some .ub else
      let lastFull := if ss.capacity - pos ≥ 3 then pos else lastFull
      escapeLoop charDiff pattern replacement fuel ss (findFrom ss.contents pattern pos)
        lastFull overflow
    | .abort => some .abort
    | .ub => some .ub

/-- src/snitch_string_utility.cpp 112-156 `escape_all_or_truncate`. -/
def escapeAllOrTruncate (fuel : Nat) (ss : Str) (pattern replacement : Text) :
    Option (Outcome (Str × Bool)) :=
  if replacement.length ≤ pattern.length then some .abort
  else
    let charDiff := replacement.length - pattern.length
    (escapeLoop charDiff pattern replacement fuel ss (findFrom ss.contents pattern 0)
      ss.contents.length false).map fun r => do
        let (ss, lastFull, overflow) ← r
        if overflow then
          let ss ← ss.resize lastFull
          let ss ← truncateEnd ss
          return (ss, !overflow)
        else return (ss, !overflow)

/-- src/snitch_string_utility.cpp 158-177 `find_first_not_escaped`; the cursor `i` is kept together
with the rest of the string, `str.substr(i)`. -/
def findFirstNotEscapedFrom (i : Nat) (c : Char) : Text → Option Nat
  | [] => none
  | [x] => if x = '\\' then none else if x = c then some i else none
  | x :: y :: rest =>
    if x = '\\' then findFirstNotEscapedFrom (i + 2) c rest
    else if x = c then some i
    else findFirstNotEscapedFrom (i + 1) c (y :: rest)

/-- src/snitch_string_utility.cpp 158-177. `none` is `npos`. -/
def findFirstNotEscaped (str : Text) (c : Char) : Option Nat := findFirstNotEscapedFrom 0 c str

/-- src/snitch_string_utility.cpp 192-235: the loop of `is_match`; the cursors `jr`, `js` are
represented by what they have not consumed, `regex.substr(jr)` and `string.substr(js)`
(`js ≤ string_size` always: `js` advances past matched characters only). The recursive call on a
non-empty `regex` starts this loop again. -/
def isMatchLoop : Text → Text → Bool
  | string, [] => string.isEmpty
  | _, ['\\'] => false
  | [], '\\' :: _ :: _ => false
  | x :: string, '\\' :: c :: regex => if c = x then isMatchLoop string regex else false
  | _, ['*'] => true
  | string, '*' :: c :: regex =>
    if string.length = 0 then (c :: regex).all (· == '*')
    else (List.range string.length).any fun o => isMatchLoop (string.drop o) (c :: regex)
  | [], _ :: _ => false
  | x :: string, c :: regex => if c = x then isMatchLoop string regex else false

/-- src/snitch_string_utility.cpp 179-241 `is_match`. -/
def isMatch (string regex : Text) : Bool :=
  if regex.isEmpty then true else isMatchLoop string regex

end Util
end Verif
