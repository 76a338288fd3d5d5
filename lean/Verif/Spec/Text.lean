/-!
# Specifications about text: fitting prefixes, numerals

Independent of the model.
-/
namespace Verif.Spec

/-- What a bounded text destination of capacity `cap` showing `old` shows after receiving `s`:
everything if it fits, otherwise the longest prefix that fits. -/
def fill (cap : Nat) (old s : List Char) : List Char := (old ++ s).take cap

/-- Value of a digit character (lower-case hexadecimal). -/
def digitVal (c : Char) : Option Nat :=
  if '0' ≤ c ∧ c ≤ '9' then some (c.toNat - '0'.toNat)
  else if 'a' ≤ c ∧ c ≤ 'f' then some (c.toNat - 'a'.toNat + 10)
  else none

/-- Reading a numeral, most significant digit first; `acc` is the value read so far. -/
def readFrom (base : Nat) (acc : Nat) : List Char → Option Nat
  | [] => some acc
  | c :: cs =>
    match digitVal c with
    | some d => if d < base then readFrom base (acc * base + d) cs else none
    | none => none

/-- Reading an unsigned numeral. -/
def readNat (base : Nat) (cs : List Char) : Option Nat :=
  if cs = [] then none else readFrom base 0 cs

/-- Reading a signed numeral: an optional leading minus sign. -/
def readInt (base : Nat) : List Char → Option Int
  | '-' :: cs => (readNat base cs).map (fun n => -(n : Int))
  | cs => (readNat base cs).map (fun n => (n : Int))

/-- No superfluous leading zero. -/
def Canonical (cs : List Char) : Prop := cs ≠ [] ∧ (cs.head? = some '0' → cs = ['0'])

end Verif.Spec

namespace Verif.Spec

/-- `t` is the standard numeral of `n` in the given base. -/
def IsNumeral (base n : Nat) (t : List Char) : Prop := readNat base t = some n ∧ Canonical t

/-- `t` is the standard numeral of the integer `i`: a minus sign exactly for negative values,
followed by the numeral of the magnitude. -/
def IsIntNumeral (base : Nat) (i : Int) (t : List Char) : Prop :=
  (0 ≤ i ∧ IsNumeral base i.natAbs t) ∨ (i < 0 ∧ ∃ u, t = '-' :: u ∧ IsNumeral base i.natAbs u)

end Verif.Spec
