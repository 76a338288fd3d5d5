import Verif.Model.Value
import Verif.Spec.Append
/-!
# Specification of how values are shown
-/
namespace Verif.Value.Spec
open Verif Verif.Spec

/-- How a truth value is shown. -/
def truthText (x : Bool) : Text := if x then "true".toList else "false".toList

/-- How an address is shown in a program with pointers of `psize` bytes; the compiler does not know addresses. -/
def IsAddress (psize : Nat) (atCompileTime : Bool) (addr : Nat) (t : Text) : Prop :=
  if addr = 0 then t = "nullptr".toList
  else if atCompileTime then t = "0x????????".toList
  else ∃ ds : Text, t = '0' :: 'x' :: ds ∧ ds.length = 2 * psize ∧ readNat 16 ds = some addr

/-- How a boolean or an integer is shown. Characters are integers. -/
def ShowsArith : (a : Arith) → a.Val → Text → Prop
  | .bool, v, t => t = truthText v
  | .integer _, v, t => IsIntNumeral 10 (Subtype.val v) t

/-- How a value is shown, type by type. -/
def Shows (psize : Nat) (atCompileTime : Bool) : (t : Ty) → t.Val → Text → Prop
  | .arith a, v, t => ShowsArith a v t
  | .enumeration _ a, v, t => ShowsArith a v t
  | .view, v, t => t = v
  | .null, _, t => t = "nullptr".toList
  | .pointer .constChar, v, t =>
    (Ptr.addr v = 0 ∧ t = "nullptr".toList) ∨
    (Ptr.addr v ≠ 0 ∧ '\x00' ∉ t ∧ ∃ rest, Ptr.chars v = t ++ '\x00' :: rest)
  | .pointer .function, v, t => t = if Ptr.addr v = 0 then "nullptr".toList else "0x????????".toList
  | .pointer _, v, t => IsAddress psize atCompileTime (Ptr.addr v) t
  | .array true _, v, t => ∃ last, Ptr.chars (Subtype.val v) = t ++ [last]
  | .array false _, v, t => IsAddress psize atCompileTime (Ptr.addr (Subtype.val v)) t
  | .memberFunction, v, t => t = if (show Bool from v) then "0x????????".toList else "nullptr".toList
  | .memberObject, v, t => t = truthText v
  | .function, _, t => t = "true".toList
  | .float, _, _ => False
  | .double, _, _ => False
  | .longDouble, _, _ => False

/-- Integers of at most 64 bits. -/
def Narrow : Arith → Prop
  | .bool => True
  | .integer t => t.bits ≤ 64

/-- What can be relied on about a value: integers of at most 64 bits, addresses of the size of a pointer, C strings that
end, arrays that are not empty. -/
def Sane (psize : Nat) : (t : Ty) → t.Val → Prop
  | .arith a, _ => Narrow a
  | .enumeration _ a, _ => Narrow a
  | .pointer .constChar, v => Ptr.addr v ≠ 0 → '\x00' ∈ Ptr.chars v
  | .pointer _, v => Ptr.addr v < 256 ^ psize
  | .array _ n, v => 0 < n ∧ Ptr.addr (Subtype.val v) < 256 ^ psize
  | _, _ => True

/-- As `Sane`, for a value handed over by a conversion function: it is the address of a C string that counts. -/
def SaneConverted (psize : Nat) : (t : Ty) → t.Val → Prop
  | .arith a, _ => Narrow a
  | .enumeration _ a, _ => Narrow a
  | .pointer _, v => Ptr.addr v < 256 ^ psize
  | .array _ _, v => Ptr.addr (Subtype.val v) < 256 ^ psize
  | _, _ => True

/-- Floating point types have their own printers (C53); `long double` has none. -/
def IsReal : Ty → Prop
  | .float | .double | .longDouble => True
  | _ => False

/-- A value of a class with a single conversion function, which returns `y`. -/
def single {t : Ty} (y : t.Val) : (Source.cls [t]).Val
  | ⟨0, _⟩ => y

/-- Can a class with the single conversion to `t` be shown? -/
def Shown : Ty → Bool
  | .arith .bool => true
  | .arith (.integer i) => i.large
  | .enumeration sc .bool => !sc
  | .enumeration sc (.integer i) => !sc && i.large
  | .longDouble => false
  | _ => true

/-- How a class with a single conversion is shown: as what it converts to, except that character arrays and C strings are shown
as addresses and pointers to functions as truth values. -/
def ShowsConverted (psize : Nat) (atCompileTime : Bool) : (t : Ty) → t.Val → Text → Prop
  | .arith a, v, t => ShowsArith a v t
  | .enumeration _ a, v, t => ShowsArith a v t
  | .view, v, t => t = v
  | .null, _, t => t = "nullptr".toList
  | .pointer .function, v, t => t = truthText (decide (Ptr.addr v ≠ 0))
  | .pointer _, v, t => IsAddress psize atCompileTime (Ptr.addr v) t
  | .array _ _, v, t => IsAddress psize atCompileTime (Ptr.addr (Subtype.val v)) t
  | .memberFunction, v, t => t = truthText v
  | .memberObject, v, t => t = truthText v
  | .function, _, t => t = "true".toList
  | .float, _, _ => False
  | .double, _, _ => False
  | .longDouble, _, _ => False

/-- The printers of integers and addresses of a build, with or without `std::to_chars`. -/
def Proper (b : Build) : Prop :=
  b.psize ≤ 8 ∧
  ((b.unsigned = Append.unsigned 8 ∧ b.signed = Append.signed 8 ∧ b.hex = Append.unsigned 14) ∨
   ∃ (u : Nat → Text) (s : Int → Text) (h : Nat → Text) (gu gh : Nat → Text) (gs : Int → Text),
     (∀ n, IsNumeral 10 n (u n)) ∧ (∀ i, IsIntNumeral 10 i (s i)) ∧ (∀ n, IsNumeral 16 n (h n)) ∧
     b.unsigned = (fun v n => Append.appendTo v (u n) (gu n)) ∧
     b.signed = (fun v i => Append.appendTo v (s i) (gs i)) ∧
     b.hex = (fun v n => Append.appendTo v (h n) (gh n)))

/-- What the README promises (README.md 733): integers, enumerations as their underlying type, booleans,
`string_view` and `char*` as text, raw pointers as addresses. `none`: not mentioned, or a floating point number (C53). -/
def documented (psize : Nat) (atCompileTime : Bool) : (t : Ty) → t.Val → Option (Text → Prop)
  | .arith a, v => some (ShowsArith a v)
  | .enumeration _ a, v => some (ShowsArith a v)
  | .view, v => some (· = v)
  | .pointer .function, _ => none
  | .pointer .char, v => some (Shows psize atCompileTime (.pointer .constChar) v)
  | .pointer .constChar, v => some (Shows psize atCompileTime (.pointer .constChar) v)
  | .pointer _, v => some (IsAddress psize atCompileTime (Ptr.addr v))
  | _, _ => none

end Verif.Value.Spec
