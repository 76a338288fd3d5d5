import Verif.Model.Append
/-!
# Model of showing a value: which `append` is called for a value of which type

Source: include/snitch/snitch_append.hpp 19-20, 28-33, 281-374, include/snitch/snitch_concepts.hpp 10-68,
include/snitch/snitch_expression.hpp 46-55, src/snitch_append.cpp 89-129.

The overload set is the twelve functions of snitch_append.hpp with two parameters. Which one is called is decided by the
rules of C++ (ranks of conversion sequences, functions before templates), written out below for the types of `Ty` and for
classes with any list of implicit conversion functions. The argument is an lvalue of type `const T`, as in
`append_value(lhs)` and `add_capture(..., const T& arg)`.

Simplifications: no overloads of `append` provided by the user (found by argument-dependent lookup); no volatile
types; no references to incomplete arrays; a class is its conversion functions, so classes derived from
`std::string_view` and constructors of `std::string_view` taking the class are written as conversions to
`std::string_view`.
-/
namespace Verif.Value
open Verif

/-- An integer type other than `bool`, the character types included (`std::is_integral_v`,
include/snitch/snitch_concepts.hpp 10-17). `large`: it is the very type `large_int_t` or `large_uint_t`
(include/snitch/snitch_append.hpp 19-20), not just one of the same size. -/
structure IntTy where
  signed : Bool
  bits : Nat
  large : Bool

/-- The values of an integer type (two's complement; include/snitch/snitch_concepts.hpp 13-17 tells signed from
unsigned). -/
def IntTy.Holds (t : IntTy) (i : Int) : Prop :=
  if t.signed then -2 ^ (t.bits - 1) ≤ i ∧ i < 2 ^ (t.bits - 1) else 0 ≤ i ∧ i < 2 ^ t.bits

/-- The types an enumeration can be based on (`std::underlying_type_t`, include/snitch/snitch_append.hpp 349-352). -/
inductive Arith where
  | bool
  | integer (t : IntTy)

/-- What a pointer points to: `const char`, `char`, `const void`, `void`, a function, or anything else
(include/snitch/snitch_append.hpp 365-371 distinguishes these; include/snitch/snitch_concepts.hpp 36-48, 67-68). -/
inductive Pointee where
  | constChar
  | char
  | constVoid
  | void
  | function
  | object

/-- The type of the value shown, when it is not a class; `view` is `std::string_view`. `array true n` is `char[n]`
(include/snitch/snitch_concepts.hpp 53-65), `array false n` an array of anything else. -/
inductive Ty where
  | arith (a : Arith)
  | float
  | double
  | longDouble
  | enumeration (isScoped : Bool) (under : Arith)
  | null
  | pointer (p : Pointee)
  | array (ofChar : Bool) (n : Nat)
  | function
  | memberFunction
  | memberObject
  | view

/-- A type to be shown: one of the above or a class with these implicit conversion functions (classes such as
`std::string`, or `small_string` of include/snitch/snitch_string.hpp 124-126, are only shown through them). -/
inductive Source where
  | plain (t : Ty)
  | cls (convs : List Ty)

/-- A pointer value: the address (0 for the null pointer) and the characters found from there to the end of the
object, used by `std::string_view(value)` (include/snitch/snitch_append.hpp 369). -/
structure Ptr where
  addr : Nat
  chars : Text

/-- Values of `Arith` (include/snitch/snitch_append.hpp 333-352). -/
def Arith.Val : Arith → Type
  | .bool => Bool
  | .integer t => { i : Int // t.Holds i }

/-- Values (the parameters of include/snitch/snitch_append.hpp 281-374): floating point numbers are their bit patterns;
for an array the address of the first element and, for `char`, the `n` characters; for a member pointer whether it is
not null. -/
def Ty.Val : Ty → Type
  | .arith a => a.Val
  | .float => Nat
  | .double => Nat
  | .longDouble => Unit
  | .enumeration _ a => a.Val
  | .null => Unit
  | .pointer _ => Ptr
  | .array _ n => { p : Ptr // p.addr ≠ 0 ∧ p.chars.length = n }
  | .function => Unit
  | .memberFunction => Bool
  | .memberObject => Bool
  | .view => Text

/-- Values of a class: what its conversion functions return (include/snitch/snitch_append.hpp 281-374: all that
`append` can see of a class). -/
def Source.Val : Source → Type
  | .plain t => t.Val
  | .cls convs => (i : Fin convs.length) → (convs.get i).Val

/-- The overloads of include/snitch/snitch_append.hpp 281-374, in the order of the file. The last four are templates. -/
inductive Candidate where
  | view
  | voidPtr
  | null
  | largeUint
  | largeInt
  | float
  | double
  | bool
  | signed
  | unsigned
  | enumeration
  | ref
deriving DecidableEq

/-- The overload set (include/snitch/snitch_append.hpp 281-374). -/
def candidates : List Candidate :=
  [.view, .voidPtr, .null, .largeUint, .largeInt, .float, .double, .bool, .signed, .unsigned, .enumeration, .ref]

/-- Is it a template? (include/snitch/snitch_append.hpp 339-374) -/
def Candidate.template : Candidate → Bool
  | .signed | .unsigned | .enumeration | .ref => true
  | _ => false

/-- Ranks of standard conversion sequences, best first (C++20, over.ics.scs and over.ics.rank): identity (and lvalue
transformations), qualification, promotion, conversion, conversion of a pointer or member pointer to `bool`. For the calls in
include/snitch/snitch_append.hpp 281-374. -/
inductive Rank where
  | identity
  | qualification
  | promotion
  | conversion
  | toBool
deriving DecidableEq

/-- The order of the ranks, for the calls in include/snitch/snitch_append.hpp 281-374. -/
def Rank.order : Rank → Nat
  | .identity => 0
  | .qualification => 1
  | .promotion => 2
  | .conversion => 3
  | .toBool => 4

/-- An implicit conversion sequence, for the calls in include/snitch/snitch_append.hpp 281-374: a standard one; one
through the user-defined function number `f` and then a standard one; or an ambiguous one. -/
inductive Sequence where
  | standard (r : Rank)
  | user (f : Nat) (r : Rank)
  | ambiguous

/-- Is the first sequence better than the second? (C++20, over.ics.rank: standard before user-defined; two user-defined ones
are comparable only if through the same function.) For the calls in include/snitch/snitch_append.hpp 281-374. -/
def Sequence.better : Sequence → Sequence → Bool
  | .standard r, .standard r' => decide (r.order < r'.order)
  | .standard _, _ => true
  | .user f r, .user f' r' => decide (f = f') && decide (r.order < r'.order)
  | _, _ => false

/-- Promotion or conversion of an unscoped enumeration (for the parameters of include/snitch/snitch_append.hpp
281-337): it promotes to its underlying type. Simplified: enumerations without a fixed underlying type that do not fit `int`
are taken to promote to their underlying type also. -/
def fromEnum (a : Arith) (c : Candidate) : Option Rank :=
  match c with
  | .largeInt => match a with
    | .integer t => some (if t.signed && t.large then .promotion else .conversion)
    | .bool => some .conversion
  | .largeUint => match a with
    | .integer t => some (if !t.signed && t.large then .promotion else .conversion)
    | .bool => some .conversion
  | .bool => match a with
    | .bool => some .promotion
    | .integer _ => some .conversion
  | .float | .double => some .conversion
  | _ => none

/-- Standard conversions from arithmetic types to the parameters of include/snitch/snitch_append.hpp 281-337. -/
def fromArith (a : Arith) (c : Candidate) : Option Rank :=
  match c with
  | .largeInt => match a with
    | .integer t => some (if t.signed && t.large then .identity else .conversion)
    | .bool => some .conversion
  | .largeUint => match a with
    | .integer t => some (if !t.signed && t.large then .identity else .conversion)
    | .bool => some .conversion
  | .bool => match a with
    | .bool => some .identity
    | .integer _ => some .conversion
  | .float | .double => some .conversion
  | _ => none

/-- Conversions of a pointer to `const void*` (parameter of include/snitch/snitch_append.hpp 289). -/
def toVoid : Pointee → Option Rank
  | .constVoid => some .identity
  | .void => some .qualification
  | .constChar | .char | .object => some .conversion
  | .function => none

/-- Standard conversions to the parameters of include/snitch/snitch_append.hpp 281-337 (the functions that are not
templates). `none`: no such conversion. -/
def standard : Ty → Candidate → Option Rank
  | .arith a, c => fromArith a c
  | .float, c => match c with
    | .float => some .identity
    | .double => some .promotion
    | .largeInt | .largeUint | .bool => some .conversion
    | _ => none
  | .double, c => match c with
    | .double => some .identity
    | .float | .largeInt | .largeUint | .bool => some .conversion
    | _ => none
  | .longDouble, c => match c with
    | .float | .double | .largeInt | .largeUint | .bool => some .conversion
    | _ => none
  | .enumeration sc a, c => if sc then none else fromEnum a c
  | .null, c => match c with
    | .null => some .identity
    | .voidPtr => some .conversion
    | _ => none
  | .pointer p, c => match c with
    | .voidPtr => toVoid p
    | .bool => some .toBool
    | _ => none
  | .array _ _, c => match c with
    | .voidPtr => some .conversion
    | .bool => some .toBool
    | _ => none
  | .function, c => match c with
    | .bool => some .toBool
    | _ => none
  | .memberFunction, c => match c with
    | .bool => some .toBool
    | _ => none
  | .memberObject, c => match c with
    | .bool => some .toBool
    | _ => none
  | .view, c => match c with
    | .view => some .identity
    | _ => none

/-- The constraints of the templates (include/snitch/snitch_append.hpp 339, 344, 349, 354-355 with
include/snitch/snitch_concepts.hpp 13-17, 28-29, 36-48, 53-68); `bool` is an unsigned integral type. -/
def admits : Ty → Candidate → Bool
  | .arith (.integer t), .signed => t.signed
  | .arith (.integer t), .unsigned => !t.signed
  | .arith .bool, .unsigned => true
  | .enumeration _ _, .enumeration => true
  | .array ofChar _, .ref => ofChar
  | .pointer _, .ref => true
  | .memberFunction, .ref => true
  | _, _ => false

/-- The constructor `std::string_view(const char*)` as a conversion to the parameter of
include/snitch/snitch_append.hpp 281 (in C++20 also from `nullptr`). -/
def constructs : Ty → Bool
  | .pointer .constChar | .pointer .char | .array true _ | .null => true
  | _ => false

/-- The conversion functions of a class usable for a parameter of include/snitch/snitch_append.hpp 281-337, numbered, with
the rank of what comes after. -/
def usable (c : Candidate) : Nat → List Ty → List (Nat × Rank)
  | _, [] => []
  | k, t :: ts => match standard t c with
    | some r => (k, r) :: usable c (k + 1) ts
    | none => usable c (k + 1) ts

/-- The best of the usable conversion functions (C++20, over.match.best: by the conversion that comes after), if there is
one that is better than all the others. For the calls in include/snitch/snitch_append.hpp 281-337. -/
def bestOf (us : List (Nat × Rank)) : Option (Nat × Rank) :=
  us.find? fun u => us.all fun w => decide (w.1 = u.1) || decide (u.2.order < w.2.order)

/-- The conversion sequence of a class for one overload of include/snitch/snitch_append.hpp 281-374, if the overload is viable
(for the templates it is not: their constraints admit no class). -/
def fromClass (convs : List Ty) (c : Candidate) : Option Sequence :=
  if c.template then none
  else if (usable c 0 convs).isEmpty then none
  else match bestOf (usable c 0 convs) with
    | some (f, r) => some (.user f r)
    | none => some .ambiguous

/-- The conversion sequence for one overload of include/snitch/snitch_append.hpp 281-374, if the overload is viable. -/
def sequence : Source → Candidate → Option Sequence
  | .plain t, c =>
    if c.template then if admits t c then some (.standard .identity) else none
    else match standard t c with
      | some r => some (.standard r)
      | none => if c = .view ∧ constructs t then some (.user 0 .identity) else none
  | .cls convs, c => fromClass convs c

/-- Is overload `c` better than `c'`? (C++20, over.match.best: a better conversion, or an equally good one and a function before a
template.) For include/snitch/snitch_append.hpp 281-374. -/
def beats (s : Source) (c c' : Candidate) : Bool :=
  match sequence s c, sequence s c' with
  | some q, some q' => q.better q' || (!q'.better q && (!c.template && c'.template))
  | some _, none => true
  | _, _ => false

/-- Can overload `c` be called, i.e. is it viable and not through an ambiguous conversion, which is an error?
(include/snitch/snitch_append.hpp 281-374) -/
def callable (s : Source) (c : Candidate) : Bool :=
  match sequence s c with
  | some .ambiguous => false
  | some _ => true
  | none => false

/-- Is `c` the overload that is called: callable and better than all the others (include/snitch/snitch_append.hpp
281-374)? -/
def wins (s : Source) (c : Candidate) : Bool :=
  callable s c && candidates.all fun c' => decide (c' = c) || beats s c c'

/-- The overload called for a value of this type, `none` if the call `append(ss, value)` is an error, i.e. if the type is not
`string_appendable` (include/snitch/snitch_append.hpp 376-377). -/
def resolve (s : Source) : Option Candidate := candidates.find? (wins s)

/-- The printers a build is made of: the run-time versions of include/snitch/snitch_append.hpp 30-33 for integers, `append_to<16>`
of src/snitch_append.cpp 112, printing of floating point numbers (`real compileTime isDouble`: src/snitch_append.cpp 123-129 and
include/snitch/snitch_append.hpp 223-267, see C53), and `sizeof(void*)`. -/
structure Build where
  unsigned : Str → Nat → Outcome (Str × Bool)
  signed : Str → Int → Outcome (Str × Bool)
  hex : Str → Nat → Outcome (Str × Bool)
  real : Bool → Bool → Str → Nat → Outcome (Str × Bool)
  psize : Nat

/-- include/snitch/snitch_append.hpp 302-308 `append(ss, large_uint_t)`. -/
def appendUint (b : Build) (ce : Bool) (ss : Str) (i : Nat) : Outcome (Str × Bool) :=
  if ce then Append.unsigned 8 ss i else b.unsigned ss i

/-- include/snitch/snitch_append.hpp 309-315 `append(ss, large_int_t)`. -/
def appendInt (b : Build) (ce : Bool) (ss : Str) (i : Int) : Outcome (Str × Bool) :=
  if ce then Append.signed 8 ss i else b.signed ss i

/-- include/snitch/snitch_append.hpp 289-295 `append(ss, const void*)`. -/
def appendVoid (b : Build) (ce : Bool) (ss : Str) (addr : Nat) : Outcome (Str × Bool) :=
  if ce then Append.pointerConstexpr ss addr else Append.pointer b.hex b.psize ss addr

/-- Conversion of an integer to `large_int_t` (modulo 2^64; include/snitch/snitch_append.hpp 341 and the implicit
conversions to the parameter of 309). -/
def toLargeInt (i : Int) : Int := i.bmod (2 ^ 64)

/-- Conversion of an integer to `large_uint_t` (modulo 2^64; include/snitch/snitch_append.hpp 346 and 302). -/
def toLargeUint (i : Int) : Nat := (i % 2 ^ 64).toNat

/-- The number a value of an arithmetic type stands for (include/snitch/snitch_append.hpp 339-352). -/
def Arith.number : (a : Arith) → a.Val → Int
  | .bool, v => if (show Bool from v) then 1 else 0
  | .integer _, v => (v : { i : Int // _ }).val

/-- `append(ss, value)` for an arithmetic type: the functions of include/snitch/snitch_append.hpp 302-315, 333-337, or the
templates at 339-347, which cast and call the former. -/
def callArith (b : Build) (ce : Bool) (ss : Str) (a : Arith) (v : a.Val) : Candidate → Outcome (Str × Bool)
  | .largeUint | .unsigned => appendUint b ce ss (toLargeUint (a.number v))
  | .largeInt | .signed => appendInt b ce ss (toLargeInt (a.number v))
  | .bool => Append.bool ce ss (decide (a.number v ≠ 0))
  | _ => .ub

/-- `std::string_view(value)` for a C string (include/snitch/snitch_append.hpp 369): the characters before the first NUL;
undefined if there is none. -/
def viewOf (p : Ptr) : Outcome Text :=
  if '\x00' ∈ p.chars then .ok (p.chars.takeWhile (· ≠ '\x00')) else .ub

/-- include/snitch/snitch_append.hpp 354-374: the template for character arrays, pointers, function pointers and member function
pointers. -/
def callRef (b : Build) (ce : Bool) (ss : Str) : (t : Ty) → t.Val → Outcome (Str × Bool)
  | .array true n, v => Append.text ce ss ((v : { p : Ptr // _ }).val.chars.take (n - 1))
  | .pointer p, v =>
    let v : Ptr := v
    if v.addr = 0 then Append.nullptr ce ss
    else match p with
      | .function => Append.text ce ss "0x????????".toList
      | .constChar => do
        let t ← viewOf v
        Append.text ce ss t
      | _ => appendVoid b ce ss v.addr
  | .memberFunction, v =>
    if (show Bool from v) then Append.text ce ss "0x????????".toList else Append.nullptr ce ss
  | _, _ => .ub

/-- The address a value is converted to (parameter of include/snitch/snitch_append.hpp 289); `none` where there is no such
conversion. -/
def address : (t : Ty) → t.Val → Option Nat
  | .pointer _, v => some (v : Ptr).addr
  | .array _ _, v => some (v : { p : Ptr // _ }).val.addr
  | .null, _ => some 0
  | _, _ => none

/-- The truth value of a pointer, an array, a function or a member pointer (parameter of
include/snitch/snitch_append.hpp 333). -/
def truth : (t : Ty) → t.Val → Option Bool
  | .pointer _, v => some (decide ((v : Ptr).addr ≠ 0))
  | .array _ _, v => some (decide ((v : { p : Ptr // _ }).val.addr ≠ 0))
  | .function, _ => some true
  | .memberFunction, v => some (v : Bool)
  | .memberObject, v => some (v : Bool)
  | _, _ => none

/-- The call of overload `c` (include/snitch/snitch_append.hpp 281-374) with a value of a type that is not a class, or with what a
conversion function returned. Conversions that overload resolution never selects (e.g. of a floating point number to an integer) are
`ub` here. For an enumeration the call at 351 is resolved again, for the underlying type. -/
def call (b : Build) (ce : Bool) (ss : Str) (t : Ty) (v : t.Val) (c : Candidate) : Outcome (Str × Bool) :=
  match c with
  | .view => match t, v with
    | .view, v => Append.text ce ss v
    | .pointer _, v => do
      let s ← viewOf v
      Append.text ce ss s
    | _, _ => .ub
  | .null => Append.nullptr ce ss
  | .voidPtr => match address t v with
    | some a => appendVoid b ce ss a
    | none => .ub
  | .float => match t, v with
    | .float, v => b.real ce false ss v
    | _, _ => .ub
  | .double => match t, v with
    | .double, v => b.real ce true ss v
    | _, _ => .ub
  | .ref => callRef b ce ss t v
  | .enumeration => match t, v with
    | .enumeration _ a, v => match resolve (.plain (.arith a)) with
      | some c => callArith b ce ss a v c
      | none => .ub
    | _, _ => .ub
  | c => match t, v with
    | .arith a, v => callArith b ce ss a v c
    | .enumeration _ a, v => callArith b ce ss a v c
    | t, v => match c, truth t v with
      | .bool, some x => Append.bool ce ss x
      | _, _ => .ub

/-- `append(ss, value)` (include/snitch/snitch_append.hpp 281-374), `none` if that is not a valid call. -/
def append (b : Build) (ce : Bool) (ss : Str) : (s : Source) → s.Val → Option (Outcome (Str × Bool))
  | .plain t, v => (resolve (.plain t)).map (call b ce ss t v)
  | .cls convs, v => match resolve (.cls convs) with
    | none => none
    | some c => match sequence (.cls convs) c with
      | some (.user f _) =>
        if h : f < convs.length then some (call b ce ss (convs.get ⟨f, h⟩) (v ⟨f, h⟩) c) else some .ub
      | _ => some .ub

/-- include/snitch/snitch_expression.hpp 46-55 `append_value`: a question mark for what is not `string_appendable`. -/
def appendValue (b : Build) (ce : Bool) (ss : Str) (s : Source) (v : s.Val) : Outcome (Str × Bool) :=
  match append b ce ss s v with
  | some r => r
  | none => Append.text ce ss "?".toList

end Verif.Value
