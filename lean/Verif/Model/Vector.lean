import Verif.Model.Outcome
/-!
# Model of `small_vector` / `small_vector_span` / `small_string`

Source: include/snitch/snitch_vector.hpp 13-332, include/snitch/snitch_string.hpp 13-141.
A `small_string<N>` is the same structure over characters.

Simplifications: the span (three pointers) and the owner are one value (`SV`); element copies and
moves are plain assignments; iterators are not modelled.
-/

namespace Verif

/-- Number of values of `std::size_t` on the 64-bit targets considered. -/
def sizeT : Nat := 2 ^ 64

/-- include/snitch/snitch_vector.hpp 14-17 and 214-219: storage of fixed length and current size.
`buf.length` is `buffer_size` (the capacity); slots at index `≥ size` hold stale values. -/
structure SV (α : Type) where
  buf : List α
  size : Nat
deriving DecidableEq, Repr

namespace SV
variable {α : Type}

/-- include/snitch/snitch_vector.hpp 23-25 `capacity()`. -/
@[reducible] def capacity (v : SV α) : Nat := v.buf.length

/-- include/snitch/snitch_vector.hpp 26-28 `available()`; the `size_t` subtraction never wraps
because `size ≤ capacity` is an invariant (theorem `C01_capacity_invariant`). -/
def available (v : SV α) : Nat := v.capacity - v.size

/-- include/snitch/snitch_vector.hpp 117-128: the elements visible through `begin()..end()`. -/
def contents (v : SV α) : List α := v.buf.take v.size

/-- include/snitch/snitch_vector.hpp 35-37 `clear()`. -/
def clear (v : SV α) : SV α := { v with size := 0 }

/-- include/snitch/snitch_vector.hpp 40-46 `resize(new_size)`. -/
def resize (v : SV α) (n : Nat) : Outcome (SV α) :=
  if n > v.capacity then .abort else .ok { v with size := n }

/-- include/snitch/snitch_vector.hpp 49-55 `grow(elem)`; the sum is a `size_t` sum. -/
def grow (v : SV α) (n : Nat) : Outcome (SV α) :=
  if (v.size + n) % sizeT > v.capacity then .abort
  else .ok { v with size := (v.size + n) % sizeT }

/-- include/snitch/snitch_vector.hpp 58-82 `push_back(t)` (copy and move overloads are the same
here). The write goes to slot `size - 1` after the increment; outside the storage it is UB. -/
def pushBack (v : SV α) (t : α) : Outcome (SV α) :=
  if v.size = v.capacity then .abort
  else if v.size < v.capacity then .ok { buf := v.buf.set v.size t, size := v.size + 1 }
  else .ub

/-- include/snitch/snitch_vector.hpp 85-91 `pop_back()`. -/
def popBack (v : SV α) : Outcome (SV α) :=
  if v.size = 0 then .abort else .ok { v with size := v.size - 1 }

/-- include/snitch/snitch_vector.hpp 94-109 `back()`. -/
def back (v : SV α) : Outcome α :=
  if v.size = 0 then .abort
  else match v.buf[v.size - 1]? with
    | some x => .ok x
    | none => .ub

/-- include/snitch/snitch_vector.hpp 137-150 `operator[](i)` (read). -/
def get (v : SV α) (i : Nat) : Outcome α :=
  if i ≥ v.size then .abort
  else match v.buf[i]? with
    | some x => .ok x
    | none => .ub

/-- include/snitch/snitch_vector.hpp 137-142 `operator[](i) = x` (write). -/
def setAt (v : SV α) (i : Nat) (x : α) : Outcome (SV α) :=
  if i ≥ v.size then .abort
  else if i < v.buf.length then .ok { v with buf := v.buf.set i x }
  else .ub

/-- Raw memory write `std::memcpy/memmove(begin() + off, xs, n)` as used in
src/snitch_string_utility.cpp 12, 28, 50 and src/snitch_append.cpp 84: no bounds check in the code,
so a write outside the storage is UB. Overlapping source and destination (a string appended to
itself) is not modelled: `xs` is a value. -/
def memWrite (v : SV α) (off : Nat) (xs : List α) : Outcome (SV α) :=
  if off + xs.length ≤ v.buf.length then
    .ok { v with buf := v.buf.take off ++ xs ++ v.buf.drop (off + xs.length) }
  else .ub

/-- The default-constructed owner: include/snitch/snitch_vector.hpp 214-221 (storage value-initialised,
size 0). -/
def empty (cap : Nat) (fill : α) : SV α := { buf := List.replicate cap fill, size := 0 }

/-- include/snitch/snitch_vector.hpp 222-231: constructor from an initializer list, a `push_back`
loop. -/
def ofList (cap : Nat) (fill : α) (xs : List α) : Outcome (SV α) :=
  xs.foldlM (fun v x => v.pushBack x) (SV.empty cap fill)

/-- The mutating operations of the public interface (same lines as the functions above). -/
inductive Op (α : Type) where
  | clear
  | resize (n : Nat)
  | grow (n : Nat)
  | pushBack (x : α)
  | popBack
  | set (i : Nat) (x : α)
deriving DecidableEq, Repr

/-- One call, include/snitch/snitch_vector.hpp 35-91, 137-142. -/
def step (v : SV α) : Op α → Outcome (SV α)
  | .clear => .ok v.clear
  | .resize n => v.resize n
  | .grow n => v.grow n
  | .pushBack x => v.pushBack x
  | .popBack => v.popBack
  | .set i x => v.setAt i x

/-- A sequence of calls (any client program using the interface). -/
def run (v : SV α) (ops : List (Op α)) : Outcome (SV α) := ops.foldlM step v

end SV
end Verif
