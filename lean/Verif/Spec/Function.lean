import Verif.Model.Function
/-!
# What a user expects of `function_ref` (C74)
-/
namespace Verif.Function.Spec
open Verif.Function

variable {σ α β : Type}

/-- Whether an object is a temporary. -/
def Temporary (c : Category) : Prop := c = .rvalue ∨ c = .constRvalue

/-- Whether an object can only be read. -/
def ReadOnly (c : Category) : Prop := c = .constLvalue

/-- Whether a free function may be referred to: it must promise not to throw if the `function_ref` does. -/
def Promises (code : Code σ α β) (noexc : Bool) (p : Nat) : Prop := noexc = true → code.freeNoexcept p = true

instance (code : Code σ α β) (noexc : Bool) (p : Nat) : Decidable (Promises code noexc p) :=
  inferInstanceAs (Decidable (_ → _))

/-- Whether an object serves as a plain function: a closure without captures that keeps the promise. -/
def Plain (code : Code σ α β) (noexc : Bool) (k : Class) : Prop :=
  ∃ p, k.invoker = some p ∧ Promises code noexc p

/-- Whether a member function may be called on an object for as long as the object lives: not on a temporary, and only a
`const` one on an object that can only be read. -/
def Usable (code : Code σ α β) (c : Category) (m : Nat) : Prop :=
  ¬ Temporary c ∧ (ReadOnly c → code.memberConst m = true)

/-- The initialisers a `function_ref` is to accept: functions, plain objects even if temporary, other objects with one
call operator that they can be called with, objects with a usable member function, `function_ref`s of the same type. -/
def Accepted (code : Code σ α β) (noexc : Bool) : Source → Prop
  | .pointer none => True
  | .pointer (some p) => Promises code noexc p
  | .object k _ c => Plain code noexc k ∨ ∃ m, k.call = some m ∧ Usable code c m
  | .bound _ c m => Usable code c m
  | .ref _ _ => True
  | .otherRef _ => False

/-- What a `function_ref` refers to: nothing (a null pointer), or a function. -/
inductive Target where
  | nothing
  | callee (c : Callee)
deriving DecidableEq, Repr

/-- How many `function_ref`s were made by a sequence of operations. -/
def made : List (Op σ α) → Nat
  | [] => 0
  | .make _ :: ops => made ops + 1
  | _ :: ops => made ops

/-- What an initialiser refers to, given what the others refer to. -/
def names (code : Code σ α β) (noexc : Bool) (others : Nat → Option Target) : Source → Option Target
  | .pointer none => some .nothing
  | .pointer (some p) => some (.callee (.free p))
  | .object k i _ =>
    match k.invoker, k.call with
    | some p, some m => some (.callee (if Promises code noexc p then .free p else .member i m))
    | some p, none => some (.callee (.free p))
    | none, some m => some (.callee (.member i m))
    | none, none => none
  | .bound i _ m => some (.callee (.member i m))
  | .ref r _ => others r
  | .otherRef _ => none

/-- What each `function_ref` refers to after a sequence of operations, given in reverse (the last one first): what the
last initialiser given to it referred to then. -/
def refersRev (code : Code σ α β) (noexc : Bool) : List (Op σ α) → Nat → Option Target
  | [], _ => none
  | .make s :: past, r =>
    if r = made past then names code noexc (refersRev code noexc past) s else refersRev code noexc past r
  | .assign q s :: past, r =>
    if r = q then names code noexc (refersRev code noexc past) s else refersRev code noexc past r
  | _ :: past, r => refersRev code noexc past r

/-- What each `function_ref` refers to after a sequence of operations. -/
def refers (code : Code σ α β) (noexc : Bool) (ops : List (Op σ α)) : Nat → Option Target :=
  refersRev code noexc ops.reverse

/-- The answer of a function with an argument, on the objects as they are; `none` if its object is not there. -/
def answer (code : Code σ α β) (w : World σ α β) (a : α) : Callee → Option (Answer β)
  | .free p => some (code.free p a)
  | .member i m => ((w.objects[i]?).join).map fun s => (code.member m s a).1

/-- Whether an answer is an exception. -/
def failed : Answer β → Bool
  | .returned _ => false
  | .threw => true

/-- Whether a function promises not to throw. -/
def quiet (code : Code σ α β) : Callee → Bool
  | .free p => code.freeNoexcept p
  | .member _ m => code.memberNoexcept m

/-- The state of an object after a function was called with an argument. -/
def after (code : Code σ α β) (a : α) (c : Callee) (j : Nat) (s : σ) : σ :=
  match c with
  | .free _ => s
  | .member i m => if i = j ∧ code.memberConst m = false then (code.member m s a).2 else s

/-- What happened between two worlds: the function was called once with the argument, it gave the answer, it did to its
object what it does, and nothing else changed. -/
structure Called (code : Code σ α β) (c : Callee) (a : α) (x : Answer β) (w w' : World σ α β) : Prop where
  calls : w'.calls = w.calls ++ [(c, a, x)]
  refs : w'.refs = w.refs
  count : w'.objects.length = w.objects.length
  objects : ∀ j, (w'.objects[j]?).join = ((w.objects[j]?).join).map (after code a c j)

/-- How the call of a function through a `function_ref` is to end: undefined if its object is gone; in `std::terminate` if
an exception meets a promise, of the function or of the type of the `function_ref`, that there is none; else the
function was called. -/
def CallEnds (code : Code σ α β) (noexc : Bool) (c : Callee) (a : α) (w : World σ α β)
    (r : Result (World σ α β)) : Prop :=
  match answer code w a c with
  | none => r = .undefined
  | some x =>
    if failed x = true ∧ (noexc = true ∨ quiet code c = true) then r = .terminated
    else ∃ w', r = .ok w' ∧ Called code c a x w w'

end Verif.Function.Spec
