import Verif.Model.Outcome
/-!
# Model of type-erased storage

Source: include/snitch/snitch_any.hpp 21-105 `inplace_any`.

Any number of containers, created and destroyed in any order. Types are numbered; objects are numbered
in order of construction. An object is identified with its bytes: moving a container copies the bytes
and calls no constructor (lines 38, 46). That every type put in such a container can be moved in this
way is an assumption of the code.
-/
namespace Verif.Any

/-- include/snitch/snitch_any.hpp 22-25: the bytes (`storage`, the object last written there), the
function destroying an object of a given type (`none`: the function that does nothing), and the
identification of the type (`none`: `void`). -/
structure Container where
  storage : Option Nat := none
  deleter : Option Nat := none
  id : Option Nat := none
deriving DecidableEq, Repr

/-- The containers (`none`: destroyed), the types of the objects constructed so far, and the objects
destroyed so far, in order. -/
structure World where
  containers : List (Option Container) := []
  made : List Nat := []
  gone : List Nat := []
deriving DecidableEq, Repr

/-- include/snitch/snitch_any.hpp 27-30 `release`. -/
def Container.release (c : Container) : Container := { c with deleter := none, id := none }

/-- Calling the deleter (include/snitch/snitch_any.hpp 16-19, 102): undefined if the bytes are not an
object of this type which has been constructed and not yet destroyed. -/
def callDeleter (c : Container) (made gone : List Nat) : Outcome (List Nat) :=
  match c.deleter with
  | none => .ok gone
  | some t =>
    match c.storage with
    | none => .ub
    | some o => if made[o]? = some t ∧ o ∉ gone then .ok (gone ++ [o]) else .ub

/-- include/snitch/snitch_any.hpp 101-104 `reset`. -/
def Container.reset (c : Container) (made gone : List Nat) : Outcome (Container × List Nat) := do
  let gone ← callDeleter c made gone
  return (c.release, gone)

/-- What a program can do with containers. -/
inductive Op where
  /-- default constructor -/
  | create
  /-- move constructor -/
  | createFrom (source : Nat)
  /-- `emplace<T>` -/
  | emplace (i : Nat) (type : Nat)
  /-- `emplace<T>` whose constructor throws -/
  | emplaceThrows (i : Nat)
  | reset (i : Nat)
  /-- move assignment (possibly to itself) -/
  | assign (i source : Nat)
  | destroy (i : Nat)
deriving DecidableEq, Repr

/-- The container number `i`, if it exists. -/
def World.at (w : World) (i : Nat) : Option Container := w.containers[i]?.join

/-- Changing the container number `i`. -/
def World.put (w : World) (i : Nat) (c : Option Container) : World :=
  { w with containers := w.containers.set i c }

/-- include/snitch/snitch_any.hpp 70-80 `emplace`. -/
def emplace (w : World) (i : Nat) (c : Container) (type : Nat) : Outcome World := do
  let (_, gone) ← c.reset w.made w.gone
  return { w with gone, made := w.made ++ [type] }.put i
    (some { storage := some w.made.length, deleter := some type, id := some type })

/-- include/snitch/snitch_any.hpp 44-51 move assignment; reads `other` after `reset`, which matters if it
is the same container. -/
def assign (w : World) (i : Nat) (c : Container) (source : Nat) : Outcome World := do
  let (c, gone) ← c.reset w.made w.gone
  let w := { w with gone }.put i (some c)
  match w.at source with
  | none => return w
  | some other => return (w.put i (some other)).put source (some other.release)

/-- One operation. Operations on containers that do not exist are no programs, and ignored. -/
def step (w : World) : Op → Outcome World
  | .create => .ok { w with containers := w.containers ++ [some {}] }
  | .createFrom source =>
    match w.at source with
    | none => .ok w
    | some other =>
      let w := w.put source (some other.release)
      .ok { w with containers := w.containers ++ [some other] }
  | .emplace i type =>
    match w.at i with
    | none => .ok w
    | some c => emplace w i c type
  | .emplaceThrows i =>
    match w.at i with
    | none => .ok w
    | some c => do
      let (c, gone) ← c.reset w.made w.gone
      return { w with gone }.put i (some c)
  | .reset i =>
    match w.at i with
    | none => .ok w
    | some c => do
      let (c, gone) ← c.reset w.made w.gone
      return { w with gone }.put i (some c)
  | .assign i source =>
    match w.at i, w.at source with
    | some c, some _ => assign w i c source
    | _, _ => .ok w
  | .destroy i =>
    match w.at i with
    | none => .ok w
    | some c => do
      let (_, gone) ← c.reset w.made w.gone
      return { w with gone }.put i none

/-- A sequence of operations. -/
def run (w : World) : List Op → Outcome World
  | [] => .ok w
  | op :: ops => do
    let w ← step w op
    run w ops

/-- include/snitch/snitch_any.hpp 62-64 `has_value`. -/
def Container.hasValue (c : Container) : Bool := c.id.isSome

/-- include/snitch/snitch_any.hpp 84-93 `get<T>`: the object returned. Undefined if the bytes are not
an object of that type that is alive. -/
def get (w : World) (c : Container) (type : Nat) : Outcome Nat :=
  if !c.hasValue then .abort
  else if c.id ≠ some type then .abort
  else
    match c.storage with
    | none => .ub
    | some o => if w.made[o]? = some type ∧ o ∉ w.gone then .ok o else .ub

end Verif.Any
