import Verif.Model.Append
/-!
# Model of output files

Source: src/snitch_file.cpp 9-55, include/snitch/snitch_file.hpp 12-30 `file_writer`.

Any number of writers, created and destroyed in any order. Files are numbered in the order in which they
are opened (opening the same path twice gives two files; what the operating system then does to the
contents is not modelled, nor are errors of `fwrite` and `fflush`, which the code ignores).
-/
namespace Verif.File

/-- The calls of the C library made. -/
inductive Call where
  | opened (file : Nat) (path : Text)
  | written (file : Nat) (message : Text)
  | closed (file : Nat)
deriving DecidableEq, Repr

/-- The writers (`none`: destroyed), each with its `file_handle` (include/snitch/snitch_file.hpp 13;
`none` is the null pointer), the number of files opened so far and the calls made so far. -/
structure World where
  writers : List (Option (Option Nat)) := []
  files : Nat := 0
  calls : List Call := []
deriving DecidableEq, Repr

/-- Bookkeeping of the model: the call opens `f`. -/
def Call.opens (f : Nat) : Call → Bool
  | .opened g _ => g == f
  | _ => false

/-- Bookkeeping of the model: the call closes `f`. -/
def Call.closes (f : Nat) : Call → Bool
  | .closed g => g == f
  | _ => false

/-- A file that has been opened and not closed. Using any other is undefined (C standard, 7.21.3). -/
def World.isOpen (w : World) (f : Nat) : Bool :=
  w.calls.any (Call.opens f) && !w.calls.any (Call.closes f)

/-- The C string starting at the beginning of some storage: undefined if there is no terminator
in it. -/
def cString : List Char → Outcome Text
  | [] => .ub
  | c :: cs => if c = '\x00' then .ok [] else do return c :: (← cString cs)

/-- src/snitch_file.cpp 10-14, 22: the path given to `fopen`; `maxPath` is `max_path_length`. -/
def pathFor (maxPath : Nat) (path : Text) : Outcome Text := do
  let (ss, fits) ← Append.text false (SV.empty (maxPath + 1) '\x00') path
  if fits then cString ss.buf else .abort

/-- src/snitch_file.cpp 9-28, the constructor; `succeeds` tells whether `fopen` succeeds (the answer of the
operating system). -/
def openFile (maxPath : Nat) (w : World) (path : Text) (succeeds : Bool) : Outcome World := do
  let p ← pathFor maxPath path
  if succeeds then
    return { writers := w.writers ++ [some (some w.files)], files := w.files + 1,
             calls := w.calls ++ [.opened w.files p] }
  else .abort

/-- src/snitch_file.cpp 39-45, the destructor. -/
def close (w : World) (handle : Option Nat) : Outcome World :=
  match handle with
  | none => .ok w
  | some f => if w.isOpen f then .ok { w with calls := w.calls ++ [.closed f] } else .ub

/-- src/snitch_file.cpp 47-55 `write`. -/
def write (w : World) (handle : Option Nat) (message : Text) : Outcome World :=
  match handle with
  | none => .ok w
  | some f => if w.isOpen f then .ok { w with calls := w.calls ++ [.written f message] } else .ub

/-- What a program can do with writers. -/
inductive Op where
  /-- default constructor -/
  | create
  | open (path : Text) (succeeds : Bool)
  /-- move constructor -/
  | createFrom (source : Nat)
  /-- move assignment (possibly to itself) -/
  | assign (i source : Nat)
  | write (i : Nat) (message : Text)
  | destroy (i : Nat)
deriving DecidableEq, Repr

/-- The writer number `i`, if it exists. -/
def World.at (w : World) (i : Nat) : Option (Option Nat) := w.writers[i]?.join

/-- One operation. Operations on writers that do not exist are no programs, and ignored.
src/snitch_file.cpp 30-32 (move constructor: swap with the null pointer), 34-37 (move assignment:
swap). -/
def step (maxPath : Nat) (w : World) : Op → Outcome World
  | .create => .ok { w with writers := w.writers ++ [some none] }
  | .open path succeeds => openFile maxPath w path succeeds
  | .createFrom j =>
    match w.at j with
    | none => .ok w
    | some h => .ok { w with writers := w.writers.set j (some none) ++ [some h] }
  | .assign i j =>
    match w.at i, w.at j with
    | some a, some b => .ok { w with writers := (w.writers.set i (some b)).set j (some a) }
    | _, _ => .ok w
  | .write i m =>
    match w.at i with
    | none => .ok w
    | some h => write w h m
  | .destroy i =>
    match w.at i with
    | none => .ok w
    | some h => do
      let w ← close w h
      return { w with writers := w.writers.set i none }

/-- A sequence of operations. -/
def run (maxPath : Nat) (w : World) : List Op → Outcome World
  | [] => .ok w
  | op :: ops => do
    let w ← step maxPath w op
    run maxPath w ops

end Verif.File
