import Verif.Model.Current
/-!
# Threads

Source: src/snitch_test_data.cpp 10-29, include/snitch/snitch_config.hpp.config 86-88, 112-116 (`SNITCH_THREAD_LOCAL`),
src/snitch_registry.cpp 584-704.

Several threads, each executing code as in Verif/Model/Current.lean, one step at a time, in any order. A thread started
by a test is one whose steps come later. What they share is the variable `thread_current_test`, unless it is thread
local. Everything else (the objects of the program, the registry) is not modelled here.
-/
namespace Verif.Threads
open Verif.Current

/-- A test state: the thread that made it, and its number there (src/snitch_registry.cpp 602, a local variable). -/
abbrev Id := Nat × Nat

/-- What remains to be done after the current piece of code: of a `try` block, or of a `registry::run`
(src/snitch_registry.cpp 634-704, with the `previous_run` of line 610). -/
inductive Frame where
  | handle (k : Code)
  | test (previous : Option Id) (k : Code)
deriving DecidableEq

/-- Executing some code, or having left it, with or without an exception. -/
inductive Control where
  | run (c : Code) (frames : List Frame)
  | leave (raised : Bool) (frames : List Frame)
deriving DecidableEq

/-- What belongs to one thread: where it is, the number of tests it has run, and where its uses were recorded. -/
structure Local where
  control : Control
  next : Nat := 0
  log : List (Id × Use) := []
deriving DecidableEq

/-- `get_current_test` (src/snitch_test_data.cpp 14-21), followed by recording something in the test. -/
def touch (u : Use) (current : Option Id) (log : List (Id × Use)) : Outcome (List (Id × Use)) :=
  match current with
  | none => .abort
  | some t => .ok (log ++ [(t, u)])

/-- One step of the thread `me`, which reads and writes the variable `thread_current_test`; the same steps as
`Current.exec`. src/snitch_registry.cpp 602 (new state), 610-611 (save and set), 634-656 (at the end), 701 (restore). -/
def stepLocal (me : Nat) (l : Local) (current : Option Id) : Outcome (Local × Option Id) :=
  match l.control with
  | .run .done fs => .ok ({ l with control := .leave false fs }, current)
  | .run (.use here k) fs => do
    let log ← touch (.at here) current l.log
    return ({ l with control := .run k fs, log }, current)
  | .run .raise fs => .ok ({ l with control := .leave true fs }, current)
  | .run (.handle body k) fs => .ok ({ l with control := .run body (.handle k :: fs) }, current)
  | .run (.runTest body k) fs =>
    .ok ({ l with control := .run body (.test current k :: fs), next := l.next + 1 }, some (me, l.next))
  | .leave _ [] => .ok (l, current)
  | .leave _ (.handle k :: fs) => .ok ({ l with control := .run k fs }, current)
  | .leave _ (.test previous k :: fs) => do
    let log ← touch .closing current l.log
    return ({ l with control := .run k fs, log }, previous)

/-- All threads, and the variables named `thread_current_test`. -/
structure Global where
  locals : List Local
  vars : List (Option Id)
deriving DecidableEq

/-- include/snitch/snitch_config.hpp.config 112-116: with `SNITCH_WITH_MULTITHREADING` each thread has its own variable;
without it, there is one for all. -/
def slot (multithreading : Bool) (i : Nat) : Nat := if multithreading then i else 0

/-- One step of the thread `i`, if there is one. -/
def stepGlobal (multithreading : Bool) (i : Nat) (g : Global) : Outcome Global :=
  match g.locals[i]?, g.vars[slot multithreading i]? with
  | some l, some current => do
    let (l, current) ← stepLocal i l current
    return { locals := g.locals.set i l, vars := g.vars.set (slot multithreading i) current }
  | _, _ => .ok g

/-- Steps of threads in the given order. -/
def runSchedule (multithreading : Bool) : List Nat → Global → Outcome Global
  | [], g => .ok g
  | i :: schedule, g => do
    let g ← stepGlobal multithreading i g
    runSchedule multithreading schedule g

/-- Threads about to execute their code; no test is running on any of them (src/snitch_test_data.cpp 11). -/
def start (codes : List Code) : Global where
  locals := codes.map fun c => { control := .run c [] }
  vars := codes.map fun _ => none

end Verif.Threads
