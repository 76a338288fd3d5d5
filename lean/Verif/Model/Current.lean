import Verif.Model.Outcome
/-!
# The test running on this thread

Models `thread_current_test` (src/snitch_test_data.cpp 11-29) and the way `registry::run`
(src/snitch_registry.cpp 584-704) saves, sets and restores it. Test bodies are reduced to what matters
here: touching the current test, raising and handling exceptions, and running further tests (which
happens when a body runs the tests of another registry). Only one thread is modelled here; several
threads are in Verif/Model/Threads.lean.
-/
namespace Verif.Current

/-- What code executed on a thread can do, as far as the current test is concerned.

* `use here k`: a test macro at the place `here`, then `k`: every macro calls `get_current_test`
  (src/snitch_test_data.cpp 40, 71; src/snitch_section.cpp 14, 73; src/snitch_capture.cpp 84-103;
  src/snitch_registry.cpp 498-540).
* `raise`: an exception leaves the code (a failed `REQUIRE`, `FAIL`, or any other exception).
* `handle body k`: `body` inside `try { } catch (...) { }`, then `k`.
* `runTest body k`: `registry::run` (src/snitch_registry.cpp 584-704) called for a test with this
  body, then `k`. Simplified: `body` stands for all the executions of the test function (one for each
  leaf section). -/
inductive Code where
  | done
  | use (here : Nat) (k : Code)
  | raise
  | handle (body k : Code)
  | runTest (body k : Code)
deriving DecidableEq

/-- What was recorded in a test: a use by its body, or the end of the test
(src/snitch_registry.cpp 634-656, where `report_assertion` and `notify_exception_handled` also ask for
the current test). -/
inductive Use where
  | at (here : Nat)
  | closing
deriving DecidableEq

/-- The state of a thread: `current` models `thread_current_test` (src/snitch_test_data.cpp 11), test
states being numbered in order of creation (src/snitch_registry.cpp 602); `next` is the number of the
next one; `log` tells which test state each use has been recorded in. -/
structure Thread where
  current : Option Nat
  next : Nat
  log : List (Nat × Use)
deriving DecidableEq

/-- `get_current_test` (src/snitch_test_data.cpp 14-21), followed by recording something in the test. -/
def touch (u : Use) (s : Thread) : Outcome Thread :=
  match s.current with
  | none => .abort
  | some t => .ok { s with log := s.log ++ [(t, u)] }

/-- Executing code; the flag tells whether an exception leaves it. For `runTest`:
src/snitch_registry.cpp 602 (new state), 610-611 (save and set), 617-656 (run the body, catch
everything, report), 701 (restore). -/
def exec : Code → Thread → Outcome (Thread × Bool)
  | .done, s => .ok (s, false)
  | .use here k, s => do
    let s ← touch (.at here) s
    exec k s
  | .raise, s => .ok (s, true)
  | .handle body k, s => do
    let (s, _) ← exec body s
    exec k s
  | .runTest body k, s => do
    let previous := s.current
    let s := { s with current := some s.next, next := s.next + 1 }
    let (s, _) ← exec body s
    let s ← touch .closing s
    let s := { s with current := previous }
    exec k s

end Verif.Current
