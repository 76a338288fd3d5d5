import Verif.Model.File
/-!
# Model of where a registry prints

Source: include/snitch/snitch_registry.hpp 125, 159 (`file_writer`, `print_callback`), src/snitch_registry.cpp 901-912,
1058-1066, include/snitch/snitch_function.hpp 108-217 `function_ref`.

A `function_ref` to a member function has a pointer to the object (include/snitch/snitch_function.hpp 184-187): the
storage of `std::optional<file_writer> file_writer`, whatever is in there when it is called.
-/
namespace Verif.Output

/-- include/snitch/snitch_registry.hpp 159 `print_callback`: `stdout_print`, `file_writer::write` on `*file_writer`, or a
function of the program (numbered). -/
inductive Callback where
  | stdout
  | writer
  | user (c : Nat)
deriving DecidableEq, Repr

/-- The writers and files (Verif/Model/File.lean), which writer is in the optional `file_writer`
(include/snitch/snitch_registry.hpp 125; `none`: empty), the callback, and what went to the standard output (`none`) and
to functions of the program (`some`), in order. -/
structure State where
  files : File.World := {}
  held : Option Nat := none
  callback : Callback := .stdout
  others : List (Option Nat × Text) := []
deriving DecidableEq, Repr

/-- `file_writer = impl::file_writer{path}` (src/snitch_registry.cpp 1059): a temporary is made; the optional constructs
its value from it, or assigns it (`std::optional::operator=`, standard library); the temporary is destroyed. -/
def assignWriter (maxPath : Nat) (path : Text) (succeeds : Bool) (s : State) : Outcome State := do
  let temporary := s.files.writers.length
  let w ← File.step maxPath s.files (.open path succeeds)
  match s.held with
  | none =>
    let held := w.writers.length
    let w ← File.step maxPath w (.createFrom temporary)
    let w ← File.step maxPath w (.destroy temporary)
    return { s with files := w, held := some held }
  | some i =>
    let w ← File.step maxPath w (.assign i temporary)
    let w ← File.step maxPath w (.destroy temporary)
    return { s with files := w }

/-- src/snitch_registry.cpp 1058-1066, `--out` in `registry::configure` (the colours: `Cli.configureOut`). -/
def configureOut (maxPath : Nat) (path : Text) (succeeds : Bool) (s : State) : Outcome State := do
  let s ← assignWriter maxPath path succeeds s
  return { s with callback := .writer }

/-- Calling `print_callback` (include/snitch/snitch_registry.hpp 172-200, include/snitch/snitch_function.hpp 192-216):
undefined if it refers to the value of an optional that has none. -/
def print (maxPath : Nat) (m : Text) (s : State) : Outcome State :=
  match s.callback with
  | .stdout => .ok { s with others := s.others ++ [(none, m)] }
  | .user c => .ok { s with others := s.others ++ [(some c, m)] }
  | .writer =>
    match s.held with
    | none => .ub
    | some i => do
      let w ← File.step maxPath s.files (.write i m)
      return { s with files := w }

/-- `file_writer.reset()` (src/snitch_registry.cpp 909) at the end of `run_tests`. -/
def endRun (maxPath : Nat) (s : State) : Outcome State :=
  match s.held with
  | none => .ok s
  | some i => do
    let w ← File.step maxPath s.files (.destroy i)
    return { s with files := w, held := none }

/-- What happens to the output of a registry: `--out` is given, the program sets `print_callback` to one of its
functions, something is printed, a run ends. -/
inductive Op where
  | out (path : Text) (succeeds : Bool)
  | set (c : Nat)
  | print (m : Text)
  | endRun
deriving DecidableEq, Repr

/-- One operation. -/
def step (maxPath : Nat) (s : State) : Op → Outcome State
  | .out path succeeds => configureOut maxPath path succeeds s
  | .set c => .ok { s with callback := .user c }
  | .print m => print maxPath m s
  | .endRun => endRun maxPath s

/-- A sequence of operations. -/
def history (maxPath : Nat) : List Op → State → Outcome State
  | [], s => .ok s
  | op :: ops, s => do
    let s ← step maxPath s op
    history maxPath ops s

end Verif.Output
