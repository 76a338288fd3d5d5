import Verif.Model.Output
/-!
# Where the output should go

Files are numbered in the order in which they are opened. Nothing is said about writers or callbacks.
-/
namespace Verif.Output.Spec
open Verif.Output

/-- A place to print to. -/
inductive Place where
  | stdout
  | user (c : Nat)
  | file (k : Nat)
deriving DecidableEq, Repr

/-- What can be seen from outside. -/
inductive Event where
  | opened (k : Nat) (path : Text)
  | text (p : Place) (m : Text)
  | closed (k : Nat)
deriving DecidableEq, Repr

/-- The place chosen last, the file that is open, and the number of files opened. -/
structure View where
  place : Place := .stdout
  isOpen : Option Nat := none
  opened : Nat := 0

/-- A new output file replaces the one before, which is closed. The end of a run closes the file. -/
def View.after (v : View) : Op → View
  | .out _ _ => { place := .file v.opened, isOpen := some v.opened, opened := v.opened + 1 }
  | .set c => { v with place := .user c }
  | .print _ => v
  | .endRun => { v with isOpen := none }

/-- What an operation does. -/
def View.events (v : View) : Op → List Event
  | .out path _ => .opened v.opened path :: v.isOpen.toList.map .closed
  | .set _ => []
  | .print m => [.text v.place m]
  | .endRun => v.isOpen.toList.map .closed

/-- What a sequence of operations does: everything printed goes to the place chosen last. -/
def trace : View → List Op → List Event
  | _, [] => []
  | v, op :: ops => v.events op ++ trace (v.after op) ops

/-- Nothing is printed to a file that was closed. -/
def Legal : View → List Op → Prop
  | _, [] => True
  | v, op :: ops => (∀ m, op = .print m → ∀ k, v.place = .file k → v.isOpen = some k) ∧ Legal (v.after op) ops

/-- Every output file can be opened, and its path is a C string of at most `maxPath` characters. -/
def Openable (maxPath : Nat) (ops : List Op) : Prop :=
  ∀ path succeeds, .out path succeeds ∈ ops → succeeds = true ∧ path.length ≤ maxPath ∧ '\x00' ∉ path

/-- The events about files, as calls of the C library. -/
def fileCalls (l : List Event) : List File.Call :=
  l.filterMap fun
    | .opened k p => some (.opened k p)
    | .text (.file k) m => some (.written k m)
    | .text _ _ => none
    | .closed k => some (.closed k)

/-- The texts for the standard output and for functions of the program. -/
def otherTexts (l : List Event) : List (Option Nat × Text) :=
  l.filterMap fun
    | .text .stdout m => some (none, m)
    | .text (.user c) m => some (some c, m)
    | _ => none

end Verif.Output.Spec
