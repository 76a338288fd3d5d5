import Verif.Model.File
/-!
# Which file a writer writes to
-/
namespace Verif.File.Spec

/-- The writers in order of creation: `none` if destroyed, otherwise the file written to, if any. And the
paths of the files opened. -/
structure State where
  owns : List (Option (Option Nat)) := []
  paths : List Text := []

/-- Whether a writer exists. -/
def State.exists (s : State) (i : Nat) : Prop := (s.owns[i]?.join).isSome = true

instance (s : State) (i : Nat) : Decidable (s.exists i) := inferInstanceAs (Decidable (_ = _))

/-- The file a writer writes to. -/
def State.file (s : State) (i : Nat) : Option Nat := s.owns[i]?.join.join

/-- Whether some writer writes to the file. -/
def State.inUse (s : State) (f : Nat) : Prop := some (some f) ∈ s.owns

instance (s : State) (f : Nat) : Decidable (s.inUse f) := inferInstanceAs (Decidable (_ ∈ _))

/-- The intended effect of an operation. When a writer is assigned another one, it writes to the file of
that one, which in turn gets its file (and closes it in the end). -/
def State.after (s : State) : Op → State
  | .create => { s with owns := s.owns ++ [some none] }
  | .open path _ => { owns := s.owns ++ [some (some s.paths.length)], paths := s.paths ++ [path] }
  | .createFrom j =>
    if s.exists j then { s with owns := s.owns.set j (some none) ++ [some (s.file j)] } else s
  | .assign i j =>
    if s.exists i ∧ s.exists j then
      { s with owns := (s.owns.set i (some (s.file j))).set j (some (s.file i)) }
    else s
  | .write _ _ => s
  | .destroy i => { s with owns := s.owns.set i none }

/-- The messages that go to the file `f`, in order. -/
def sent (f : Nat) : State → List Op → List Text
  | _, [] => []
  | s, .write i m :: ops =>
    (if s.file i = some f then [m] else []) ++ sent f (s.after (.write i m)) ops
  | s, op :: ops => sent f (s.after op) ops

/-- The calls made for the file `f`. -/
def callsFor (f : Nat) (calls : List Call) : List Call :=
  calls.filter fun
    | .opened g _ => g == f
    | .written g _ => g == f
    | .closed g => g == f

/-- Every file opened can be opened, and its path is a C string of at most `maxPath` characters. -/
def Openable (maxPath : Nat) (ops : List Op) : Prop :=
  ∀ op ∈ ops, ∀ path succeeds, op = .open path succeeds →
    succeeds = true ∧ path.length ≤ maxPath ∧ '\x00' ∉ path

end Verif.File.Spec
