import Verif.Model.Reporters
/-!
# What reporters should be told

Stated on the sequence of calls alone: nothing is said about storage, callbacks, or deleters.
-/
namespace Verif.Reporters.Spec
open Verif.Reporters

variable {ε : Type}

/-- The reporter objects constructed, in order. -/
def created (l : List (Call ε)) : List Nat :=
  l.filterMap fun c => match c with
    | .create o _ => some o
    | _ => none

/-- The reporter object that exists after some calls, given the one that existed before. -/
def aliveFrom : Option Nat → List (Call ε) → Option Nat
  | cur, [] => cur
  | _, .create o _ :: l => aliveFrom (some o) l
  | _, .destroy _ :: l => aliveFrom none l
  | cur, _ :: l => aliveFrom cur l

/-- The reporter object that exists after all calls. -/
def alive (l : List (Call ε)) : Option Nat := aliveFrom none l

/-- There is at most one reporter object at a time, and only that one is configured, told events, and destroyed. -/
def OrderlyFrom : Option Nat → List (Call ε) → Prop
  | _, [] => True
  | cur, .create o _ :: l => cur = none ∧ OrderlyFrom (some o) l
  | cur, .configured o _ _ :: l => cur = some o ∧ OrderlyFrom cur l
  | cur, .told o _ :: l => cur = some o ∧ OrderlyFrom cur l
  | cur, .destroy o :: l => cur = some o ∧ OrderlyFrom none l
  | cur, _ :: l => OrderlyFrom cur l

def Orderly (l : List (Call ε)) : Prop := OrderlyFrom none l

/-- What happens when a reporter is chosen with some options and a run has these events. A reporter given by a type:
an object is constructed, configured with each option, told each event, and destroyed. A reporter given by functions:
they are called in this order, those which there are. -/
def wholeRun (k : Kind) (o : Nat) (options : List (Text × Text)) (es : List ε) : List (Call ε) :=
  match k with
  | .typed t =>
    [.create o t] ++ options.map (fun p => .configured o p.1 p.2) ++ es.map (.told o) ++ [.destroy o]
  | .functions c init config fin =>
    (if init then [.initialised c] else []) ++ (if config then options.map fun p => .asked c p.1 p.2 else []) ++
      es.map (.called c) ++ (if fin then [.finished c] else [])

/-- A reporter given by a type takes the place of the object that exists, if any. -/
def replaced (k : Kind) (l : List (Call ε)) : List (Call ε) :=
  match k with
  | .typed _ => (alive l).toList.map .destroy
  | .functions .. => []

/-- The events of all runs. -/
def allEvents : List (Op ε) → List ε
  | [] => []
  | .run es :: ops => es ++ allEvents ops
  | _ :: ops => allEvents ops

/-- No reporter is ever chosen. -/
def NoChoice : List (Op ε) → Prop
  | [] => True
  | .choose _ _ :: _ => False
  | _ :: ops => NoChoice ops

end Verif.Reporters.Spec
