import Verif.Model.Timing
/-! # What the times of a run are -/
namespace Verif.Timing.Spec
open Verif.Run

/-- A clock that never goes back. -/
def Steady (clock : Nat → Nat) : Prop := ∀ m n, m ≤ n → clock m ≤ clock n

/-- What a duration can be told of. -/
inductive What
  | section (id : Nat)
  | test
  | run
  deriving DecidableEq, Repr

/-- What durations are told of in a log, in order. -/
def endedIn (log : List Run.Event) : List What :=
  log.filterMap fun e => match e with
    | .sectionEnded id .. => some (.section id)
    | .caseEnded .. => some .test
    | .runEnded .. => some .run
    | _ => none

/-- The sections whose end is told, with the two times, in order. -/
def tolds (marks : List Mark) : List (Nat × Nat × Nat) :=
  marks.filterMap fun m => match m with
    | .told id start stop => some (id, start, stop)
    | .entered .. => none

/-- When a section was entered last. -/
def lastEntry (id : Nat) (marks : List Mark) : Option Nat :=
  (marks.filterMap fun m => match m with
    | .entered id' time => if id' = id then some time else none
    | .told .. => none).getLast?

/-- The sections of a body, in the order of the text, also those in operands and destructors. -/
def sectionIds : Prog → List Nat
  | .done => []
  | .stmt _ k => sectionIds k
  | .sec id _ b k => id :: sectionIds b ++ sectionIds k
  | .capture _ k => sectionIds k
  | .block b k => sectionIds b ++ sectionIds k
  | .tryCatch _ b h k => sectionIds b ++ sectionIds h ++ sectionIds k
  | .nested _ o _ k => sectionIds o ++ sectionIds k
  | .guard c k => sectionIds c ++ sectionIds k

/-- No section is inside a section of the same name and place (this takes recursion), and none is in a destructor. -/
def NoneInItself : Prog → Prop
  | .done => True
  | .stmt _ k => NoneInItself k
  | .sec id _ b k => id ∉ sectionIds b ∧ NoneInItself b ∧ NoneInItself k
  | .capture _ k => NoneInItself k
  | .block b k => NoneInItself b ∧ NoneInItself k
  | .tryCatch _ b h k => NoneInItself b ∧ NoneInItself h ∧ NoneInItself k
  | .nested _ o _ k => NoneInItself o ∧ NoneInItself k
  | .guard c k => sectionIds c = [] ∧ NoneInItself k

/-- Every time told is the time since the section was last entered. -/
def SinceEntry (marks : List Mark) : Prop :=
  ∀ before id start stop after, marks = before ++ .told id start stop :: after → lastEntry id before = some start

end Verif.Timing.Spec
