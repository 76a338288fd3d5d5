import Verif.Spec.Timing
import Verif.Spec.Events
/-! # The spans of time whose lengths a run tells -/
namespace Verif.Timing.Spec
open Verif.Events

/-- What a duration is told of, with the names in the event. -/
inductive Named where
  | section (s : Events.Section)
  | test (id : Report.Id)
  | run
  deriving DecidableEq, Repr

/-- The duration told by an event, and what it is told of. -/
def durationOf : Events.Event → Option (Named × Duration)
  | .sectionEnded id loc _ _ d => some (.section ⟨id, loc⟩, d)
  | .caseEnded id _ _ _ d _ _ => some (.test id, d)
  | .runEnded _ _ _ _ _ _ _ d _ => some (.run, d)
  | _ => none

/-- The spans of a test, from the verbosity high: those of the sections whose end is told, then that of the test. -/
def spansOfTest (src : Source) (verbosity : Nat) (r : Ran) : List (Named × Nat × Nat) :=
  (tolds r.marks).map (fun x => (Named.section (src.sec x.1), x.2)) ++
    if 2 ≤ verbosity then [(.test (Events.Spec.declared src r.test), r.start, r.stop)] else []

/-- The spans of a run: those of its tests, then, from the verbosity normal, that of the run. -/
def spans (src : Source) (verbosity : Nat) (r : RunTimes) : List (Named × Nat × Nat) :=
  r.tests.flatMap (spansOfTest src verbosity) ++ if 1 ≤ verbosity then [(.run, r.start, r.stop)] else []

end Verif.Timing.Spec
