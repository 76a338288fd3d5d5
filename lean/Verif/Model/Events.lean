import Verif.Model.Registry
import Verif.Model.Console
/-!
# Model of the events with everything in them

Source: include/snitch/snitch_test_data.hpp 16-290; src/snitch_registry.cpp 100-113, 446-584, 585-588, 675-699, 706-898,
1102-1111; src/snitch_main.cpp 7-20.

The models of running tests and of the registry (Verif/Model/TestCase.lean, Verif/Model/Registry.lean) have events with the
details that decide what happens, and numbers for sections and places. Here every field of every event is there, as given by
the code that creates the event.
-/
namespace Verif.Events
open Verif.Report
variable [Run.MessageLimit]

/-- A duration (a float, in seconds): the text it is printed as and the number of microseconds the TeamCity reporter makes
of it. -/
structure Duration where
  text : Text
  micros : Nat
deriving DecidableEq, Repr

/-- include/snitch/snitch_test_data.hpp 44-61 `section`, without its counters and start, which no reporter of snitch uses. -/
structure Section where
  id : SectionId
  loc : Location
deriving DecidableEq, Repr

/-- The fields `sections`, `captures`, `location` of events: include/snitch/snitch_test_data.hpp 220-248. -/
structure Place where
  sections : List Section
  captures : List Text
  loc : Location
  type : Run.LocType
deriving DecidableEq, Repr

/-- include/snitch/snitch_test_data.hpp 118-287 `event::data`. -/
inductive Event where
  | runStarted (name : Text) (filters : List Text)
  | runEnded (name : Text) (filters : List Text) (run fail allowedFail skip : Nat) (counts : Counts)
      (duration : Duration) (success : Bool)
  | caseStarted (id : Id) (loc : Location)
  | caseEnded (id : Id) (loc : Location) (counts : Counts) (state : State) (duration : Duration)
      (failureExpected failureAllowed : Bool)
  | sectionStarted (id : SectionId) (loc : Location)
  | sectionEnded (id : SectionId) (loc : Location) (skipped : Bool) (counts : Counts) (duration : Duration)
  | assertionFailed (id : Id) (place : Place) (data : Data) (expected allowed : Bool)
  | assertionSucceeded (id : Id) (place : Place) (data : Data)
  | caseSkipped (id : Id) (place : Place) (message : Text)
  | listStarted (name : Text) (filters : List Text)
  | listEnded (name : Text) (filters : List Text)
  | listed (id : Id) (loc : Location)
deriving DecidableEq, Repr

/-- What the models of running tests leave out of the source of the tests and of the clock: the fixtures of tests, the place
with a given number, the names and places of sections, what an assertion says, and the duration told by the n-th event. -/
structure Source where
  fixture : Run.TestCase → Text
  loc : Nat → Location
  sec : Nat → Section
  data : Run.Ctx → Text → Data
  duration : Nat → Duration

/-- include/snitch/snitch_test_data.hpp 23-33 `test_id` of a test case. -/
def testId (src : Source) (t : Run.TestCase) : Id := ⟨t.id.name, t.id.tags, t.id.type, src.fixture t⟩

/-- src/snitch_registry.cpp 460-480, 529-539: the place told by an assertion or a skip. -/
def place (src : Source) (ctx : Run.Ctx) : Place := ⟨ctx.path.map src.sec, ctx.caps, src.loc ctx.loc, ctx.locType⟩

/-- src/snitch_registry.cpp 122-130 `convert_to_public_state`: `not_run` ends the program. -/
def publicState : Run.CaseState → Outcome State
  | .notRun => .abort
  | .success => .ok .success
  | .skipped => .ok .skipped
  | .failed => .ok .failed
  | .allowedFail => .ok .allowedFail

/-- The event that is created where the model of running a test `t` has `e`, as the `n`-th of the run:
src/snitch_registry.cpp 482-496 (assertions), 533-539 (skips), 549 and 561-580 (sections), 585-587 and 678-699 (test cases).
The two flags at the end of `test_case_ended` are not given there, so have their default, `false`
(include/snitch/snitch_test_data.hpp 189-190). User code is not an event. The start and the end of the run are created by
`runSelected`. -/
def tell (src : Source) (t : Run.TestCase) (n : Nat) : Run.Event → Outcome (List Event)
  | .user _ => .ok []
  | .sectionStarted k => .ok [.sectionStarted (src.sec k).id (src.sec k).loc]
  | .sectionEnded k skipped a f al => .ok [.sectionEnded (src.sec k).id (src.sec k).loc skipped ⟨a, f, al⟩ (src.duration n)]
  | .assertionSucceeded ctx data => .ok [.assertionSucceeded (testId src t) (place src ctx) (src.data ctx data)]
  | .assertionFailed ctx data ex al => .ok [.assertionFailed (testId src t) (place src ctx) (src.data ctx data) ex al]
  | .caseSkipped ctx m => .ok [.caseSkipped (testId src t) (place src ctx) m]
  | .caseStarted _ => .ok [.caseStarted (testId src t) (src.loc t.loc)]
  | .caseEnded _ a f al st => do
    let st ← publicState st
    return [.caseEnded (testId src t) (src.loc t.loc) ⟨a, f, al⟩ st (src.duration n) false false]
  | .runStarted => .ok []
  | .runEnded .. => .ok []

/-- The events of one test, the first being the `n`-th. -/
def tellLog (src : Source) (t : Run.TestCase) : Nat → List Run.Event → Outcome (List Event)
  | _, [] => .ok []
  | n, e :: es => do
    let x ← tell src t n e
    let rest ← tellLog src t (n + x.length) es
    return x ++ rest

/-- What a run leaves behind. -/
structure Acc where
  cases : List Reg.Case := []
  totals : Reg.Totals := {}
  events : List Event := []

/-- src/snitch_registry.cpp 729-765: the loop over the test cases, as `Reg.runEach`. -/
def runEach (src : Source) (lim : Reg.Limits) (fuel : Nat) (pred : Filter.TestId → Outcome Bool) :
    List Reg.Case → Acc → Option (Outcome Acc)
  | [], acc => some (.ok acc)
  | c :: cs, acc =>
    match pred c.test.id with
    | .abort => some .abort
    | .ub => some .ub
    | .ok false => runEach src lim fuel pred cs { acc with cases := acc.cases ++ [c] }
    | .ok true =>
      match Run.run lim.cfg fuel c.test with
      | none => none
      | some .abort => some .abort
      | some .ub => some .ub
      | some (.ok s) =>
        match tellLog src c.test acc.events.length s.log with
        | .abort => some .abort
        | .ub => some .ub
        | .ok events =>
          runEach src lim fuel pred cs
            { cases := acc.cases ++ [{ c with state := s.state }]
              totals := acc.totals.add s
              events := acc.events ++ events }

/-- An event guarded by `verbose >= lvl`. -/
def shown (lim : Reg.Limits) (lvl : Nat) (e : Event) : List Event := if lim.cfg.verbosity ≥ lvl then [e] else []

/-- src/snitch_registry.cpp 706-803 `run_selected_tests`. -/
def runSelected (src : Source) (lim : Reg.Limits) (fuel : Nat) (runName : Text) (filters : List Text)
    (pred : Filter.TestId → Outcome Bool) (cases : List Reg.Case) :
    Option (Outcome (List Reg.Case × List Event × Bool)) :=
  match runEach src lim fuel pred cases { events := shown lim 1 (.runStarted runName filters) } with
  | none => none
  | some .abort => some .abort
  | some .ub => some .ub
  | some (.ok acc) =>
    let t := acc.totals
    some (.ok (acc.cases, acc.events ++ shown lim 1 (.runEnded runName filters t.run t.fail t.allowedFail t.skip
      ⟨t.asserts, t.failures, t.allowed⟩ (src.duration acc.events.length) t.success), t.success))

/-- What the program shows: events passed to the reporter, or text printed on the console. -/
inductive Out
  | event (e : Event)
  | line (s : Text)
  | help
deriving DecidableEq, Repr

/-- src/snitch_registry.cpp 104-110: the loop of `list_tests`. -/
def listLoop (src : Source) (pred : Filter.TestId → Outcome Bool) : List Reg.Case → Outcome (List Event)
  | [] => .ok []
  | c :: cs => do
    let b ← pred c.test.id
    let rest ← listLoop src pred cs
    return if b then .listed (testId src c.test) (src.loc c.test.loc) :: rest else rest

/-- src/snitch_registry.cpp 100-113 `list_tests`: the events of the start and the end are created without name and
filters. -/
def listTests (src : Source) (pred : Filter.TestId → Outcome Bool) (cases : List Reg.Case) : Outcome (List Out) := do
  let l ← listLoop src pred cases
  return ([Event.listStarted [] []] ++ l ++ [Event.listEnded [] []]).map .event

/-- src/snitch_registry.cpp 1102-1104 `list_all_tests`. -/
def listAllTests (src : Source) (cases : List Reg.Case) : Outcome (List Out) := listTests src (fun _ => .ok true) cases

/-- src/snitch_registry.cpp 1106-1111 `list_tests_with_tag`. -/
def listTestsWithTag (src : Source) (lim : Reg.Limits) (tag : Text) (cases : List Reg.Case) : Outcome (List Out) :=
  listTests src (fun id => do return (← Filter.matchTags lim.cfg.maxTag id.tags tag).included) cases

/-- Listing leaves the registry unchanged and returns `true`. -/
def afterListing (cases : List Reg.Case) (o : Outcome (List Out)) : Option (Outcome (List Reg.Case × List Out × Bool)) :=
  some (o >>= fun l => .ok (cases, l, true))

/-- Events of a run, as output. -/
def afterRun (o : Option (Outcome (List Reg.Case × List Event × Bool))) :
    Option (Outcome (List Reg.Case × List Out × Bool)) :=
  o.map fun x => x >>= fun (cs, l, b) => .ok (cs, l.map .event, b)

/-- src/snitch_registry.cpp 805-811 `run_tests`, 834-897: running or listing, given the name and the filters. -/
def runOrList (src : Source) (lim : Reg.Limits) (fuel : Nat) (name : Text) (list : Bool) (filters : List Text)
    (cases : List Reg.Case) : Option (Outcome (List Reg.Case × List Out × Bool)) :=
  if filters.isEmpty then
    if list then afterListing cases (listAllTests src cases)
    else afterRun (runSelected src lim fuel name [] (Filter.selectDefault lim.cfg.maxTag) cases)
  else
    let pred := Filter.selectWithFilters lim.cfg.maxTag lim.maxName filters
    if list then afterListing cases (listTests src pred cases)
    else afterRun (runSelected src lim fuel name filters pred cases)

/-- src/snitch_registry.cpp 814-898 `run_tests_impl`. The lines printed by the two listings in the middle are those of
`Reg.runTests`. -/
def runTests (src : Source) (lim : Reg.Limits) (fuel : Nat) (reporters : List Text) (args : Cli.Input)
    (cases : List Reg.Case) : Option (Outcome (List Reg.Case × List Out × Bool)) :=
  if (Cli.getOption args "--help".toList).isSome then some (.ok (cases, [.help], true))
  else match Cli.getOption args "--list-tests-with-tag".toList with
    | some o =>
      match o.value with
      | none => some .ub
      | some tag => afterListing cases (listTestsWithTag src lim tag cases)
    | none =>
      if (Cli.getOption args "--list-tags".toList).isSome then
        afterListing cases (do
          let l ← Reg.collectTags lim cases []
          return (l.mergeSort Reg.textLe).map fun t => .line (['['] ++ t ++ [']']))
      else if (Cli.getOption args "--list-reporters".toList).isSome then
        some (.ok (cases, reporters.map .line, true))
      else
        match Reg.filtersOf args with
        | .abort => some .abort
        | .ub => some .ub
        | .ok filters =>
          runOrList src lim fuel args.executable (Cli.getOption args "--list-tests".toList).isSome filters cases

/-- src/snitch_main.cpp 7-20 `main`, as `Reg.main`. -/
def main (src : Source) (lim : Reg.Limits) (fuel maxArgs : Nat) (reporters : List Text) (init : Nat → Nat → Nat)
    (config : Cli.Config) (argv0 : Text) (argv : List Text) (cases : List Reg.Case) :
    Option (Outcome (Nat × List Out)) :=
  match Cli.parseArguments maxArgs config.withColor argv0 argv with
  | .abort => some .abort
  | .ub => some .ub
  | .ok (_, _, none) => some (.ok (1, [.help]))
  | .ok (_, _, some args) =>
    match Cli.configure reporters args config with
    | .abort => some .abort
    | .ub => some .ub
    | .ok config =>
      (runTests src { lim with cfg := { lim.cfg with verbosity := Reg.verbosityFor init config } } fuel reporters args
        cases).map fun o => o >>= fun (_, out, success) => .ok (if success then 0 else 1, out)

/-- What the XML and TeamCity reporters use of an event. -/
def Event.report : Event → Report.Event
  | .runStarted name filters => .runStarted name filters
  | .runEnded name filters run fail allowedFail skip counts _ _ => .runEnded name filters run fail allowedFail skip counts
  | .caseStarted id loc => .caseStarted id loc
  | .caseEnded id loc _ state d _ _ => .caseEnded id loc state d.text d.micros
  | .sectionStarted id loc => .sectionStarted id loc
  | .sectionEnded id loc skipped counts d => .sectionEnded id loc skipped counts d.text
  | .assertionFailed id p data ex al => .assertionFailed id p.captures p.loc data ex al
  | .assertionSucceeded id p data => .assertionSucceeded id p.captures p.loc data
  | .caseSkipped id p m => .caseSkipped id p.captures p.loc m
  | .listStarted name filters => .listStarted name filters
  | .listEnded name filters => .listEnded name filters
  | .listed id loc => .listed id loc

/-- What the console reporter uses of a place. -/
def Place.console (p : Place) : Console.Place := ⟨p.sections.map (·.id), p.captures, p.loc, p.type⟩

/-- What the console reporter uses of an event. -/
def Event.console : Event → Console.Event
  | .runStarted name _ => .runStarted name
  | .runEnded _ _ run fail _ skip counts d success => .runEnded success run fail skip counts.all d.text
  | .caseStarted id loc => .caseStarted id loc
  | .caseEnded id _ _ _ d _ _ => .caseEnded id d.text
  | .sectionStarted id loc => .sectionStarted id loc
  | .sectionEnded id _ _ _ _ => .sectionEnded id
  | .assertionFailed id p data ex al => .assertionFailed id p.console data ex al
  | .assertionSucceeded id p data => .assertionSucceeded id p.console data
  | .caseSkipped id p m => .caseSkipped id p.console m
  | .listStarted _ _ => .listStarted
  | .listEnded _ _ => .listEnded
  | .listed id _ => .listed id

end Verif.Events
