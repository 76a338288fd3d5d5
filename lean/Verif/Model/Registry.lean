import Verif.Model.TestCase
import Verif.Model.Cli
/-!
# Model of the registry: registering, selecting, listing and running tests, and `main`

Source: src/snitch_registry.cpp 100-113, 351-388, 706-912, 1073-1117, src/snitch_main.cpp 7-20,
include/snitch/snitch_registry.hpp 228-241.

Simplifications: timings are left out; `finish_callback` and closing the output file
(src/snitch_registry.cpp 905-909) happen after everything that is modelled here; the name of the run and
the filter strings carried by the run events are left out.
-/
namespace Verif.Reg
open Util

variable [Verif.Run.MessageLimit]

/-- Compile-time limits of the registry (`SNITCH_MAX_TEST_CASES`, `SNITCH_MAX_TEST_NAME_LENGTH`,
`SNITCH_MAX_UNIQUE_TAGS`) with those of `Run.Cfg`. -/
structure Limits where
  maxTests : Nat
  maxName : Nat
  maxUniqueTags : Nat
  cfg : Run.Cfg

/-- include/snitch/snitch_test_data.hpp 301-306 `test_case`: what was registered, and the state. -/
structure Case where
  test : Run.TestCase
  state : Run.CaseState := .notRun

/-- src/snitch_registry.cpp 351-377 `registry::add_impl` on the list of registered tests. The two
`assertion_failed` calls are `abort`. -/
def addImpl (lim : Limits) (t : Run.TestCase) (cases : List Case) : Outcome (List Case) :=
  if cases.length = lim.maxTests then .abort
  else
    let cases := cases ++ [{ test := t }]
    if (Filter.makeFullName lim.maxName t.id).isEmpty then .abort else .ok cases

/-- Registrations one after the other (static initialisation, or the fold in `add_with_types`). -/
def addAll (lim : Limits) : List Run.TestCase → List Case → Outcome (List Case)
  | [], cases => .ok cases
  | t :: ts, cases => do
    let cases ← addImpl lim t cases
    addAll lim ts cases

/-- include/snitch/snitch_registry.hpp 233-241 `add_with_types`: one test per type; `types` gives the
name of each type and the instantiated body. -/
def addWithTypes (lim : Limits) (name tags : Text) (loc : Nat) (types : List (Text × Run.Prog))
    (cases : List Case) : Outcome (List Case) :=
  addAll lim (types.map fun p => { id := ⟨name, tags, p.1⟩, loc := loc, body := p.2 }) cases

/-- The counters of `run_selected_tests` (src/snitch_registry.cpp 716-723). -/
structure Totals where
  success : Bool := true
  run : Nat := 0
  fail : Nat := 0
  allowedFail : Nat := 0
  skip : Nat := 0
  asserts : Nat := 0
  failures : Nat := 0
  allowed : Nat := 0
  deriving DecidableEq, Repr

/-- src/snitch_registry.cpp 743-764: the switch on the state of the test. -/
def Totals.addState (t : Totals) : Run.CaseState → Totals
  | .success => t
  | .allowedFail => { t with allowedFail := t.allowedFail + 1 }
  | .failed => { t with fail := t.fail + 1, success := false }
  | .skipped => { t with skip := t.skip + 1 }
  | .notRun => t

/-- src/snitch_registry.cpp 736-764: adding the outcome of one test. -/
def Totals.add (t : Totals) (s : Run.TS) : Totals :=
  { t with
    run := t.run + 1
    asserts := t.asserts + s.asserts
    failures := t.failures + s.failures
    allowed := t.allowed + s.allowed }.addState s.state

/-- What a run leaves behind: the test cases with their new states, the totals, the events. -/
structure Acc where
  cases : List Case := []
  totals : Totals := {}
  log : List Run.Event := []

/-- src/snitch_registry.cpp 729-765: the loop over the test cases. `fuel` bounds the number of times
each test body is executed (`none`: still running). -/
def runEach (lim : Limits) (fuel : Nat) (pred : Filter.TestId → Outcome Bool) :
    List Case → Acc → Option (Outcome Acc)
  | [], acc => some (.ok acc)
  | c :: cs, acc =>
    match pred c.test.id with
    | .abort => some .abort
    | .ub => some .ub
    | .ok false => runEach lim fuel pred cs { acc with cases := acc.cases ++ [c] }
    | .ok true =>
      match Run.run lim.cfg fuel c.test with
      | none => none
      | some .abort => some .abort
      | some .ub => some .ub
      | some (.ok s) =>
        runEach lim fuel pred cs
          { cases := acc.cases ++ [{ c with state := s.state }]
            totals := acc.totals.add s
            log := acc.log ++ s.log }

/-- A registry event guarded by `verbose >= lvl`. -/
def shown (lim : Limits) (lvl : Nat) (e : Run.Event) : List Run.Event :=
  if lim.cfg.verbosity ≥ lvl then [e] else []

/-- src/snitch_registry.cpp 767-802: the end event of the run. -/
def Totals.event (t : Totals) : Run.Event :=
  .runEnded t.run t.fail t.allowedFail t.skip t.asserts t.failures t.allowed t.success

/-- src/snitch_registry.cpp 706-803 `run_selected_tests`: the registry afterwards, the events, the
value returned. -/
def runSelected (lim : Limits) (fuel : Nat) (pred : Filter.TestId → Outcome Bool) (cases : List Case) :
    Option (Outcome (List Case × List Run.Event × Bool)) :=
  match runEach lim fuel pred cases { log := shown lim 1 .runStarted } with
  | none => none
  | some .abort => some .abort
  | some .ub => some .ub
  | some (.ok acc) => some (.ok (acc.cases, acc.log ++ shown lim 1 acc.totals.event, acc.totals.success))

/-- What the program shows: events passed to the reporter, or text printed on the console. -/
inductive Out
  | event (e : Run.Event)
  | listStarted
  | listed (id : Filter.TestId)
  | listEnded
  | line (s : Text)
  | help
  deriving DecidableEq, Repr

/-- src/snitch_registry.cpp 104-110: the loop of `list_tests`. -/
def listLoop (pred : Filter.TestId → Outcome Bool) : List Case → Outcome (List Out)
  | [] => .ok []
  | c :: cs => do
    let b ← pred c.test.id
    let rest ← listLoop pred cs
    return if b then .listed c.test.id :: rest else rest

/-- src/snitch_registry.cpp 100-113 `list_tests`. -/
def listTests (pred : Filter.TestId → Outcome Bool) (cases : List Case) : Outcome (List Out) := do
  let l ← listLoop pred cases
  return [.listStarted] ++ l ++ [.listEnded]

/-- src/snitch_registry.cpp 1102-1104 `list_all_tests`. -/
def listAllTests (cases : List Case) : Outcome (List Out) := listTests (fun _ => .ok true) cases

/-- src/snitch_registry.cpp 1106-1111 `list_tests_with_tag`. -/
def listTestsWithTag (lim : Limits) (tag : Text) (cases : List Case) : Outcome (List Out) :=
  listTests (fun id => do return (← Filter.matchTags lim.cfg.maxTag id.tags tag).included) cases

/-- src/snitch_registry.cpp 56-85, as seen by a callback that keeps the views it is given: the text of
each ordinary tag, and whether it lives in the local buffer of `for_each_tag`. -/
def tagViews (maxTag : Nat) (t : Text) : Outcome (List (Text × Bool)) :=
  if t = "[.]".toList then .ok [(t, false)]
  else if ['[', '.'].isPrefixOf t then
    let buffer := '[' :: t.drop 2
    if buffer.length ≤ maxTag then .ok [("[.]".toList, false), (buffer, true)] else .abort
  else .ok [(t, false)]

/-- src/snitch_registry.cpp 1078-1089: the callback of `list_all_tags`. A view of the local buffer of
`for_each_tag` that gets stored is read after the buffer is gone (at the latest when printing):
undefined. -/
def storeTag (maxUnique : Nat) (tags : List Text) (v : Text × Bool) : Outcome (List Text) :=
  if tags.contains v.1 then .ok tags
  else if tags.length = maxUnique then .abort
  else if v.2 then .ub
  else .ok (tags ++ [v.1])

/-- The callback for the views of one raw tag. -/
def storeTags (maxUnique : Nat) : List (Text × Bool) → List Text → Outcome (List Text)
  | [], tags => .ok tags
  | v :: vs, tags => do
    let tags ← storeTag maxUnique tags v
    storeTags maxUnique vs tags

/-- `for_each_tag` with the callback of `list_all_tags`, over the raw tags of one test. -/
def storeRaw (lim : Limits) : List Text → List Text → Outcome (List Text)
  | [], tags => .ok tags
  | t :: ts, tags => do
    let vs ← tagViews lim.cfg.maxTag t
    let tags ← storeTags lim.maxUniqueTags vs tags
    storeRaw lim ts tags

/-- src/snitch_registry.cpp 1075-1092: collecting the tags of all tests. -/
def collectTags (lim : Limits) : List Case → List Text → Outcome (List Text)
  | [], tags => .ok tags
  | c :: cs, tags => do
    let raw ← Filter.rawTags c.test.id.tags
    let tags ← storeRaw lim raw tags
    collectTags lim cs tags

/-- `operator<=` of `std::string_view`: lexicographic. -/
def textLe (a b : Text) : Bool := decide (a ≤ b)

/-- src/snitch_registry.cpp 1073-1100 `list_all_tags`. `std::sort` is modelled by merge sort: the
sorted arrangement of distinct texts is unique (`C49_unique`). -/
def listAllTags (lim : Limits) (cases : List Case) : Outcome (List Out) := do
  let tags ← collectTags lim cases []
  return (tags.mergeSort textLe).map fun t => .line (['['] ++ t ++ [']'])

/-- src/snitch_registry.cpp 1113-1117 `list_all_reporters`. -/
def listReporters (reporters : List Text) : List Out := reporters.map .line

/-- Listing leaves the registry unchanged and returns `true`. -/
def afterListing (cases : List Case) (o : Outcome (List Out)) :
    Option (Outcome (List Case × List Out × Bool)) :=
  some (o >>= fun l => .ok (cases, l, true))

/-- Events of a run, as output. -/
def afterRun (o : Option (Outcome (List Case × List Run.Event × Bool))) :
    Option (Outcome (List Case × List Out × Bool)) :=
  o.map fun x => x >>= fun (cs, l, b) => .ok (cs, l.map .event, b)

/-- src/snitch_registry.cpp 834-897: running or listing, given the filters. -/
def runOrList (lim : Limits) (fuel : Nat) (list : Bool) (filters : List Text) (cases : List Case) :
    Option (Outcome (List Case × List Out × Bool)) :=
  if filters.isEmpty then
    if list then afterListing cases (listAllTests cases)
    else afterRun (runSelected lim fuel (Filter.selectDefault lim.cfg.maxTag) cases)
  else
    let pred := Filter.selectWithFilters lim.cfg.maxTag lim.maxName filters
    if list then afterListing cases (listTests pred cases)
    else afterRun (runSelected lim fuel pred cases)

/-- src/snitch_registry.cpp 834-842: the positional arguments, gathered (their number is at most
`max_command_line_args`, the capacity of the vector, since they come from a vector of that capacity). -/
def filtersOf (args : Cli.Input) : Outcome (List Text) :=
  if (Cli.getPositional args "test regex".toList).isSome then
    Cli.positionals "test regex".toList args.arguments
  else .ok []

/-- src/snitch_registry.cpp 814-898 `run_tests_impl`. -/
def runTests (lim : Limits) (fuel : Nat) (reporters : List Text) (args : Cli.Input)
    (cases : List Case) : Option (Outcome (List Case × List Out × Bool)) :=
  if (Cli.getOption args "--help".toList).isSome then some (.ok (cases, [.help], true))
  else match Cli.getOption args "--list-tests-with-tag".toList with
    | some o =>
      match o.value with
      | none => some .ub
      | some tag => afterListing cases (listTestsWithTag lim tag cases)
    | none =>
      if (Cli.getOption args "--list-tags".toList).isSome then
        afterListing cases (listAllTags lim cases)
      else if (Cli.getOption args "--list-reporters".toList).isSome then
        some (.ok (cases, listReporters reporters, true))
      else
        match filtersOf args with
        | .abort => some .abort
        | .ub => some .ub
        | .ok filters =>
          runOrList lim fuel (Cli.getOption args "--list-tests".toList).isSome filters cases

/-- The verbosity used for a run: the configured one, changed by `initialize` of the reporter that was chosen
(src/snitch_registry.cpp 953-954; src/snitch_reporter_teamcity.cpp 120-124, src/snitch_reporter_catch2_xml.cpp
164-168 raise it to *high*); `init i` is what the i-th registered reporter does. -/
def verbosityFor (init : Nat → Nat → Nat) (config : Cli.Config) : Nat :=
  match config.reporter with
  | none => config.verbosity
  | some (i, _) => init i config.verbosity

/-- src/snitch_main.cpp 7-20 `main` (with snitch enabled): exit status and output. Messages of the
command-line parser and of the configuration are not part of the output here (C31-C33). -/
def main (lim : Limits) (fuel maxArgs : Nat) (reporters : List Text) (init : Nat → Nat → Nat)
    (config : Cli.Config) (argv0 : Text) (argv : List Text) (cases : List Case) :
    Option (Outcome (Nat × List Out)) :=
  match Cli.parseArguments maxArgs config.withColor argv0 argv with
  | .abort => some .abort
  | .ub => some .ub
  | .ok (_, _, none) => some (.ok (1, [.help]))
  | .ok (_, _, some args) =>
    match Cli.configure reporters args config with
    | .abort => some .abort
    | .ub => some .ub
    | .ok config =>
      (runTests { lim with cfg := { lim.cfg with verbosity := verbosityFor init config } } fuel reporters
        args cases).map fun o => o >>= fun (_, out, success) => .ok (if success then 0 else 1, out)

end Verif.Reg
