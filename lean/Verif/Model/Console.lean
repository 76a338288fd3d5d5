import Verif.Model.Reporter
import Verif.Model.TestCase
/-!
# Model of the console reporter

Source: src/snitch_reporter_console.cpp 11-215, include/snitch/snitch_reporter_console.hpp 9-19,
include/snitch/snitch_console.hpp 14-23.

`configure` (91-102) is part of the configuration (C32, C33).
-/
namespace Verif.Report.Console
open Verif.Print

/-- include/snitch/snitch_console.hpp 17 `color::status`. -/
def statusColor : Text := "\x1b[1;36m".toList
/-- include/snitch/snitch_console.hpp 18 `color::fail`. -/
def failColor : Text := "\x1b[1;31m".toList
/-- include/snitch/snitch_console.hpp 19 `color::skipped`. -/
def skippedColor : Text := "\x1b[1;33m".toList
/-- include/snitch/snitch_console.hpp 20 `color::pass`. -/
def passColor : Text := "\x1b[1;32m".toList
/-- include/snitch/snitch_console.hpp 21 `color::highlight1`. -/
def highlight1 : Text := "\x1b[1;35m".toList
/-- include/snitch/snitch_console.hpp 22 `color::highlight2`. -/
def highlight2 : Text := "\x1b[1;36m".toList

/-- What events about assertions and skips tell about their place: include/snitch/snitch_test_data.hpp 64-90. -/
structure Place where
  sections : List SectionId
  captures : List Text
  loc : Location
  type : Run.LocType
deriving DecidableEq, Repr

/-- include/snitch/snitch_test_data.hpp 118-290 `event::data`: what the console reporter uses of it. The durations
(floats) are given by the texts they are printed as. -/
inductive Event where
  | runStarted (name : Text)
  | runEnded (success : Bool) (run fail skip asserts : Nat) (duration : Text)
  | caseStarted (id : Id) (loc : Location)
  | caseEnded (id : Id) (duration : Text)
  | sectionStarted (id : SectionId) (loc : Location)
  | sectionEnded (id : SectionId)
  | caseSkipped (id : Id) (place : Place) (message : Text)
  | assertionFailed (id : Id) (place : Place) (data : Data) (expected allowed : Bool)
  | assertionSucceeded (id : Id) (place : Place) (data : Data)
  | listStarted
  | listEnded
  | listed (id : Id)
deriving DecidableEq, Repr

/-- include/snitch/snitch_reporter_console.hpp 11 `counter`, and everything printed so far. -/
structure State where
  counter : Nat := 0
  out : Text := []
deriving DecidableEq, Repr

/-- `r.print(args...)` (Verif/Model/Print.lean). -/
def say (lim : Limits) (args : List Arg) (st : State) : Outcome State := do
  let chunks ← Print.print lim.message args
  return { st with out := st.out ++ chunks.flatten }

/-- `r.print(str)`, a single string argument. -/
def say1 (s : Text) (st : State) : State := { st with out := st.out ++ (printStr s).flatten }

/-- A string argument. -/
def str (s : String) : Arg := .str s.toList

/-- `make_colored(value, r.with_color, color)`. -/
def paint (color : Bool) (code value : Text) : Arg := .colored (makeColored value color code)

/-- src/snitch_reporter_console.cpp 16-24 `locatation_label`. -/
def label : Run.LocType → Text
  | .exact => "at".toList
  | .sectionScope => "somewhere inside section at".toList
  | .testCaseScope => "somewhere inside test case at".toList
  | .inCheck => "somewhere inside check at".toList

/-- src/snitch_reporter_console.cpp 35-39: the sections. -/
def printSections (lim : Limits) (color : Bool) : List SectionId → State → Outcome State
  | [], st => .ok st
  | s :: ss, st => do
    let st ← say lim [str "          in section \"", paint color highlight1 s.name, str "\"\n"] st
    printSections lim color ss st

/-- src/snitch_reporter_console.cpp 50-52: the captures. -/
def printCaptures (lim : Limits) (color : Bool) : List Text → State → Outcome State
  | [], st => .ok st
  | c :: cs, st => do
    let st ← say lim [str "          with ", paint color highlight1 c, str "\n"] st
    printCaptures lim color cs st

/-- src/snitch_reporter_console.cpp 45-48: the type. -/
def printType (lim : Limits) (color : Bool) (id : Id) (st : State) : Outcome State :=
  if id.type.isEmpty then .ok st
  else say lim [str "          for type ", paint color highlight1 id.type, str "\n"] st

/-- src/snitch_reporter_console.cpp 26-53 `print_location`. -/
def printLocation (lim : Limits) (color : Bool) (id : Id) (place : Place) (st : State) : Outcome State := do
  let st ← say lim [str "running test case \"", paint color highlight1 id.name, str "\"\n"] st
  let st ← printSections lim color place.sections st
  let st ← say lim [str "          ", .str (label place.type), str " ", .str place.loc.file, str ":",
    .value (← makeNumber 32 place.loc.line), str "\n"] st
  let st ← printType lim color id st
  printCaptures lim color place.captures st

/-- src/snitch_reporter_console.cpp 70-71: whether the values are put on a line of their own. The sums are of
lengths of strings that exist, so they do not wrap. -/
def long (type expected actual : Text) : Bool :=
  expected.length + type.length + 3 > 64 || actual.length + 5 > 64

/-- src/snitch_reporter_console.cpp 68-83: the values of an expression. -/
def printActual (lim : Limits) (color : Bool) (type expected actual : Text) (st : State) : Outcome State :=
  if actual.isEmpty then .ok (say1 "\n".toList st)
  else if long type expected actual then
    say lim [str "\n", str "          ", str "got: ", paint color highlight2 actual, str "\n"] st
  else say lim [str ", got: ", paint color highlight2 actual, str "\n"] st

/-- src/snitch_reporter_console.cpp 55-86 `print_message`. -/
def printMessage (lim : Limits) (color : Bool) (data : Data) (st : State) : Outcome State :=
  match data with
  | .message m => say lim [str "          ", paint color highlight2 m, str "\n"] st
  | .expression type expected actual => do
    let (ss, _) ← Util.appendOrTruncate false (SV.empty lim.message ' ') [type, "(".toList, expected, ")".toList]
    let st ← say lim [str "          ", paint color highlight2 ss.contents] st
    printActual lim color type expected actual st

/-- src/snitch_reporter_console.cpp 183-189: how a failure is introduced. -/
def failureLabel (expected allowed : Bool) : Text :=
  if expected then "expected failure: ".toList
  else if allowed then "allowed failure: ".toList
  else "failed: ".toList

/-- src/snitch_reporter_console.cpp 183-189: the colour of this. -/
def failureColor (expected allowed : Bool) : Text :=
  if expected then passColor else if allowed then passColor else failColor

/-- A number printed by `r.print`. -/
def num (n : Nat) : Outcome Arg := do return .value (← makeNumber 32 n)

/-- src/snitch_reporter_console.cpp 120-122: success. -/
def printSuccess (lim : Limits) (color : Bool) (run asserts : Nat) (st : State) : Outcome State := do
  say lim [paint color passColor "success:".toList, str " all tests passed (", ← num run, str " test cases, ",
    ← num asserts, str " assertions"] st

/-- src/snitch_reporter_console.cpp 124-128: failure. -/
def printError (lim : Limits) (color : Bool) (run fail asserts : Nat) (st : State) : Outcome State := do
  say lim [paint color failColor "error:".toList, str " ", str (if fail = run then "all" else "some"),
    str " tests failed (", ← num fail, str " out of ", ← num run, str " test cases, ", ← num asserts,
    str " assertions"] st

/-- src/snitch_reporter_console.cpp 131-133: skipped tests. -/
def printSkips (lim : Limits) (skip : Nat) (st : State) : Outcome State :=
  if skip > 0 then do say lim [str ", ", ← num skip, str " test cases skipped"] st else .ok st

/-- src/snitch_reporter_console.cpp 135-137: the duration. -/
def printSeconds (lim : Limits) (duration : Text) (st : State) : Outcome State :=
  if lim.timings then say lim [str ", ", .value duration, str " seconds"] st else .ok st

/-- src/snitch_reporter_console.cpp 119-129: success or failure. -/
def printVerdict (lim : Limits) (color success : Bool) (run fail asserts : Nat) (st : State) : Outcome State :=
  if success then printSuccess lim color run asserts st else printError lim color run fail asserts st

/-- src/snitch_reporter_console.cpp 117-139: the end of the run. -/
def printTotals (lim : Limits) (color success : Bool) (run fail skip asserts : Nat) (duration : Text) (st : State) :
    Outcome State := do
  let st := say1 "==========================================\n".toList st
  let st ← printVerdict lim color success run fail asserts st
  let st ← printSkips lim skip st
  let st ← printSeconds lim duration st
  return say1 ")\n".toList st

/-- src/snitch_reporter_console.cpp 150-164: the end of a test case. -/
def printFinished (lim : Limits) (color : Bool) (id : Id) (duration : Text) (st : State) : Outcome State := do
  let name ← fullName lim id
  if lim.timings then
    say lim [paint color statusColor "finished:".toList, str " ", paint color highlight1 name.contents, str " (",
      .value duration, str "s)\n"] st
  else
    say lim [paint color statusColor "finished:".toList, str " ", paint color highlight1 name.contents, str "\n"] st

/-- src/snitch_reporter_console.cpp 205-213: a listed test. `++counter` wraps. -/
def printListed (lim : Limits) (id : Id) (st : State) : Outcome State := do
  let name ← fullName lim id
  let st := { st with counter := (st.counter + 1) % sizeT }
  let st ← say lim [str "  ", .str name.contents, str "\n"] st
  if id.tags.isEmpty then return st
  else say lim [str "      ", .str id.tags, str "\n"] st

/-- src/snitch_reporter_console.cpp 104-215 `report`. -/
def report (lim : Limits) (color : Bool) (st : State) : Event → Outcome State
  | .runStarted name => do
    let st ← say lim [paint color highlight2 "starting ".toList, paint color highlight1 name,
      paint color highlight2 " with ".toList,
      paint color highlight1 ("snitch v".toList ++ lim.version ++ "\n".toList)] st
    return say1 "==========================================\n".toList st
  | .runEnded success run fail skip asserts duration =>
    printTotals lim color success run fail skip asserts duration st
  | .caseStarted id loc => do
    let name ← fullName lim id
    say lim [paint color statusColor "starting:".toList, str " ", paint color highlight1 name.contents, str " at ",
      .str loc.file, str ":", ← num loc.line, str "\n"] st
  | .caseEnded id duration => printFinished lim color id duration st
  | .sectionStarted id loc => do
    say lim [paint color statusColor "entering section:".toList, str " ", paint color highlight1 id.name, str " at ",
      .str loc.file, str ":", ← num loc.line, str "\n"] st
  | .sectionEnded id =>
    say lim [paint color statusColor "leaving section:".toList, str " ", paint color highlight1 id.name, str "\n"] st
  | .caseSkipped id place message => do
    let st ← say lim [paint color skippedColor "skipped: ".toList] st
    let st ← printLocation lim color id place st
    say lim [str "          ", paint color highlight2 message, str "\n"] st
  | .assertionFailed id place data expected allowed => do
    let st ← say lim [paint color (failureColor expected allowed) (failureLabel expected allowed)] st
    let st ← printLocation lim color id place st
    printMessage lim color data st
  | .assertionSucceeded id place data => do
    let st ← say lim [paint color passColor "passed: ".toList] st
    let st ← printLocation lim color id place st
    printMessage lim color data st
  | .listStarted => .ok { say1 "Matching test cases:\n".toList st with counter := 0 }
  | .listEnded => do say lim [← num st.counter, str " matching test cases\n"] st
  | .listed id => printListed lim id st

/-- The events of a run, one after the other. -/
def reportAll (lim : Limits) (color : Bool) : List Event → State → Outcome State
  | [], st => .ok st
  | e :: es, st => do
    let st ← report lim color st e
    reportAll lim color es st

end Verif.Report.Console
