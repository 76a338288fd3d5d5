import Verif.Model.Registry
/-!
# Model of the build without exceptions (`SNITCH_WITH_EXCEPTIONS` is 0)

Source: what the preprocessor leaves of include/snitch/snitch_macros_check_base.hpp 10-15,
include/snitch/snitch_macros_check.hpp 15-100, include/snitch/snitch_test_data.hpp 332-354, 378-387,
src/snitch_section.cpp 13-143, src/snitch_test_data.cpp 39-65, src/snitch_capture.cpp 23-34, 84-103,
src/snitch_registry.cpp 391-803 when the parts guarded by `#if SNITCH_WITH_EXCEPTIONS` are removed.

`REQUIRE`, `FAIL` and `SKIP` call `std::terminate()`: no destructor runs, nothing is reported any more, the program is
gone. The functions say how far the program came (`Stop`).

Simplifications, valid for the whole file: those of `Model/TestCase.lean`. The same type of programs is used; code
that cannot be written in this build (throwing, catching, the macros of snitch_macros_exceptions.hpp, which line 4 of
that file removes, and `notify_exception_handled`, src/snitch_test_data.cpp 69) has no meaning here (`ub`), which
`Spec/NoExceptions.lean` excludes. The state has the same type too; its `held` and `unhandled` (which
include/snitch/snitch_test_data.hpp 338-340, 349-352 remove) are never read nor written.
-/
namespace Verif.NoExc
open Verif.Run

/-- How a piece of code ends when there are no exceptions: its end is reached, or the program has been ended by
`std::terminate()` (include/snitch/snitch_macros_check_base.hpp 13-14). -/
inductive Stop
  | finished
  | terminated
  deriving DecidableEq, Repr

/-- `SNITCH_TESTING_ABORT` behind `MAYBE_ABORT` (include/snitch/snitch_macros_check_base.hpp 13-14,
snitch_macros_check.hpp 33-38). -/
def maybeAbort (abort : Bool) : Stop := if abort then .terminated else .finished

/-- src/snitch_registry.cpp 391-447 `register_assertion`, without 402-409, 421-428, 439-445. -/
def registerAssertion (success : Bool) (s : TS) : TS :=
  let may := s.mayFail || s.shouldFail
  let s := { s with asserts := s.asserts + 1, info := s.info.count success may }
  if success then s
  else if may then setState .allowedFail { s with allowed := s.allowed + 1 }
  else setState .failed { s with failures := s.failures + 1 }

/-- src/snitch_registry.cpp 475-479: the context reported with an assertion; the location always counts as exact. -/
def assertionCtx (s : TS) : Ctx :=
  { path := s.info.sections.current.map (·.id)
    caps := s.info.captures
    loc := (s.info.locations.getLastD (0, .exact)).1
    locType := .exact }

/-- src/snitch_registry.cpp 449-524 `report_assertion_impl`, `report_assertion`, without 458-473. -/
def reportAssertion (cfg : Cfg) (success : Bool) (data : Text) (s : TS) : TS :=
  if s.state = .skipped then s
  else
    let s := registerAssertion success s
    if success then emit cfg 3 (.assertionSucceeded (assertionCtx s) data) s
    else emit cfg 0 (.assertionFailed (assertionCtx s) data s.shouldFail s.mayFail) s

/-- src/snitch_test_data.cpp 39-50: constructor of `scoped_test_check`, without 42-46. -/
def checkEnter (cfg : Cfg) (loc : Nat) (s : TS) : Outcome TS := do
  let s ← pushLocation cfg (loc, .inCheck) s
  return { s with inCheck := true }

/-- src/snitch_test_data.cpp 52-65: destructor of `scoped_test_check`, without 55-62. -/
def checkLeave (s : TS) : Outcome TS := popLocation { s with inCheck := false }

/-- The end of a check: the program ends here, or the destructor runs (snitch_macros_check.hpp 15-72, 84-100). -/
def endCheck (r : Stop) (s : TS) : Outcome (TS × Stop) :=
  match r with
  | .terminated => .ok (s, .terminated)
  | .finished => do
    let s ← checkLeave s
    return (s, .finished)

/-- What CHECK, REQUIRE and their variants do once the operand has its value (snitch_macros_check.hpp 15-58, 84-100). -/
def answer (cfg : Cfg) (ok abort : Bool) (data : Text) (s : TS) : Outcome (TS × Stop) :=
  endCheck (if ok then .finished else maybeAbort abort) (reportAssertion cfg ok data s)

/-- The statements of a test body (snitch_macros_check.hpp 15-100). -/
def execStmt (cfg : Cfg) (m : Stmt) (s : TS) : Outcome (TS × Stop) :=
  match m with
  | .act a => .ok ({ s with log := s.log ++ [.user a] }, .finished)
  | .check loc (.val ok) abort data => do
    let s ← checkEnter cfg loc s
    answer cfg ok abort data s
  -- snitch_macros_check.hpp 60-72
  | .skip loc abort msg => do
    let s ← checkEnter cfg loc s
    endCheck (maybeAbort abort) (reportSkipped cfg msg s)
  -- not C++ in this build
  | .check _ (.exc _) _ _ | .throw _ | .notify | .throwsAs .. | .throwsMatches .. | .nothrow .. => .ub

/-- src/snitch_section.cpp 72-143 `section_entry_checker::operator bool`, without 73-77. -/
def enterSection (cfg : Cfg) (id loc : Nat) (s : TS) : Outcome (TS × Bool) := do
  let x ← ensureLevel cfg s.info.sections
  enterLevel cfg id loc x s

/-- src/snitch_section.cpp 16-66: leaving an entered section, without 17-24, 57-59. -/
def leaveEntered (cfg : Cfg) (s : TS) : Outcome TS := do
  let s ← popLocation s
  let x := finishLevel s.info.sections
  let s := setSections x.1 s
  match x.1.current.getLast? with
  | none => .abort
  | some back =>
    let s := if x.2 then reportSectionEnded cfg back s else s
    return setSections { s.info.sections with current := s.info.sections.current.dropLast } s

/-- src/snitch_section.cpp 13-70 `~section_entry_checker`. -/
def leaveSection (cfg : Cfg) (entered : Bool) (s : TS) : Outcome TS :=
  if entered then do
    let s ← leaveEntered cfg s
    return decDepth s
  else .ok (decDepth s)

/-- include/snitch/snitch_capture.hpp 29-47 and src/snitch_capture.cpp 84-103 without 94-98. -/
def addCaptures (cfg : Cfg) : List Text → TS → Outcome TS
  | [], s => .ok s
  | c :: cs, s =>
    if s.info.captures.length ≥ cfg.maxCaptures then .abort
    else addCaptures cfg cs (pushCapture c s)

/-- src/snitch_capture.cpp 23-34 `~scoped_capture` without 24-31. -/
def popCaptures (count : Nat) (s : TS) : Outcome TS :=
  if count ≤ s.info.captures.length then
    .ok { s with info :=
      { s.info with captures := s.info.captures.take (s.info.captures.length - count) } }
  else .abort

/-- Executing a test body (snitch_macros_check.hpp 15-100, snitch_macros_misc.hpp 11-21). `std::terminate` runs no
destructor. -/
def exec (cfg : Cfg) : Prog → TS → Outcome (TS × Stop)
  | .done, s => .ok (s, .finished)
  | .stmt m k, s => do
    let (s, r) ← execStmt cfg m s
    match r with
    | .finished => exec cfg k s
    | .terminated => return (s, .terminated)
  | .sec id loc body k, s => do
    let (s, entered) ← enterSection cfg id loc s
    if entered then
      let (s, r) ← exec cfg body s
      match r with
      | .finished =>
        let s ← leaveSection cfg true s
        exec cfg k s
      | .terminated => return (s, .terminated)
    else
      let s ← leaveSection cfg false s
      exec cfg k s
  | .capture caps k, s => do
    let s ← addCaptures cfg caps s
    let (s, r) ← exec cfg k s
    match r with
    | .finished =>
      let s ← popCaptures caps.length s
      return (s, .finished)
    | .terminated => return (s, .terminated)
  | .block body k, s => do
    let (s, r) ← exec cfg body s
    match r with
    | .finished => exec cfg k s
    | .terminated => return (s, .terminated)
  | .nested loc operand (.check ok abort data) k, s => do
    let s ← checkEnter cfg loc s
    let (s, r) ← exec cfg operand s
    match r with
    | .finished =>
      let (s, r) ← answer cfg ok abort data s
      match r with
      | .finished => exec cfg k s
      | .terminated => return (s, .terminated)
    | .terminated => return (s, .terminated)
  | .guard cleanup k, s => do
    let (s, r) ← exec cfg k s
    match r with
    | .finished => exec cfg cleanup s
    | .terminated => return (s, .terminated)
  -- not C++ in this build
  | .tryCatch .., _ | .nested _ _ (.throwsAs ..) _, _ | .nested _ _ (.throwsMatches ..) _, _
  | .nested _ _ (.nothrow ..) _, _ => .ub

/-- src/snitch_registry.cpp 621-641: the do-while loop (`n` is the number of the next execution). -/
def runLoop (cfg : Cfg) (bodies : Nat → Prog) : Nat → Nat → TS → Option (Outcome (TS × Stop))
  | 0, _, _ => none
  | fuel + 1, n, s =>
    match exec cfg (bodies n) (resetPass s) with
    | .abort => some .abort
    | .ub => some .ub
    | .ok (s, .terminated) => some (.ok (s, .terminated))
    | .ok (s, .finished) =>
      let s := clearFinished s
      if !s.info.sections.levels.isEmpty && decide (s.state ≠ .skipped) then runLoop cfg bodies fuel (n + 1) s
      else some (.ok (s, .finished))

/-- src/snitch_registry.cpp 665-672: tests that should fail. -/
def checkShouldFail (cfg : Cfg) (s : TS) : TS :=
  if s.shouldFail then
    setShouldFail true (setInCheck false (reportAssertion cfg (decide (s.state = .allowedFail))
      "expected test to fail".toList (setInCheck true (setShouldFail false s))))
  else s

/-- src/snitch_registry.cpp 584-704 `registry::run`, without 617-619, 643-663. -/
def run (cfg : Cfg) (fuel : Nat) (t : TestCase) : Option (Outcome (TS × Stop)) :=
  match Filter.forEachTag cfg.maxTag t.id.tags with
  | .abort => some .abort
  | .ub => some .ub
  | .ok tags =>
    match runLoop cfg t.body.no fuel 0 (initState cfg t tags) with
    | none => none
    | some .abort => some .abort
    | some .ub => some .ub
    | some (.ok (s, .terminated)) => some (.ok (s, .terminated))
    | some (.ok (s, .finished)) => some (.ok (endCase cfg t (checkShouldFail cfg s), .finished))

/-- src/snitch_registry.cpp 729-765: the loop over the test cases. When a test ends the program, the events are those
reported until then. -/
def runEach (lim : Reg.Limits) (fuel : Nat) (pred : Filter.TestId → Outcome Bool) :
    List Reg.Case → Reg.Acc → Option (Outcome (Reg.Acc × Stop))
  | [], acc => some (.ok (acc, .finished))
  | c :: cs, acc =>
    match pred c.test.id with
    | .abort => some .abort
    | .ub => some .ub
    | .ok false => runEach lim fuel pred cs { acc with cases := acc.cases ++ [c] }
    | .ok true =>
      match run lim.cfg fuel c.test with
      | none => none
      | some .abort => some .abort
      | some .ub => some .ub
      | some (.ok (s, .terminated)) => some (.ok ({ acc with log := acc.log ++ s.log }, .terminated))
      | some (.ok (s, .finished)) =>
        runEach lim fuel pred cs
          { cases := acc.cases ++ [{ c with state := s.state }]
            totals := acc.totals.add s
            log := acc.log ++ s.log }

/-- What `run_selected_tests` comes to: it returns (with the registry it leaves, the events and its value), or the
program is ended in the middle (with the events until then). -/
inductive Ended
  | returned (cases : List Reg.Case) (log : List Event) (success : Bool)
  | terminated (log : List Event)

/-- src/snitch_registry.cpp 706-803 `run_selected_tests`. -/
def runSelected (lim : Reg.Limits) (fuel : Nat) (pred : Filter.TestId → Outcome Bool) (cases : List Reg.Case) :
    Option (Outcome Ended) :=
  match runEach lim fuel pred cases { log := Reg.shown lim 1 .runStarted } with
  | none => none
  | some .abort => some .abort
  | some .ub => some .ub
  | some (.ok (acc, .terminated)) => some (.ok (.terminated acc.log))
  | some (.ok (acc, .finished)) =>
    some (.ok (.returned acc.cases (acc.log ++ Reg.shown lim 1 acc.totals.event) acc.totals.success))

end Verif.NoExc
