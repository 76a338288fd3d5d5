import Verif.Model.Filter
/-!
# Model of running one test case

Source: src/snitch_section.cpp, src/snitch_test_data.cpp, src/snitch_capture.cpp 23-34, 84-103,
include/snitch/snitch_capture.hpp 13-47, src/snitch_registry.cpp 115-120, 390-704,
include/snitch/snitch_macros_check.hpp, snitch_macros_check_base.hpp, snitch_macros_exceptions.hpp,
snitch_macros_misc.hpp, include/snitch/snitch_test_data.hpp 43-60, 299-355.

Simplifications, valid for the whole file.

* What one execution of a test body does is a program of type `Prog`: user statements, test macros, sections,
  captures, plain blocks and try/catch. The outcome of every user expression is part of the program. A body
  (`Body`) has such a program for each execution, so executions may differ in any way.
* Test macros can be used in functions called by the operand of another macro (`Prog.nested`) and in
  destructors of user objects (`Prog.guard`). `flight` says whether `std::uncaught_exceptions() > 0` where a
  piece of code runs: in what a destructor does when it is run by an exception.
* Source locations (file and line) are opaque numbers, section ids (name and description) too.
* Time measurements are left out (they are in Verif/Model/Timing.lean).
-/
namespace Verif.Run

/-- include/snitch/snitch_test_data.hpp 71-80 `location_type`. -/
inductive LocType
  | exact | sectionScope | testCaseScope | inCheck
  deriving DecidableEq, Repr

/-- include/snitch/snitch_test_data.hpp 299 `impl::test_case_state`. -/
inductive CaseState
  | notRun | success | skipped | failed | allowedFail
  deriving DecidableEq, Repr

/-- The underlying values of the enumeration (include/snitch/snitch_test_data.hpp 299). -/
def CaseState.toNat : CaseState → Nat
  | .notRun => 0 | .success => 1 | .skipped => 2 | .failed => 3 | .allowedFail => 4

/-- A C++ exception: the types it can be caught as, its `what()` if it is a `std::exception`, and
whether it is `impl::abort_exception` (include/snitch/snitch_registry.hpp 64). -/
structure Exn where
  types : List Nat
  what : Option Text
  isAbort : Bool
  deriving DecidableEq, Repr

/-- include/snitch/snitch_macros_check_base.hpp 10-15 `SNITCH_TESTING_ABORT`. -/
def abortExn : Exn := ⟨[], none, true⟩

/-- What evaluating the operand of a check does: a value (does the check hold?) or an exception. -/
inductive Eval
  | val (ok : Bool)
  | exc (e : Exn)
  deriving DecidableEq, Repr

/-- Statements of a test body. -/
inductive Stmt
  /-- any user statement that does not involve the framework; `a` identifies it -/
  | act (a : Nat)
  /-- CHECK, REQUIRE, CHECK_FALSE, REQUIRE_FALSE, CHECK_THAT, REQUIRE_THAT, SUCCEED, FAIL,
  FAIL_CHECK (snitch_macros_check.hpp 15-72, 84-100). `abort`: the REQUIRE/FAIL variants. -/
  | check (loc : Nat) (ev : Eval) (abort : Bool) (data : Text)
  /-- SKIP, SKIP_CHECK (snitch_macros_check.hpp 60-72) -/
  | skip (loc : Nat) (abort : Bool) (msg : Text)
  /-- the user code throws -/
  | throw (e : Exn)
  /-- `snitch::notify_exception_handled()` called by the user -/
  | notify
  /-- CHECK_THROWS_AS, REQUIRE_THROWS_AS -/
  | throwsAs (loc : Nat) (ev : Option Exn) (type : Nat) (name : Text) (abort : Bool)
  /-- CHECK_THROWS_MATCHES, REQUIRE_THROWS_MATCHES; `matched` and `desc` are what the matcher says
  about the exception -/
  | throwsMatches (loc : Nat) (ev : Option Exn) (type : Nat) (name : Text) (matched : Bool)
      (desc : Text) (abort : Bool)
  /-- CHECK_NOTHROW, REQUIRE_NOTHROW -/
  | nothrow (loc : Nat) (ev : Option Exn) (text : Text) (abort : Bool)
  deriving DecidableEq, Repr

/-- The macros that evaluate an operand, as far as they are known before the operand has been evaluated:
CHECK and its variants (with what the check says about the value), CHECK_THROWS_AS, CHECK_THROWS_MATCHES,
CHECK_NOTHROW (snitch_macros_check.hpp 15-58, snitch_macros_exceptions.hpp 13-130). -/
inductive Ask
  | check (ok abort : Bool) (data : Text)
  | throwsAs (type : Nat) (name : Text) (abort : Bool)
  | throwsMatches (type : Nat) (name : Text) (matched : Bool) (desc : Text) (abort : Bool)
  | nothrow (text : Text) (abort : Bool)
  deriving DecidableEq, Repr

/-- Test bodies. -/
inductive Prog
  | done
  | stmt (m : Stmt) (k : Prog)
  /-- `SECTION(id) { body } k` (snitch_macros_misc.hpp 11-13) -/
  | sec (id loc : Nat) (body k : Prog)
  /-- `CAPTURE(...)` / `INFO(...)` followed by the rest of the block, at whose end the captures go
  out of scope (snitch_macros_misc.hpp 15-21) -/
  | capture (caps : List Text) (k : Prog)
  /-- `{ body } k` -/
  | block (body k : Prog)
  /-- `try { body } catch (...) { handler } k` (`type = none`), or with a typed handler -/
  | tryCatch (type : Option Nat) (body handler k : Prog)
  /-- a macro whose operand executes `operand` (a function that uses test macros itself), then `k` -/
  | nested (loc : Nat) (operand : Prog) (ask : Ask) (k : Prog)
  /-- a local object whose destructor executes `cleanup`, then the rest of the block, at whose end the object is
  destroyed -/
  | guard (cleanup k : Prog)
  deriving DecidableEq, Repr

/-- The function of a test case (include/snitch/snitch_test_data.hpp 297, 304), which is called once for each execution
(src/snitch_registry.cpp 629): what its first execution does, and what the later ones do. They may differ, since code can
use variables which code in a section has changed, static variables, random numbers, and so on. Only finitely many
executions differ: the last one listed tells what all further ones do. What an execution would do in a section which it
does not enter plays no role. -/
structure Body where
  first : Prog
  later : List Prog := []
  deriving DecidableEq, Repr

/-- A function which does the same in each execution. -/
instance : Coe Prog Body := ⟨fun p => { first := p }⟩

/-- What execution number `n` (from 0) of a test function does (src/snitch_registry.cpp 621-641). -/
def Body.no (b : Body) (n : Nat) : Prog := (b.first :: b.later)[n]?.getD (b.later.getLastD b.first)

/-- include/snitch/snitch_test_data.hpp 44-60 `section`. -/
structure Section where
  id : Nat
  asserts : Nat := 0
  failures : Nat := 0
  allowed : Nat := 0
  deriving DecidableEq, Repr

/-- include/snitch/snitch_test_data.hpp 308-312 `section_nesting_level`. -/
structure Level where
  cur : Nat := 0
  prev : Nat := 0
  max : Nat := 0
  deriving DecidableEq, Repr

/-- include/snitch/snitch_test_data.hpp 314-319 `section_state`. -/
structure SecState where
  current : List Section := []
  levels : List Level := []
  depth : Nat := 0
  leaf : Bool := false
  deriving DecidableEq, Repr

/-- include/snitch/snitch_test_data.hpp 326-330 `info_state`. -/
structure Info where
  sections : SecState := {}
  captures : List Text := []
  locations : List (Nat × LocType) := []
  deriving DecidableEq, Repr

/-- What an assertion or skip event tells about its place: open sections (outermost first), active
captures, location (include/snitch/snitch_test_data.hpp 62-90; event structures 130-290). -/
structure Ctx where
  path : List Nat
  caps : List Text
  loc : Nat
  locType : LocType
  deriving DecidableEq, Repr

/-- Events sent to the reporter (include/snitch/snitch_test_data.hpp 130-290), plus the user
statements executed, in one chronological log. -/
inductive Event
  | user (a : Nat)
  | sectionStarted (id : Nat)
  | sectionEnded (id : Nat) (skipped : Bool) (asserts failures allowed : Nat)
  | assertionSucceeded (ctx : Ctx) (data : Text)
  | assertionFailed (ctx : Ctx) (data : Text) (expected allowed : Bool)
  | caseSkipped (ctx : Ctx) (msg : Text)
  | caseStarted (id : Filter.TestId)
  | caseEnded (id : Filter.TestId) (asserts failures allowed : Nat) (state : CaseState)
  | runStarted
  | runEnded (run fail allowedFail skip asserts failures allowed : Nat) (success : Bool)
  deriving DecidableEq, Repr

/-- Compile-time limits and the verbosity of the registry (0 quiet, 1 normal, 2 high, 3 full;
include/snitch/snitch_registry.hpp 150). -/
structure Cfg where
  verbosity : Nat
  maxNested : Nat
  maxCaptures : Nat
  maxTag : Nat

/-- include/snitch/snitch_test_data.hpp 332-354 `test_state`, together with the state of the test
case it refers to and the events reported so far. -/
structure TS where
  info : Info := {}
  held : Option Info := none
  asserts : Nat := 0
  failures : Nat := 0
  allowed : Nat := 0
  mayFail : Bool := false
  shouldFail : Bool := false
  inCheck : Bool := false
  unhandled : Bool := false
  state : CaseState := .success
  log : List Event := []
  deriving DecidableEq, Repr

/-- How a piece of code ends. -/
inductive Res
  | normal
  | raised (e : Exn)
  deriving DecidableEq, Repr

/-- `report_callback(...)` guarded by `verbose >= lvl`. -/
def emit (cfg : Cfg) (lvl : Nat) (e : Event) (s : TS) : TS :=
  if cfg.verbosity ≥ lvl then { s with log := s.log ++ [e] } else s

/-- src/snitch_registry.cpp 115-120 `set_state`. -/
def setState (n : CaseState) (s : TS) : TS :=
  if s.state.toNat < n.toNat then { s with state := n } else s

/-- Counting one assertion in a section (src/snitch_registry.cpp 391-446). -/
def Section.count (success may : Bool) (x : Section) : Section :=
  if success then { x with asserts := x.asserts + 1 }
  else if may then { x with asserts := x.asserts + 1, allowed := x.allowed + 1 }
  else { x with asserts := x.asserts + 1, failures := x.failures + 1 }

/-- Counting one assertion in all open sections of an `info_state`. -/
def Info.count (success may : Bool) (i : Info) : Info :=
  { i with sections :=
      { i.sections with current := i.sections.current.map (Section.count success may) } }

/-- src/snitch_registry.cpp 391-447 `register_assertion`. -/
def registerAssertion (success : Bool) (s : TS) : TS :=
  let may := s.mayFail || s.shouldFail
  let s := { s with
    asserts := s.asserts + 1
    info := s.info.count success may
    held := s.held.map (Info.count success may) }
  if success then s
  else if may then setState .allowedFail { s with allowed := s.allowed + 1 }
  else setState .failed { s with failures := s.failures + 1 }

/-- src/snitch_registry.cpp 458-473: the context reported with an assertion, taken from `held_info` (if there is
one) when an exception is being handled as unexpected or is in flight. `locations.back()` of an empty list would be
undefined; the list always holds at least the location of the test case. -/
def assertionCtx (flight : Bool) (s : TS) : Ctx :=
  let i := if flight || s.unhandled then s.held.getD s.info else s.info
  let last := i.locations.getLastD (0, .exact)
  { path := i.sections.current.map (·.id)
    caps := i.captures
    loc := last.1
    locType := if s.inCheck then .exact else last.2 }

/-- src/snitch_registry.cpp 449-524 `report_assertion_impl` and `report_assertion`. -/
def reportAssertion (cfg : Cfg) (flight success : Bool) (data : Text) (s : TS) : TS :=
  if s.state = .skipped then s
  else
    let s := registerAssertion success s
    if success then emit cfg 3 (.assertionSucceeded (assertionCtx flight s) data) s
    else emit cfg 0 (.assertionFailed (assertionCtx flight s) data s.shouldFail s.mayFail) s

/-- src/snitch_registry.cpp 526-540 `report_skipped`. -/
def reportSkipped (cfg : Cfg) (msg : Text) (s : TS) : TS :=
  let s := setState .skipped s
  emit cfg 0 (.caseSkipped
    { path := s.info.sections.current.map (·.id)
      caps := s.info.captures
      loc := (s.info.locations.getLastD (0, .exact)).1
      locType := .exact } msg) s

/-- src/snitch_registry.cpp 542-550 `report_section_started`. -/
def reportSectionStarted (cfg : Cfg) (x : Section) (s : TS) : TS :=
  emit cfg 2 (.sectionStarted x.id) s

/-- src/snitch_registry.cpp 552-582 `report_section_ended`. -/
def reportSectionEnded (cfg : Cfg) (x : Section) (s : TS) : TS :=
  emit cfg 2 (.sectionEnded x.id (decide (s.state = .skipped)) x.asserts x.failures x.allowed) s

/-- src/snitch_test_data.cpp 76-83: reporting the end of the sections left open by an exception,
innermost first. -/
def closeHeld (cfg : Cfg) : List Section → TS → TS
  | [], s => s
  | x :: xs, s => closeHeld cfg xs (reportSectionEnded cfg x s)

/-- src/snitch_test_data.cpp 70-86 `notify_exception_handled`. -/
def notify (cfg : Cfg) (s : TS) : TS :=
  match s.held with
  | none => s
  | some h =>
    let s := closeHeld cfg (h.sections.current.drop s.info.sections.current.length).reverse s
    { s with held := none }

/-- src/snitch_test_data.cpp 42-46, src/snitch_section.cpp 73-77, src/snitch_capture.cpp 94-98: a test macro
means that an earlier exception has been handled, unless one is in flight. -/
def arrive (cfg : Cfg) : Bool → TS → TS
  | false, s => notify cfg s
  | true, s => s

/-- src/snitch_section.cpp 18-24, src/snitch_test_data.cpp 55-62, src/snitch_capture.cpp 24-31: the
destructors keep a copy of the information when unwinding. -/
def hold (unwinding : Bool) (s : TS) : TS :=
  if unwinding && s.held.isNone then { s with held := some s.info } else s

/-- src/snitch_test_data.cpp 31-33 `push_location`: `push_back` on a vector of capacity
`max_nested_sections + 2`. -/
def pushLocation (cfg : Cfg) (l : Nat × LocType) (s : TS) : Outcome TS :=
  if s.info.locations.length < cfg.maxNested + 2 then
    .ok { s with info := { s.info with locations := s.info.locations ++ [l] } }
  else .abort

/-- src/snitch_test_data.cpp 35-37 `pop_location`. -/
def popLocation (s : TS) : Outcome TS :=
  if s.info.locations.isEmpty then .abort
  else .ok { s with info := { s.info with locations := s.info.locations.dropLast } }

/-- src/snitch_test_data.cpp 39-50: constructor of `scoped_test_check`. -/
def checkEnter (cfg : Cfg) (flight : Bool) (loc : Nat) (s : TS) : Outcome TS := do
  let s ← pushLocation cfg (loc, .inCheck) (arrive cfg flight s)
  return { s with inCheck := true }

/-- src/snitch_test_data.cpp 52-65: destructor of `scoped_test_check`. -/
def checkLeave (unwinding : Bool) (s : TS) : Outcome TS :=
  popLocation (hold unwinding { s with inCheck := false })

/-- Ends the scope of a check: the destructor runs, then the exception (if any) goes on. -/
def endCheck (flight : Bool) (r : Res) (s : TS) : Outcome (TS × Res) := do
  let s ← checkLeave (flight || decide (r ≠ .normal)) s
  return (s, r)

/-- `MAYBE_ABORT` (snitch_macros_check.hpp 33-38; snitch_macros_check_base.hpp 10-15). -/
def maybeAbort (abort : Bool) : Res := if abort then .raised abortExn else .normal

/-- `max_message_length` (include/snitch/snitch_error_handling.hpp 11, include/snitch/snitch_config.hpp.config 23-25): a compile-time
constant, so it is given once and for all. -/
class MessageLimit where
  max : Nat

variable [MessageLimit]

/-- src/snitch_registry.cpp 503-514 `report_assertion` with two texts: they are put together in a string of
`max_message_length` characters with `append_or_truncate` (`Util.appendOrTruncate`; that it leaves this text is
`C69_joined`). -/
def joined (a b : Text) : Text :=
  if a.length + b.length ≤ MessageLimit.max then a ++ b
  else (a ++ b).take (MessageLimit.max - 3) ++ List.replicate (min 3 MessageLimit.max) '.'

/-- snitch_macros_exceptions.hpp 24-36, 70-84, 109-124: the message for an exception that was not
expected, depending on whether it is a `std::exception`. -/
def otherMessage (std unknown : Text) (e : Exn) : Text :=
  match e.what with
  | some w => joined std w
  | none => unknown

/-- What a macro does once its operand has been evaluated, to a value (`none`) or by an exception.
snitch_macros_check.hpp 15-31, 40-58, 84-93; snitch_macros_exceptions.hpp 13-44, 51-95, 103-126. -/
def answer (cfg : Cfg) (flight : Bool) (ask : Ask) (ev : Option Exn) (s : TS) : Outcome (TS × Res) :=
  match ask with
  -- snitch_macros_check.hpp 15-31, 40-58, 84-93
  | .check ok abort data =>
    match ev with
    | some e => endCheck flight (.raised e) s
    | none =>
      let s := reportAssertion cfg flight ok data s
      endCheck flight (if ok then .normal else maybeAbort abort) s
  -- snitch_macros_exceptions.hpp 13-44
  | .throwsAs type name abort =>
    match ev with
    | none =>
      let s := reportAssertion cfg flight false (name ++ " expected but no exception thrown".toList) s
      endCheck flight (maybeAbort abort) s
    | some e =>
      if e.types.contains type then
        let s := reportAssertion cfg flight true (name ++ " was thrown as expected".toList) s
        endCheck flight .normal (notify cfg s)
      else
        let s := reportAssertion cfg flight false (otherMessage
          (name ++ " expected but other std::exception thrown; message: ".toList)
          (name ++ " expected but other unknown exception thrown".toList) e) s
        endCheck flight (maybeAbort abort) (notify cfg s)
  -- snitch_macros_exceptions.hpp 51-95
  | .throwsMatches type name matched desc abort =>
    match ev with
    | none =>
      let s := reportAssertion cfg flight false (name ++ " expected but no exception thrown".toList) s
      endCheck flight (maybeAbort abort) s
    | some e =>
      if e.types.contains type then
        if !matched then
          let s := reportAssertion cfg flight false (joined ("could not match caught ".toList ++ name ++
            " with expected content: ".toList) desc) s
          endCheck flight (maybeAbort abort) (notify cfg s)
        else
          let s := reportAssertion cfg flight true (joined ("caught ".toList ++ name ++
            " matched expected content: ".toList) desc) s
          endCheck flight .normal (notify cfg s)
      else
        let s := reportAssertion cfg flight false (otherMessage
          (name ++ " expected but other std::exception thrown; message: ".toList)
          (name ++ " expected but other unknown exception thrown".toList) e) s
        endCheck flight (maybeAbort abort) (notify cfg s)
  -- snitch_macros_exceptions.hpp 103-126
  | .nothrow text abort =>
    match ev with
    | none =>
      let s := reportAssertion cfg flight true (text ++ " did not throw".toList) s
      endCheck flight .normal s
    | some e =>
      let s := reportAssertion cfg flight false (otherMessage
        ("expected ".toList ++ text ++
          " not to throw but it threw a std::exception; message: ".toList)
        ("expected ".toList ++ text ++ " not to throw but it threw an unknown exception".toList)
        e) s
      endCheck flight (maybeAbort abort) (notify cfg s)

/-- The statements of a test body (snitch_macros_check.hpp 15-100, snitch_macros_exceptions.hpp 13-130,
src/snitch_test_data.cpp 70-86). -/
def execStmt (cfg : Cfg) (flight : Bool) (m : Stmt) (s : TS) : Outcome (TS × Res) :=
  match m with
  | .act a => .ok ({ s with log := s.log ++ [.user a] }, .normal)
  | .throw e => .ok (s, .raised e)
  | .notify => .ok (notify cfg s, .normal)
  | .check loc (.val ok) abort data => do
    let s ← checkEnter cfg flight loc s
    answer cfg flight (.check ok abort data) none s
  | .check loc (.exc e) abort data => do
    let s ← checkEnter cfg flight loc s
    answer cfg flight (.check false abort data) (some e) s
  -- snitch_macros_check.hpp 60-72
  | .skip loc abort msg => do
    let s ← checkEnter cfg flight loc s
    endCheck flight (maybeAbort abort) (reportSkipped cfg msg s)
  | .throwsAs loc ev type name abort => do
    let s ← checkEnter cfg flight loc s
    answer cfg flight (.throwsAs type name abort) ev s
  | .throwsMatches loc ev type name matched desc abort => do
    let s ← checkEnter cfg flight loc s
    answer cfg flight (.throwsMatches type name matched desc abort) ev s
  | .nothrow loc ev text abort => do
    let s ← checkEnter cfg flight loc s
    answer cfg flight (.nothrow text abort) ev s

/-- Write back the section state. -/
def setSections (x : SecState) (s : TS) : TS := { s with info := { s.info with sections := x } }

/-- src/snitch_section.cpp 81-93: make sure there is a level for the section. The nesting limit is
also the capacity of the list of levels. -/
def ensureLevel (cfg : Cfg) (x : SecState) : Outcome SecState :=
  if x.depth ≥ x.levels.length then
    if x.depth ≥ cfg.maxNested then .abort
    else if x.levels.length ≥ cfg.maxNested then .abort
    else .ok { x with levels := x.levels ++ [{}] }
  else .ok x

/-- src/snitch_section.cpp 97-102: count the section in its level. -/
def Level.next (l : Level) : Level :=
  { l with cur := l.cur + 1, max := if l.cur + 1 > l.max then l.cur + 1 else l.max }

/-- src/snitch_section.cpp 110-120: should this section be entered in this pass? -/
def wanted (level : Level) (depth numLevels : Nat) : Bool :=
  decide (level.cur = level.prev + 1) || decide (level.cur = level.prev ∧ depth < numLevels)

/-- src/snitch_section.cpp 122-142: entering the section. -/
def startSection (cfg : Cfg) (id loc : Nat) (level : Level) (x : SecState) (s : TS) :
    Outcome (TS × Bool) :=
  if x.current.length ≥ cfg.maxNested then .abort
  else do
    let s ← pushLocation cfg (loc, .sectionScope) (setSections { x with
      levels := x.levels.set (x.depth - 1) { level with prev := level.cur }
      current := x.current ++ [{ id := id }] } s)
    return (if level.cur = level.prev + 1 then reportSectionStarted cfg { id := id } s else s, true)

/-- src/snitch_section.cpp 95-142: what follows `ensureLevel`. -/
def enterLevel (cfg : Cfg) (id loc : Nat) (x : SecState) (s : TS) : Outcome (TS × Bool) :=
  let x := { x with depth := x.depth + 1 }
  match x.levels[x.depth - 1]? with
  | none => .ub
  | some level =>
    let level := level.next
    let x := { x with levels := x.levels.set (x.depth - 1) level }
    if x.leaf then .ok (setSections x s, false)
    else if !wanted level x.depth x.levels.length then .ok (setSections x s, false)
    else startSection cfg id loc level x s

/-- src/snitch_section.cpp 72-143 `section_entry_checker::operator bool`. -/
def enterSection (cfg : Cfg) (flight : Bool) (id loc : Nat) (s : TS) : Outcome (TS × Bool) := do
  let s := arrive cfg flight s
  let x ← ensureLevel cfg s.info.sections
  enterLevel cfg id loc x s

/-- src/snitch_section.cpp 28-54: update the section state when leaving an entered section; the
flag tells whether this was the last entry. -/
def finishLevel (x : SecState) : SecState × Bool :=
  if x.depth = x.levels.length then ({ x with leaf := true }, true)
  else if (x.levels.drop x.depth).all (fun child => child.prev == child.max) then
    ({ x with levels := x.levels.dropLast }, true)
  else (x, false)

/-- src/snitch_section.cpp 16-66: leaving an entered section. -/
def leaveEntered (cfg : Cfg) (unwinding : Bool) (s : TS) : Outcome TS := do
  let s ← popLocation (hold unwinding s)
  let x := finishLevel s.info.sections
  let s := setSections x.1 s
  match x.1.current.getLast? with
  | none => .abort
  | some back =>
    let s := if x.2 && !unwinding then reportSectionEnded cfg back s else s
    return setSections { s.info.sections with current := s.info.sections.current.dropLast } s

/-- src/snitch_section.cpp 68-69. -/
def decDepth (s : TS) : TS :=
  setSections { s.info.sections with depth := s.info.sections.depth - 1 } s

/-- src/snitch_section.cpp 13-70 `~section_entry_checker`. -/
def leaveSection (cfg : Cfg) (entered unwinding : Bool) (s : TS) : Outcome TS :=
  if entered then do
    let s ← leaveEntered cfg unwinding s
    return decDepth s
  else .ok (decDepth s)

/-- src/snitch_capture.cpp 100-102: one more capture. -/
def pushCapture (c : Text) (s : TS) : TS :=
  { s with info := { s.info with captures := s.info.captures ++ [c] } }

/-- include/snitch/snitch_capture.hpp 29-47 and src/snitch_capture.cpp 84-103: adding captures one
after the other. The text of a capture is given (see `Capture.lean` for how it is made). -/
def addCaptures (cfg : Cfg) (flight : Bool) : List Text → TS → Outcome TS
  | [], s => .ok s
  | c :: cs, s =>
    if s.info.captures.length ≥ cfg.maxCaptures then .abort
    else addCaptures cfg flight cs (pushCapture c (arrive cfg flight s))

/-- src/snitch_capture.cpp 23-34 `~scoped_capture`: `resize(size - count)` (the `size_t`
subtraction would wrap if there were fewer captures; `resize` then fails its assertion). -/
def popCaptures (count : Nat) (unwinding : Bool) (s : TS) : Outcome TS :=
  let s := hold unwinding s
  if count ≤ s.info.captures.length then
    .ok { s with info :=
      { s.info with captures := s.info.captures.take (s.info.captures.length - count) } }
  else .abort

/-- Does a handler catch an exception? -/
def catches : Option Nat → Exn → Bool
  | none, _ => true
  | some t, e => e.types.contains t

/-- The exception that code ended with, if any. -/
def Res.thrown : Res → Option Exn
  | .normal => none
  | .raised e => some e

/-- Executing a test body. A destructor is `noexcept`, so an exception leaving it ends the program
(`std::terminate`). -/
def exec (cfg : Cfg) (flight : Bool) : Prog → TS → Outcome (TS × Res)
  | .done, s => .ok (s, .normal)
  | .stmt m k, s => do
    let (s, r) ← execStmt cfg flight m s
    match r with
    | .normal => exec cfg flight k s
    | .raised e => return (s, .raised e)
  | .sec id loc body k, s => do
    let (s, entered) ← enterSection cfg flight id loc s
    if entered then
      let (s, r) ← exec cfg flight body s
      let s ← leaveSection cfg true (flight || decide (r ≠ .normal)) s
      match r with
      | .normal => exec cfg flight k s
      | .raised e => return (s, .raised e)
    else
      let s ← leaveSection cfg false flight s
      exec cfg flight k s
  | .capture caps k, s => do
    let s ← addCaptures cfg flight caps s
    let (s, r) ← exec cfg flight k s
    let s ← popCaptures caps.length (flight || decide (r ≠ .normal)) s
    return (s, r)
  | .block body k, s => do
    let (s, r) ← exec cfg flight body s
    match r with
    | .normal => exec cfg flight k s
    | .raised e => return (s, .raised e)
  | .tryCatch type body handler k, s => do
    let (s, r) ← exec cfg flight body s
    match r with
    | .normal => exec cfg flight k s
    | .raised e =>
      if catches type e then
        let (s, r) ← exec cfg flight handler s
        match r with
        | .normal => exec cfg flight k s
        | .raised e => return (s, .raised e)
      else return (s, .raised e)
  | .nested loc operand ask k, s => do
    let s ← checkEnter cfg flight loc s
    let (s, r) ← exec cfg flight operand s
    let (s, r) ← answer cfg flight ask r.thrown s
    match r with
    | .normal => exec cfg flight k s
    | .raised e => return (s, .raised e)
  | .guard cleanup k, s => do
    let (s, r) ← exec cfg flight k s
    let (s, r') ← exec cfg (flight || decide (r ≠ .normal)) cleanup s
    match r' with
    | .normal => return (s, r)
    | .raised _ => .abort

/-- src/snitch_registry.cpp 622-626: resetting the section state before each pass. -/
def resetPass (s : TS) : TS :=
  setSections { s.info.sections with
    leaf := false
    levels := s.info.sections.levels.map fun l => { l with cur := 0 } } s

/-- src/snitch_registry.cpp 631-639: after a pass, forget a single level with nothing left. -/
def clearFinished (s : TS) : TS :=
  match s.info.sections.levels with
  | [child] =>
    if child.prev = child.max then
      setSections { s.info.sections with levels := [], current := [] } s
    else s
  | _ => s

/-- src/snitch_registry.cpp 621-641: the do-while loop. `bodies` tells what each execution of the test function does, and
`n` is the number of the next one. `fuel` bounds the number of passes (`none`: still running). -/
def runLoop (cfg : Cfg) (bodies : Nat → Prog) : Nat → Nat → TS → Option (Outcome (TS × Res))
  | 0, _, _ => none
  | fuel + 1, n, s =>
    match exec cfg false (bodies n) (resetPass s) with
    | .abort => some .abort
    | .ub => some .ub
    | .ok (s, .raised e) => some (.ok (s, .raised e))
    | .ok (s, .normal) =>
      let s := clearFinished s
      if !s.info.sections.levels.isEmpty && decide (s.state ≠ .skipped) then runLoop cfg bodies fuel (n + 1) s
      else some (.ok (s, .normal))

/-- A registered test case (include/snitch/snitch_test_data.hpp 301-306). -/
structure TestCase where
  id : Filter.TestId
  loc : Nat
  body : Body
  deriving DecidableEq, Repr

/-- Set the `in_check` flag of the test. -/
def setInCheck (b : Bool) (s : TS) : TS := { s with inCheck := b }

/-- Set the `unhandled_exception` flag of the test. -/
def setUnhandled (b : Bool) (s : TS) : TS := { s with unhandled := b }

/-- Set the `should_fail` flag of the test. -/
def setShouldFail (b : Bool) (s : TS) : TS := { s with shouldFail := b }

/-- src/snitch_registry.cpp 643-656: what is reported when the loop ends, normally or by an
exception. -/
def reportEnd (cfg : Cfg) (s : TS) : Res → TS
  | .normal =>
    setInCheck false (reportAssertion cfg false true "no exception caught".toList (setInCheck true s))
  | .raised e =>
    if e.isAbort then setUnhandled true s
    else reportAssertion cfg false false (match e.what with
      | some w => joined "unexpected std::exception caught; message: ".toList w
      | none => "unexpected unknown exception caught".toList) (setUnhandled true s)

/-- src/snitch_registry.cpp 658-662. -/
def settle (cfg : Cfg) (s : TS) : TS :=
  setUnhandled false (if s.unhandled then notify cfg s else s)

/-- src/snitch_registry.cpp 643-662: what happens when the loop ends. -/
def afterLoop (cfg : Cfg) (s : TS) (r : Res) : TS := settle cfg (reportEnd cfg s r)

/-- src/snitch_registry.cpp 665-672: tests that should fail. -/
def checkShouldFail (cfg : Cfg) (s : TS) : TS :=
  if s.shouldFail then
    setShouldFail true (setInCheck false (reportAssertion cfg false (decide (s.state = .allowedFail))
      "expected test to fail".toList (setInCheck true (setShouldFail false s))))
  else s

/-- src/snitch_registry.cpp 589-612: the initial state of a test. -/
def freshState (t : TestCase) (tags : List Filter.ParsedTag) : TS :=
  { mayFail := tags.contains .mayFail
    shouldFail := tags.contains .shouldFail
    info := { locations := [(t.loc, .testCaseScope)] }
    state := .success }

/-- src/snitch_registry.cpp 584-612: the state in which the loop starts. -/
def initState (cfg : Cfg) (t : TestCase) (tags : List Filter.ParsedTag) : TS :=
  emit cfg 2 (.caseStarted t.id) (freshState t tags)

/-- src/snitch_registry.cpp 678-699: the end event of the test case. -/
def endCase (cfg : Cfg) (t : TestCase) (s : TS) : TS :=
  emit cfg 2 (.caseEnded t.id s.asserts s.failures s.allowed s.state) s

/-- src/snitch_registry.cpp 584-704 `registry::run`. The result holds the events reported. -/
def run (cfg : Cfg) (fuel : Nat) (t : TestCase) : Option (Outcome TS) :=
  match Filter.forEachTag cfg.maxTag t.id.tags with
  | .abort => some .abort
  | .ub => some .ub
  | .ok tags =>
    match runLoop cfg t.body.no fuel 0 (initState cfg t tags) with
    | none => none
    | some .abort => some .abort
    | some .ub => some .ub
    | some (.ok (s, r)) =>
      some (.ok (endCase cfg t (checkShouldFail cfg (afterLoop cfg s r))))

end Verif.Run
