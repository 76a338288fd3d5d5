import Verif.Model.Registry
import Verif.Lemmas.Ask
/-!
# Model of the time measurements

Source: src/snitch_time.cpp 1-25, src/snitch_section.cpp 122-131, src/snitch_registry.cpp 552-582, 613-615, 674-676,
725-727, 766-768 (with `SNITCH_WITH_TIMINGS`), src/snitch_reporter_teamcity.cpp 112-116.

The model of running tests (Verif/Model/TestCase.lean) leaves time out. Here the same functions are run with a clock at
hand: each function does to the state of the test what the function of the same name does there, and reads the clock where
the code does. `clock n` is what reading number `n` (from 0) of the program gives, in nanoseconds since the first one.
-/
namespace Verif.Timing
open Verif.Run
variable [MessageLimit]

/-- What the clock is read for in sections, with what it showed. -/
inductive Mark
  /-- a section is entered: its `start_time` (src/snitch_section.cpp 126-131) -/
  | entered (id time : Nat)
  /-- a `section_ended` event: the `start_time` of the section and the time it is compared with
  (src/snitch_registry.cpp 561-571) -/
  | told (id start stop : Nat)
  deriving DecidableEq, Repr

/-- What the framework knows about time while a test runs: `start_time` of the sections in `info.sections.current_section` and
of those in `held_info` (include/snitch/snitch_test_data.hpp 58-61), how often the clock has been read, and what for. -/
structure Watch where
  starts : List Nat := []
  held : List Nat := []
  reads : Nat := 0
  marks : List Mark := []
  deriving DecidableEq, Repr

/-- The state of a test and the time. -/
structure Timed where
  ts : TS
  watch : Watch
  deriving DecidableEq, Repr

/-- Anything that happens to the state without reading the clock or copying sections. -/
def lift (f : TS → TS) (s : Timed) : Timed := { s with ts := f s.ts }

/-- The same for what can end the program. -/
def liftOk (f : TS → Outcome TS) (s : Timed) : Outcome Timed := do
  let ts ← f s.ts
  return { s with ts := ts }

/-- src/snitch_registry.cpp 552-571 `report_section_ended`: the clock is read only if the event is told. -/
def told (clock : Nat → Nat) (cfg : Cfg) (x : Section × Nat) (w : Watch) : Watch :=
  if cfg.verbosity ≥ 2 then
    { w with reads := w.reads + 1, marks := w.marks ++ [.told x.1.id x.2 (clock w.reads)] }
  else w

/-- src/snitch_test_data.cpp 76-83: reporting the ends of sections one after the other. -/
def toldAll (clock : Nat → Nat) (cfg : Cfg) : List (Section × Nat) → Watch → Watch
  | [], w => w
  | x :: xs, w => toldAll clock cfg xs (told clock cfg x w)

/-- src/snitch_test_data.cpp 70-86 `notify_exception_handled`. -/
def notify (clock : Nat → Nat) (cfg : Cfg) (s : Timed) : Timed where
  ts := Run.notify cfg s.ts
  watch :=
    match s.ts.held with
    | none => s.watch
    | some h =>
      { toldAll clock cfg ((h.sections.current.zip s.watch.held).drop s.ts.info.sections.current.length).reverse s.watch with
        held := [] }

/-- As `Run.arrive` (src/snitch_test_data.cpp 42-46, src/snitch_section.cpp 73-77, src/snitch_capture.cpp 94-98). -/
def arrive (clock : Nat → Nat) (cfg : Cfg) : Bool → Timed → Timed
  | false, s => notify clock cfg s
  | true, s => s

/-- As `Run.hold` (src/snitch_section.cpp 18-24, src/snitch_test_data.cpp 55-62, src/snitch_capture.cpp 24-31): the copy of
the sections includes their `start_time`. -/
def hold (unwinding : Bool) (s : Timed) : Timed where
  ts := Run.hold unwinding s.ts
  watch := if unwinding && s.ts.held.isNone then { s.watch with held := s.watch.starts } else s.watch

/-- As `Run.checkEnter` (src/snitch_test_data.cpp 39-50). -/
def checkEnter (clock : Nat → Nat) (cfg : Cfg) (flight : Bool) (loc : Nat) (s : Timed) : Outcome Timed := do
  let s ← liftOk (pushLocation cfg (loc, .inCheck)) (arrive clock cfg flight s)
  return lift (setInCheck true) s

/-- As `Run.checkLeave` (src/snitch_test_data.cpp 52-65). -/
def checkLeave (unwinding : Bool) (s : Timed) : Outcome Timed :=
  liftOk popLocation (hold unwinding (lift (setInCheck false) s))

/-- As `Run.endCheck`: the end of the scope of a check (src/snitch_test_data.cpp 52-65). -/
def endCheck (flight : Bool) (r : Res) (s : Timed) : Outcome (Timed × Res) := do
  let s ← checkLeave (flight || decide (r ≠ .normal)) s
  return (s, r)

/-- What a macro reports once its operand has been evaluated, if it reports something: whether it is a success, the text,
whether `notify_exception_handled` is called afterwards, and whether the test is aborted on failure
(snitch_macros_check.hpp 15-58, 84-93; snitch_macros_exceptions.hpp 13-126). -/
def report : Ask → Option Exn → Option (Bool × Text × Bool × Bool)
  | .check _ _ _, some _ => none
  | .check ok abort data, none => some (ok, data, false, abort)
  | .throwsAs _ name abort, none => some (false, name ++ " expected but no exception thrown".toList, false, abort)
  | .throwsAs type name abort, some e =>
    if e.types.contains type then some (true, name ++ " was thrown as expected".toList, true, abort)
    else some (false, otherMessage (name ++ " expected but other std::exception thrown; message: ".toList)
      (name ++ " expected but other unknown exception thrown".toList) e, true, abort)
  | .throwsMatches _ name _ _ abort, none =>
    some (false, name ++ " expected but no exception thrown".toList, false, abort)
  | .throwsMatches type name matched desc abort, some e =>
    if e.types.contains type then
      if matched then some (true, joined ("caught ".toList ++ name ++ " matched expected content: ".toList) desc, true, abort)
      else some (false, joined ("could not match caught ".toList ++ name ++ " with expected content: ".toList) desc, true, abort)
    else some (false, otherMessage (name ++ " expected but other std::exception thrown; message: ".toList)
      (name ++ " expected but other unknown exception thrown".toList) e, true, abort)
  | .nothrow text abort, none => some (true, text ++ " did not throw".toList, false, abort)
  | .nothrow text abort, some e =>
    some (false, otherMessage ("expected ".toList ++ text ++ " not to throw but it threw a std::exception; message: ".toList)
      ("expected ".toList ++ text ++ " not to throw but it threw an unknown exception".toList) e, true, abort)

/-- As `Run.answer` (snitch_macros_check.hpp 15-58, 84-93; snitch_macros_exceptions.hpp 13-126). -/
def answer (clock : Nat → Nat) (cfg : Cfg) (flight : Bool) (ask : Ask) (ev : Option Exn) (s : Timed) :
    Outcome (Timed × Res) :=
  match report ask ev with
  | none => endCheck flight (match ev with | some e => .raised e | none => .normal) s
  | some (ok, data, notifies, abort) =>
    let s := lift (reportAssertion cfg flight ok data) s
    endCheck flight (if ok then .normal else maybeAbort abort) (if notifies then notify clock cfg s else s)

/-- As `Run.execStmt` (snitch_macros_check.hpp 15-100, snitch_macros_exceptions.hpp 13-130, src/snitch_test_data.cpp 70-86). -/
def execStmt (clock : Nat → Nat) (cfg : Cfg) (flight : Bool) (m : Stmt) (s : Timed) : Outcome (Timed × Res) :=
  match m.asks with
  | some (loc, ask, ev) => do
    let s ← checkEnter clock cfg flight loc s
    answer clock cfg flight ask ev s
  | none =>
    match m with
    | .act a => .ok (lift (fun s => { s with log := s.log ++ [.user a] }) s, .normal)
    | .throw e => .ok (s, .raised e)
    | .skip loc abort msg => do
      let s ← checkEnter clock cfg flight loc s
      endCheck flight (maybeAbort abort) (lift (reportSkipped cfg msg) s)
    | _ => .ok (notify clock cfg s, .normal)

/-- As `Run.enterSection` (src/snitch_section.cpp 72-143): the clock is read whenever the section is entered, for the first
time or again (122-131). -/
def enterSection (clock : Nat → Nat) (cfg : Cfg) (flight : Bool) (id loc : Nat) (s : Timed) : Outcome (Timed × Bool) := do
  let s := arrive clock cfg flight s
  let x ← ensureLevel cfg s.ts.info.sections
  let (ts, entered) ← enterLevel cfg id loc x s.ts
  let w := s.watch
  return ({ ts := ts, watch := if entered then
    { w with starts := w.starts ++ [clock w.reads], reads := w.reads + 1, marks := w.marks ++ [.entered id (clock w.reads)] }
    else w }, entered)

/-- As `Run.leaveEntered` (src/snitch_section.cpp 16-66): the event is told, with the times, only at the last entry and if
no exception is in flight. -/
def leaveEntered (clock : Nat → Nat) (cfg : Cfg) (unwinding : Bool) (s : Timed) : Outcome Timed := do
  let s := hold unwinding s
  let ts ← Run.leaveEntered cfg unwinding s.ts
  let w :=
    match (s.ts.info.sections.current.zip s.watch.starts).getLast? with
    | none => s.watch
    | some back => if (finishLevel s.ts.info.sections).2 && !unwinding then told clock cfg back s.watch else s.watch
  return { ts := ts, watch := { w with starts := w.starts.dropLast } }

/-- As `Run.leaveSection` (src/snitch_section.cpp 13-70). -/
def leaveSection (clock : Nat → Nat) (cfg : Cfg) (entered unwinding : Bool) (s : Timed) : Outcome Timed :=
  if entered then do
    let s ← leaveEntered clock cfg unwinding s
    return lift decDepth s
  else .ok (lift decDepth s)

/-- As `Run.addCaptures` (include/snitch/snitch_capture.hpp 29-47, src/snitch_capture.cpp 84-103). -/
def addCaptures (clock : Nat → Nat) (cfg : Cfg) (flight : Bool) : List Text → Timed → Outcome Timed
  | [], s => .ok s
  | c :: cs, s =>
    if s.ts.info.captures.length ≥ cfg.maxCaptures then .abort
    else addCaptures clock cfg flight cs (lift (pushCapture c) (arrive clock cfg flight s))

/-- As `Run.popCaptures` (src/snitch_capture.cpp 23-34). -/
def popCaptures (count : Nat) (unwinding : Bool) (s : Timed) : Outcome Timed := do
  let s := hold unwinding s
  let ts ← Run.popCaptures count false s.ts
  return { s with ts := ts }

/-- As `Run.exec`: executing a test body (src/snitch_registry.cpp 629). -/
def exec (clock : Nat → Nat) (cfg : Cfg) (flight : Bool) : Prog → Timed → Outcome (Timed × Res)
  | .done, s => .ok (s, .normal)
  | .stmt m k, s => do
    let (s, r) ← execStmt clock cfg flight m s
    match r with
    | .normal => exec clock cfg flight k s
    | .raised e => return (s, .raised e)
  | .sec id loc body k, s => do
    let (s, entered) ← enterSection clock cfg flight id loc s
    if entered then
      let (s, r) ← exec clock cfg flight body s
      let s ← leaveSection clock cfg true (flight || decide (r ≠ .normal)) s
      match r with
      | .normal => exec clock cfg flight k s
      | .raised e => return (s, .raised e)
    else
      let s ← leaveSection clock cfg false flight s
      exec clock cfg flight k s
  | .capture caps k, s => do
    let s ← addCaptures clock cfg flight caps s
    let (s, r) ← exec clock cfg flight k s
    let s ← popCaptures caps.length (flight || decide (r ≠ .normal)) s
    return (s, r)
  | .block body k, s => do
    let (s, r) ← exec clock cfg flight body s
    match r with
    | .normal => exec clock cfg flight k s
    | .raised e => return (s, .raised e)
  | .tryCatch type body handler k, s => do
    let (s, r) ← exec clock cfg flight body s
    match r with
    | .normal => exec clock cfg flight k s
    | .raised e =>
      if catches type e then
        let (s, r) ← exec clock cfg flight handler s
        match r with
        | .normal => exec clock cfg flight k s
        | .raised e => return (s, .raised e)
      else return (s, .raised e)
  | .nested loc operand ask k, s => do
    let s ← checkEnter clock cfg flight loc s
    let (s, r) ← exec clock cfg flight operand s
    let (s, r) ← answer clock cfg flight ask r.thrown s
    match r with
    | .normal => exec clock cfg flight k s
    | .raised e => return (s, .raised e)
  | .guard cleanup k, s => do
    let (s, r) ← exec clock cfg flight k s
    let (s, r') ← exec clock cfg (flight || decide (r ≠ .normal)) cleanup s
    match r' with
    | .normal => return (s, r)
    | .raised _ => .abort

/-- As `Run.clearFinished` (src/snitch_registry.cpp 631-639): the sections are cleared, with their `start_time`. -/
def clearFinished (s : Timed) : Timed where
  ts := Run.clearFinished s.ts
  watch :=
    match s.ts.info.sections.levels with
    | [child] => if child.prev = child.max then { s.watch with starts := [] } else s.watch
    | _ => s.watch

/-- As `Run.runLoop` (src/snitch_registry.cpp 621-641). -/
def runLoop (clock : Nat → Nat) (cfg : Cfg) (bodies : Nat → Prog) : Nat → Nat → Timed → Option (Outcome (Timed × Res))
  | 0, _, _ => none
  | fuel + 1, n, s =>
    match exec clock cfg false (bodies n) (lift resetPass s) with
    | .abort => some .abort
    | .ub => some .ub
    | .ok (s, .raised e) => some (.ok (s, .raised e))
    | .ok (s, .normal) =>
      let s := clearFinished s
      if !s.ts.info.sections.levels.isEmpty && decide (s.ts.state ≠ .skipped) then
        runLoop clock cfg bodies fuel (n + 1) s
      else some (.ok (s, .normal))

/-- As `Run.settle` (src/snitch_registry.cpp 658-662). -/
def settle (clock : Nat → Nat) (cfg : Cfg) (s : Timed) : Timed :=
  lift (setUnhandled false) (if s.ts.unhandled then notify clock cfg s else s)

/-- As `Run.afterLoop` (src/snitch_registry.cpp 643-662). -/
def afterLoop (clock : Nat → Nat) (cfg : Cfg) (s : Timed) (r : Res) : Timed :=
  settle clock cfg (lift (fun s => reportEnd cfg s r) s)

/-- A test that has been run: the test, its final state, the times between which it ran (src/snitch_registry.cpp 613-615, 674-676), what
the clock was read for in between, and how often it has been read since the program started. -/
structure Ran where
  test : TestCase
  ts : TS
  start : Nat
  stop : Nat
  marks : List Mark
  reads : Nat
  deriving DecidableEq, Repr

/-- As `Run.run` (src/snitch_registry.cpp 584-704), when the clock has been read `n` times: it is read before the first
execution (614) and after the last (675), at every verbosity. -/
def run (clock : Nat → Nat) (n : Nat) (cfg : Cfg) (fuel : Nat) (t : TestCase) : Option (Outcome Ran) :=
  match Filter.forEachTag cfg.maxTag t.id.tags with
  | .abort => some .abort
  | .ub => some .ub
  | .ok tags =>
    match runLoop clock cfg t.body.no fuel 0 { ts := initState cfg t tags, watch := { reads := n + 1 } } with
    | none => none
    | some .abort => some .abort
    | some .ub => some .ub
    | some (.ok (s, r)) =>
      let s := lift (checkShouldFail cfg) (afterLoop clock cfg s r)
      some (.ok
        { test := t
          ts := endCase cfg t s.ts
          start := clock n
          stop := clock s.watch.reads
          marks := s.watch.marks
          reads := s.watch.reads + 1 })

/-- What the loop over the tests leaves behind. -/
structure Acc where
  acc : Reg.Acc := {}
  tests : List Ran := []
  reads : Nat

/-- As `Reg.runEach` (src/snitch_registry.cpp 729-765). -/
def runEach (clock : Nat → Nat) (lim : Reg.Limits) (fuel : Nat) (pred : Filter.TestId → Outcome Bool) :
    List Reg.Case → Acc → Option (Outcome Acc)
  | [], a => some (.ok a)
  | c :: cs, a =>
    match pred c.test.id with
    | .abort => some .abort
    | .ub => some .ub
    | .ok false => runEach clock lim fuel pred cs { a with acc := { a.acc with cases := a.acc.cases ++ [c] } }
    | .ok true =>
      match run clock a.reads lim.cfg fuel c.test with
      | none => none
      | some .abort => some .abort
      | some .ub => some .ub
      | some (.ok r) =>
        runEach clock lim fuel pred cs
          { acc :=
              { cases := a.acc.cases ++ [{ c with state := r.ts.state }]
                totals := a.acc.totals.add r.ts
                log := a.acc.log ++ r.ts.log }
            tests := a.tests ++ [r]
            reads := r.reads }

/-- What a run tells (as `Reg.runSelected`), with its times (src/snitch_registry.cpp 725-727, 766-768), and the tests that
were run. -/
structure RunTimes where
  cases : List Reg.Case
  log : List Run.Event
  success : Bool
  start : Nat
  stop : Nat
  tests : List Ran

/-- As `Reg.runSelected` (src/snitch_registry.cpp 706-803), when the clock has been read `n` times. -/
def runSelected (clock : Nat → Nat) (n : Nat) (lim : Reg.Limits) (fuel : Nat) (pred : Filter.TestId → Outcome Bool)
    (cases : List Reg.Case) : Option (Outcome RunTimes) :=
  match runEach clock lim fuel pred cases { acc := { log := Reg.shown lim 1 .runStarted }, reads := n + 1 } with
  | none => none
  | some .abort => some .abort
  | some .ub => some .ub
  | some (.ok a) => some (.ok
    { cases := a.acc.cases
      log := a.acc.log ++ Reg.shown lim 1 a.acc.totals.event
      success := a.acc.totals.success
      start := clock n
      stop := clock a.reads
      tests := a.tests })

/-- `impl::tick_resolution(end - start)` (src/snitch_time.cpp 20): times are `std::size_t`, nanoseconds are `std::int64_t`. -/
def ticks (start stop : Nat) : Int :=
  let n : Nat := (stop + 2 ^ 64 - start) % 2 ^ 64
  if n < 2 ^ 63 then n else (n : Int) - 2 ^ 64

/-- src/snitch_time.cpp 18-22 `get_duration_in_seconds`: `std::chrono::duration_cast` to seconds of type `float` converts
number and denominator to `float`, then divides. Conversions and operations have the exact result, rounded by `rnd`. -/
def seconds (rnd : Rat → Rat) (start stop : Nat) : Rat := rnd (rnd (ticks start stop) / rnd 1000000000)

/-- src/snitch_reporter_teamcity.cpp 112-116 `make_duration`: `static_cast<std::size_t>(duration * 1e6f)`. The conversion drops
what is behind the point, and is undefined if the result is not a `std::size_t`. -/
def micros (rnd : Rat → Rat) (duration : Rat) : Outcome Nat :=
  let x := rnd (duration * rnd 1000000)
  if -1 < x ∧ x < 2 ^ 64 then .ok x.floor.toNat else .ub

end Verif.Timing
