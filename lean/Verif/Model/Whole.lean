import Verif.Model.Events
import Verif.Model.Xml
import Verif.Model.TeamCity
import Verif.Model.Configure
import Verif.Model.Output
/-!
# Model of a test program as a whole

Source: src/snitch_main.cpp 7-27, src/snitch_registry.cpp 805-912, 1031-1071, 1073-1121,
include/snitch/snitch_registry.hpp 110-164.

From the arguments of the program to what is on the standard output, what is in the output file, and the exit status.
The parts are modelled elsewhere: reading the command line (Cli, Help), the settings (Configure), running and listing
tests (Events), the reporters (Console, TeamCity, Xml) and the output (Output). Here they are put together: what a reporter
prints goes through `print_callback`, and what `cli::print` prints goes to the standard output.
-/
namespace Verif.Whole
open Verif
variable [Run.MessageLimit]

/-- The reporters that come with the framework: src/snitch_reporter_console.cpp 218, src/snitch_reporter_teamcity.cpp
181-186, src/snitch_reporter_catch2_xml.cpp 286. -/
inductive Kind where
  | console
  | teamcity
  | xml
deriving DecidableEq, Repr

/-- The two functions of a registered reporter used by `configure` (Verif/Model/Configure.lean). -/
def Kind.reporter (k : Kind) (name : Text) : Configure.Reporter Unit :=
  match k with
  | .console => Configure.console name
  | .teamcity => Configure.noOptions name
  | .xml => Configure.noOptions name

/-- A test program: the configuration of the framework (`rl`, `lim`, `maxArgs`, `maxPath` and the initial colours and
verbosity, include/snitch/snitch_registry.hpp 150-151), the reporters in the order of their registration, and the tests.
(Simplified: only the reporters that come with the framework, and a `main` that does nothing else, as
src/snitch_main.cpp 8-20.) -/
structure Program where
  rl : Report.Limits
  lim : Reg.Limits
  maxArgs : Nat
  maxPath : Nat
  color : Bool
  verbosity : Nat
  reporters : List (Text × Kind)
  src : Events.Source
  cases : List Reg.Case

/-- The state of the reporter in use, with everything it has printed. -/
inductive Device where
  | console (st : Report.Console.State)
  | teamcity (rep : Report.Rep)
  | xml (rep : Report.Rep)
deriving DecidableEq, Repr

/-- A new reporter: `initialize_reporter` (include/snitch/snitch_registry.hpp 130-133). -/
def Kind.new : Kind → Device
  | .console => .console {}
  | .teamcity => .teamcity {}
  | .xml => .xml {}

/-- What the reporter has printed. -/
def Device.out : Device → Text
  | .console st => st.out
  | .teamcity rep => rep.out
  | .xml rep => rep.out

/-- `report_callback` (include/snitch/snitch_registry.hpp 135-138, 146, src/snitch_registry.cpp 341-349): the event is
passed to the reporter in use. -/
def Device.report (rl : Report.Limits) (color : Bool) (d : Device) (e : Events.Event) : Outcome Device :=
  match d with
  | .console st => do return .console (← Report.Console.report rl color st e.console)
  | .teamcity rep => do return .teamcity (← Report.TeamCity.report rl rep e.report)
  | .xml rep => do return .xml (← Report.Xml.report rl rep e.report)

/-- src/snitch_cli.cpp 397 `console_print`, which `cli::print` uses: the standard output, whatever the
`print_callback` of the registry. -/
def onScreen (t : Text) (w : Output.State) : Output.State := { w with others := w.others ++ [(none, t)] }

/-- src/snitch_registry.cpp 1031-1071 `registry::configure`: settings and warnings, and the output file. (Simplified: the
warnings are put on the standard output before the file is opened.) `opens` says which files can be opened. -/
def prepare (p : Program) (opens : Text → Bool) (args : Cli.Input) (w : Output.State) :
    Outcome (Configure.State Unit × Output.State) := do
  let st ← Configure.configure (p.reporters.map fun r => r.2.reporter r.1) args
    { settings := ⟨p.color, p.verbosity, ()⟩ }
  let said ← Configure.sayEach p.rl.message st.said
  let w := onScreen said w
  let w ← match st.out with
    | none => .ok w
    | some path => Output.configureOut p.maxPath path (opens path) w
  return (st, w)

/-- src/snitch_registry.cpp 914-990: the reporter in use is the one chosen, or the default, which is the console reporter
(include/snitch/snitch_registry.hpp 160, src/snitch_registry.cpp 341-349). -/
def kindOf (p : Program) (chosen : Option Nat) : Outcome Kind :=
  match chosen with
  | none => .ok .console
  | some i => match p.reporters[i]? with
    | none => .ub
    | some r => .ok r.2

/-- What the program shows, put out in order: src/snitch_registry.cpp 100-113, 706-803 (events), 1098-1100 and
1113-1117 (lines), 815-818 (help). What the reporter prints for an event goes to `print_callback` (simplified: in one
piece). A line is printed by `cli::print`, with its line break; the brackets of a tag are part of the line. -/
def put (p : Program) (color : Bool) (name : Text) : List Events.Out → Device → Output.State → Outcome Output.State
  | [], _, w => .ok w
  | .event e :: os, d, w => do
    let d' ← d.report p.rl color e
    let w ← Output.print p.maxPath (d'.out.drop d.out.length) w
    put p color name os d' w
  | .line s :: os, d, w => do
    let t ← Cli.say p.rl.message [.str s, Cli.str "\n"]
    put p color name os d (onScreen t w)
  | .help :: os, d, w => do
    let t ← Cli.printHelp p.rl.message color p.rl.version name
    put p color name os d (onScreen t w)

/-- src/snitch_registry.cpp 901-912 `run_tests`, after `run_tests_impl`: everything is put out, and the file is closed.
(`finish_callback` destroys the reporter, which prints nothing: src/snitch_registry.cpp 337-339.) -/
def finish (p : Program) (st : Configure.State Unit) (name : Text) (out : List Events.Out) (success : Bool)
    (w : Output.State) : Outcome (Nat × Output.State) := do
  let kind ← kindOf p st.reporter
  let w ← put p st.settings.withColor name out kind.new w
  let w ← Output.endRun p.maxPath w
  return (if success then 0 else 1, w)

/-- src/snitch_main.cpp 8-20 `main`: exit status and output. `none`: some test did not end within `fuel` executions. -/
def main (p : Program) (fuel : Nat) (opens : Text → Bool) (argv0 : Text) (argv : List Text) :
    Option (Outcome (Nat × Output.State)) :=
  match Cli.parseAndPrint p.rl.message p.maxArgs p.color p.rl.version argv0 argv with
  | .abort => some .abort
  | .ub => some .ub
  | .ok (said, none) => some (.ok (1, onScreen said {}))
  | .ok (said, some args) =>
    match prepare p opens args (onScreen said {}) with
    | .abort => some .abort
    | .ub => some .ub
    | .ok (st, w) =>
      match Events.runTests p.src { p.lim with cfg := { p.lim.cfg with verbosity := st.settings.verbosity } } fuel
          (p.reporters.map (·.1)) args p.cases with
      | none => none
      | some .abort => some .abort
      | some .ub => some .ub
      | some (.ok (_, out, success)) => some (finish p st args.executable out success w)

end Verif.Whole
