import Verif.Model.Whole
import Verif.Spec.Configure
import Verif.Spec.Registry
import Verif.Spec.Console
import Verif.Spec.TeamCity
import Verif.Spec.Xml
/-!
# What a test program shows, and where

The texts printed about the command line are those of Verif/Spec/Help.lean and Verif/Spec/Configure.lean.
-/
namespace Verif.Whole.Spec
open Verif Verif.Cli.Spec Verif.Configure.Spec

/-- In the end, `screen` is on the standard output. If there is a `file`, with a path and a text, it has been opened, the
text was written to it, and it was closed; there are no other files. -/
structure Shows (w : Output.State) (screen : Text) (file : Option (Text × Text)) : Prop where
  only : ∀ x ∈ w.others, x.1 = none
  text : (w.others.map (·.2)).flatten = screen
  file : match file with
    | none => w.files.calls = []
    | some (path, text) => ∃ texts : List Text,
        w.files.calls = [.opened 0 path] ++ texts.map (.written 0) ++ [.closed 0] ∧ texts.flatten = text

/-- The output file asked for, if any, can be opened, and its path is a C string that is not too long. -/
def Writable (maxPath : Nat) (opens : Text → Bool) (ts : List Token) : Prop :=
  ∀ path, given "--out" ts = some path → opens path = true ∧ path.length ≤ maxPath ∧ '\x00' ∉ path

/-- What the options on the command line do: settings, reporter chosen, and warnings. -/
def settled (p : Program) (ts : List Token) : Configure.Settings Unit × Option Nat × Text :=
  configured p.rl.message (p.reporters.map fun r => r.2.reporter r.1) (given "--colour-mode" ts) (given "--color" ts)
    (given "--verbosity" ts) (given "--out" ts) (given "--reporter" ts) ⟨p.color, p.verbosity, ()⟩

/-- Whether messages about the command line are in colour. -/
def earlyColor (p : Program) (ts : List Token) : Bool :=
  (asks "ansi" "none" (given "--colour-mode" ts)).getD ((asks "always" "never" (given "--color" ts)).getD p.color)

/-- Everything printed about a command line that is not refused: arguments that are not known, and what there is to say
about the values of options. -/
def remarks (p : Program) (argv : List Text) (ts : List Token) : Text :=
  (complaints [] argv).flatMap (complaintLine p.rl.message (earlyColor p ts)) ++ (settled p ts).2.2

/-- The reporter in use: the console reporter, unless another one was chosen. -/
def kindFor (p : Program) (ts : List Token) : Kind :=
  match choice (p.reporters.map (·.1)) (given "--reporter" ts) with
  | none => .console
  | some i => match p.reporters[i]? with
    | none => .console
    | some r => r.2

/-- The verbosity: the one asked for, but at least *high* for the TeamCity and XML reporters. -/
def verbosityIn (p : Program) (ts : List Token) : Nat :=
  let asked := (verbosityOf (given "--verbosity" ts)).getD p.verbosity
  if kindFor p ts = .console then asked else max 2 asked

/-- The limits on texts allow for the messages of the program. -/
structure Roomy (p : Program) : Prop where
  message : p.rl.message + 3 < 2 ^ 64
  version : p.rl.version.length + 128 ≤ p.rl.message
  path : p.maxPath + 1 < 2 ^ 64

/-- Where the report goes: to the standard output, after the remarks, or to the file. -/
def Delivered (p : Program) (argv : List Text) (ts : List Token) (report : Text) (w : Output.State) : Prop :=
  match given "--out" ts with
  | none => Shows w (remarks p argv ts ++ report) none
  | some path => Shows w (remarks p argv ts) (some (path, report))

/-- What is printed on the standard output whatever `--out` says; the file stays empty. -/
def Announced (p : Program) (argv : List Text) (ts : List Token) (text : Text) (w : Output.State) : Prop :=
  Shows w (remarks p argv ts ++ text) ((given "--out" ts).map fun path => (path, []))

/-- What the options ask for. -/
inductive Request where
  | help
  | testsWithTag (tag : Text)
  | tags
  | reporters
  | tests
  | run
deriving DecidableEq, Repr

/-- What is done: if several things are asked for, only the first of this list. -/
def request (ts : List Token) : Request :=
  if "--help".toList ∈ optionNames ts then .help
  else match given "--list-tests-with-tag" ts with
    | some tag => .testsWithTag tag
    | none =>
      if "--list-tags".toList ∈ optionNames ts then .tags
      else if "--list-reporters".toList ∈ optionNames ts then .reporters
      else if "--list-tests".toList ∈ optionNames ts then .tests
      else .run

/-- Which tests are listed: those with all the tags of an expression, and those with any tag if it is empty; those that the
filters select; without filters all, also hidden ones. -/
def Listed (ts : List Token) (test : Verif.Spec.Test) : Prop :=
  match request ts with
  | .testsWithTag tag => (tag = [] → Verif.Spec.visibleTags test.tags ≠ []) ∧
      ∀ g ∈ Verif.Spec.tagGroups tag, Verif.Spec.Accepts g (Verif.Spec.visibleTags test.tags)
  | _ => positionalsOf ts = [] ∨ Verif.Spec.Selected (positionalsOf ts) test

open Verif.Report.Spec in
/-- The names of the tests, and what else the reporter tells about a test in a list, fit in its buffers. -/
def Listable (rl : Report.Limits) (k : Kind) (tests : List (Report.Id × Report.Location)) : Prop :=
  match k with
  | .console => Console.LimitsOk rl ∧ (∀ t ∈ tests, (fullName t.1).length ≤ rl.name) ∧ tests.length + 2 < 2 ^ 64
  | .teamcity => TeamCity.LimitsOk rl ∧ ∀ t ∈ tests, TeamCity.Short rl.name (fullName t.1)
  | .xml => LimitsOk rl ∧ ∀ t ∈ tests, EventOk rl (.listed t.1 t.2)

open Verif.Report.Spec in
/-- The list of tests as each reporter writes it. Console: a line with the name and, if it has tags, one with the tags, and
at the end the number of tests. TeamCity: a line with the name, escaped as in messages. XML: a document with an element for
each test. -/
def Lists (k : Kind) (tests : List (Report.Id × Report.Location)) (report : Text) : Prop :=
  match k with
  | .console => report = Console.unlines (["Matching test cases:".toList] ++
      (tests.flatMap (fun t => ("  ".toList ++ fullName t.1) ::
        if t.1.tags = [] then [] else ["      ".toList ++ t.1.tags]) ++
      [decimal tests.length ++ " matching test cases".toList]))
  | .teamcity => report = Console.unlines (tests.map fun t => (fullName t.1).flatMap TeamCity.coded)
  | .xml => document report = some (.elem "MatchingTests".toList [] (tests.map fun t => listedNode t.1 t.2))

end Verif.Whole.Spec

namespace Verif.Whole

/-- The configuration at the start, as in Verif/Model/Cli.lean. -/
def config (p : Program) : Cli.Config := ⟨p.color, p.verbosity, none, none, 0⟩

/-- What `initialize` of the reporters does to the verbosity, as in Verif/Model/Registry.lean. -/
def init (p : Program) (i v : Nat) : Nat :=
  match p.reporters[i]? with
  | none => v
  | some r => if r.2 = .console then v else if v < 2 then 2 else v

end Verif.Whole
