import Verif.Spec.Telling
import Verif.Spec.Whole
/-!
# The texts in the source of a test program
-/
namespace Verif.Whole.Spec
open Verif Verif.Report Verif.Report.Spec Verif.Events Verif.Events.Spec

/-- Conditions on texts: on the identity of a test, on the names of a section, on the name of a source file, on a duration,
on a captured text, on the message of a skip, and on what an assertion shows. -/
structure Conditions where
  test : Id → Prop
  section' : SectionId → Prop
  file : Text → Prop
  duration : Text → Prop
  capture : Text → Prop
  skip : Text → Prop
  data : Data → Prop

/-- The captures at an assertion or skip. -/
def capturesAt : Run.Spec.Item → List Text
  | .assertion _ ctx _ => ctx.caps
  | .skip ctx _ => ctx.caps
  | _ => []

/-- Every text in the source of the program meets the condition for it. Captures, messages and assertions are those that occur
in what happens in the tests. -/
structure Meets [Run.MessageLimit] (p : Program) (tags : Reg.Case → List Text) (k : Conditions) : Prop where
  test : ∀ c ∈ p.cases, k.test (declared p.src c.test)
  section' : ∀ n, k.section' (p.src.sec n).id
  file : ∀ n, k.file (p.src.loc n).file
  sectionFile : ∀ n, k.file (p.src.sec n).loc.file
  duration : ∀ n, k.duration (p.src.duration n).text
  capture : ∀ c ∈ p.cases, ∀ x ∈ storyOf c.test (tags c), ∀ t ∈ capturesAt x, k.capture t
  skip : ∀ c ∈ p.cases, ∀ ctx m, .skip ctx m ∈ storyOf c.test (tags c) → k.skip m
  data : ∀ c ∈ p.cases, ∀ ok ctx d, .assertion ok ctx d ∈ storyOf c.test (tags c) → k.data (p.src.data ctx d)

/-- Line numbers, durations and numbers of tests and assertions are of type `std::size_t`. (Nothing is said about texts.) -/
structure Countable [Run.MessageLimit] (p : Program) (tags : Reg.Case → List Text) : Prop where
  lines : ∀ n, (p.src.loc n).line < 2 ^ 64
  sections : ∀ k, (p.src.sec k).loc.line < 2 ^ 64
  durations : ∀ n, (p.src.duration n).micros < 2 ^ 64
  tests : p.cases.length < 2 ^ 64
  assertions : (p.cases.map fun c => assertions c.test (tags c)).sum < 2 ^ 64
  names : p.rl.name + 3 < 2 ^ 64

/-- The name of a program, from the path it is started with. -/
def IsNameOf (argv0 name : Text) : Prop := ∃ file, Cli.Spec.IsFileName argv0 file ∧ Cli.Spec.IsStem file name

/-- For the console reporter: a text, with colour codes, fits in a message. -/
def consoleConditions (rl : Report.Limits) : Conditions where
  test id := (fullName id).length + 11 ≤ rl.message ∧ (fullName id).length ≤ rl.name
  section' s := s.name.length + 11 ≤ rl.message
  file _ := True
  duration d := d.length ≤ rl.message
  capture t := t.length + 11 ≤ rl.message
  skip t := t.length + 11 ≤ rl.message
  data d := ∀ t ∈ Console.dataTexts d, t.length + 11 ≤ rl.message

/-- For reports in colour: no text has an escape character. -/
def escapeFree : Conditions where
  test id := '\x1b' ∉ fullName id
  section' s := '\x1b' ∉ s.name
  file t := '\x1b' ∉ t
  duration t := '\x1b' ∉ t
  capture t := '\x1b' ∉ t
  skip t := '\x1b' ∉ t
  data d := ∀ t ∈ Console.dataTexts d, '\x1b' ∉ t

/-- For the TeamCity reporter: an escaped text fits in a message, and texts that it does not escape need no escaping. -/
def teamcityConditions (rl : Report.Limits) : Conditions where
  test id := TeamCity.Short rl.name (fullName id)
  section' s := TeamCity.Plain s.name ∧ TeamCity.Plain s.description
  file t := TeamCity.Short rl.message t
  duration _ := True
  capture t := TeamCity.Short rl.message t
  skip t := TeamCity.Short rl.message t
  data
    | .message m => TeamCity.Short rl.message m
    | .expression type expected actual =>
      TeamCity.Plain type ∧ TeamCity.Short rl.message expected ∧ TeamCity.Short rl.message actual

/-- For the XML reporter: the same with the characters that XML allows, and its escaping. -/
def xmlConditions (rl : Report.Limits) : Conditions where
  test id := Short rl.name (fullName id) ∧ Short rl.message id.tags
  section' s := Short rl.message s.name
  file t := Short rl.message t
  duration t := Plain t
  capture t := Short rl.message t
  skip t := Plain t
  data d := DataOk rl d

end Verif.Whole.Spec
