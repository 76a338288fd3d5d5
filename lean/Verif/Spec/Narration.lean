import Verif.Spec.Document
import Verif.Spec.Console
import Verif.Spec.TeamCity
/-!
# Specification of what the console report and the TeamCity report say about a run
-/
namespace Verif.Events.Spec
open Verif.Report Verif.Report.Spec

/-- Something in the body of the test fails (or the exception that ends it counts as a failure), and the test should fail. -/
def failsAsExpected [Run.MessageLimit] (t : Run.TestCase) (tags : List Text) : Bool :=
  Run.Spec.hasTag tags "!shouldfail" && (Run.Spec.happens t).any Run.Spec.Item.isFailure

/-! ## Console -/

/-- How a failure in a test is introduced. The one failure of a test that should fail and does not is not expected. -/
def failureWord [Run.MessageLimit] (t : Run.TestCase) (tags : List Text) : Text :=
  if failsAsExpected t tags then "expected failure".toList
  else if Run.Spec.hasTag tags "!mayfail" then "allowed failure".toList
  else "failed".toList

/-- The lines about an assertion or a skip in a test: see `Report.Spec.Console.entry`. -/
def entryAt (kind : Text) (id : Id) (place : Place) (data : Data) : List Text :=
  Console.entry kind id ⟨place.sections.map (·.id), place.captures, place.loc, place.type⟩ data

/-- The lines about something that happens in a test. -/
def Heard.lines (id : Id) (failure : Text) : Heard → List Text
  | .enter sec => ["entering section: ".toList ++ sec.id.name ++ " at ".toList ++ Console.position sec.loc]
  | .leave sec => ["leaving section: ".toList ++ sec.id.name]
  | .assertion true place data => entryAt "passed".toList id place data
  | .assertion false place data => entryAt failure id place data
  | .skip place message => entryAt "skipped".toList id place (.message message)

/-- The lines about a test with the given tags that takes the given time, at verbosity `v`: from *high* on there is a line at its
start and at its end; in between, everything that is to be told, in the order in which it happens. -/
def testLines [Run.MessageLimit] (src : Source) (rl : Report.Limits) (v : Nat) (t : Run.TestCase) (tags : List Text)
    (duration : Text) : List Text :=
  (if 2 ≤ v then ["starting: ".toList ++ fullName (declared src t) ++ " at ".toList ++ Console.position (src.loc t.loc)]
    else []) ++
  (toldOf src v t tags).flatMap (Heard.lines (declared src t) (failureWord t tags)) ++
  (if 2 ≤ v then ["finished: ".toList ++ fullName (declared src t) ++
    if rl.timings then " (".toList ++ duration ++ "s)".toList else []] else [])

/-- How many of these tests end in this way. -/
def endings [Run.MessageLimit] (tags : Reg.Case → List Text) (st : Run.CaseState) (tests : List Reg.Case) : Nat :=
  (tests.filter fun c => Run.Spec.verdictOf c.test (tags c) = st).length

/-- The lines of a whole report about these tests (each with the time it takes): from *normal* on there are two lines at the start,
with the name of the program, and two at the end, with the result and the numbers of tests and assertions. -/
def reportLines [Run.MessageLimit] (src : Source) (rl : Report.Limits) (v : Nat) (name : Text) (tags : Reg.Case → List Text)
    (tests : List (Reg.Case × Text)) (success : Bool) (duration : Text) : List Text :=
  let cases := tests.map (·.1)
  (if 1 ≤ v then ["starting ".toList ++ name ++ " with snitch v".toList ++ rl.version, Console.rule] else []) ++
  tests.flatMap (fun p => testLines src rl v p.1.test (tags p.1) p.2) ++
  (if 1 ≤ v then [Console.rule, Console.summary rl success cases.length (endings tags .failed cases)
    (endings tags .skipped cases) (cases.map fun c => assertions c.test (tags c)).sum duration] else [])

/-! ## TeamCity -/

open TeamCity (Message assertionText suite)

/-- A message about a test: its kind, the test, and a text. -/
def about (kind : String) (id : Id) (key : String) (value : Text) : Message :=
  ⟨kind.toList, [("name".toList, fullName id), (key.toList, value)]⟩

/-- The message about something that happens in a test. Failures that are expected or allowed are told in the same way as
successes. -/
def Heard.message (id : Id) (counts : Bool) : Heard → Message
  | .enter sec => ⟨"blockOpened".toList, [("name".toList, sec.id.name), ("description".toList, sec.id.description)]⟩
  | .leave sec => ⟨"blockClosed".toList, [("name".toList, sec.id.name)]⟩
  | .assertion ok place data =>
    if !ok && counts then about "testFailed" id "message" (assertionText place.loc place.captures data)
    else about "testStdOut" id "out" (assertionText place.loc place.captures data)
  | .skip place message => about "testIgnored" id "message" (assertionText place.loc place.captures (.message message))

/-- The messages about a test with the given tags that takes so many microseconds. -/
def testMessages [Run.MessageLimit] (src : Source) (rl : Report.Limits) (v : Nat) (t : Run.TestCase) (tags : List Text)
    (micros : Nat) : List Message :=
  ⟨"testStarted".toList, [("name".toList, fullName (declared src t))]⟩ ::
  (toldOf src v t tags).map (Heard.message (declared src t)
    (!failsAsExpected t tags && !Run.Spec.hasTag tags "!mayfail")) ++
  [⟨"testFinished".toList, ("name".toList, fullName (declared src t)) ::
    if rl.timings then [("duration".toList, decimal micros)] else []⟩]

/-- The messages about a run. -/
def reportMessages [Run.MessageLimit] (src : Source) (rl : Report.Limits) (v : Nat) (name : Text) (filters : List Text)
    (tags : Reg.Case → List Text) (tests : List (Reg.Case × Nat)) : List Message :=
  ⟨"testSuiteStarted".toList, [("name".toList, suite name filters)]⟩ ::
  tests.flatMap (fun p => testMessages src rl v p.1.test (tags p.1) p.2) ++
  [⟨"testSuiteFinished".toList, [("name".toList, suite name filters)]⟩]

end Verif.Events.Spec
