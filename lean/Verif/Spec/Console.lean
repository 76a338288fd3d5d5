import Verif.Model.Console
import Verif.Spec.Xml
import Verif.Spec.Sections
/-!
# What the console report should say, and how to read it
-/
namespace Verif.Report.Spec.Console
open Verif Verif.Report.Console
open Verif.Report.Spec (decimal)

/-! ## The text -/

/-- What belongs to an entry is indented. -/
def indented (s : Text) : Text := "          ".toList ++ s

/-- How exact a location is. -/
def preposition : Run.LocType → Text
  | .exact => "at".toList
  | .sectionScope => "somewhere inside section at".toList
  | .testCaseScope => "somewhere inside test case at".toList
  | .inCheck => "somewhere inside check at".toList

/-- A location. -/
def position (loc : Location) : Text := loc.file ++ ":".toList ++ decimal loc.line

/-- A condition and its values: on one line unless one of them is long. -/
def dataLines : Data → List Text
  | .message m => [indented m]
  | .expression type expected actual =>
    let condition := type ++ "(".toList ++ expected ++ ")".toList
    if actual = [] then [indented condition]
    else if 64 < expected.length + type.length + 3 ∨ 64 < actual.length + 5 then
      [indented condition, indented ("got: ".toList ++ actual)]
    else [indented (condition ++ ", got: ".toList ++ actual)]

/-- The lines about an assertion or a skip: its kind and test case; the sections it is in, from the outermost to the
innermost; its location; the type, if the test case has one; the captures; what it is. -/
def entry (kind : Text) (id : Id) (place : Place) (data : Data) : List Text :=
  [kind ++ ": running test case \"".toList ++ id.name ++ "\"".toList] ++
    place.sections.map (fun s => indented ("in section \"".toList ++ s.name ++ "\"".toList)) ++
    [indented (preposition place.type ++ " ".toList ++ position place.loc)] ++
    (if id.type = [] then [] else [indented ("for type ".toList ++ id.type)]) ++
    place.captures.map (fun c => indented ("with ".toList ++ c)) ++ dataLines data

/-- The kind of a failure. -/
def failureKind (expected allowed : Bool) : Text :=
  if expected then "expected failure".toList
  else if allowed then "allowed failure".toList
  else "failed".toList

/-- The last line. -/
def summary (lim : Limits) (success : Bool) (run fail skip asserts : Nat) (duration : Text) : Text :=
  (if success then
    "success: all tests passed (".toList ++ decimal run ++ " test cases, ".toList ++ decimal asserts ++
      " assertions".toList
  else
    "error: ".toList ++ (if fail = run then "all".toList else "some".toList) ++ " tests failed (".toList ++
      decimal fail ++ " out of ".toList ++ decimal run ++ " test cases, ".toList ++ decimal asserts ++
      " assertions".toList) ++
  (if skip = 0 then [] else ", ".toList ++ decimal skip ++ " test cases skipped".toList) ++
  (if lim.timings then ", ".toList ++ duration ++ " seconds".toList else []) ++ ")".toList

/-- A line between the run and what is around it. -/
def rule : Text := "==========================================".toList

/-- The lines about an event; `n` tests have been listed before. -/
def told (lim : Limits) (n : Nat) : Console.Event → List Text
  | .runStarted name => ["starting ".toList ++ name ++ " with snitch v".toList ++ lim.version, rule]
  | .runEnded success run fail skip asserts duration => [rule, summary lim success run fail skip asserts duration]
  | .caseStarted id loc => ["starting: ".toList ++ Spec.fullName id ++ " at ".toList ++ position loc]
  | .caseEnded id duration =>
    ["finished: ".toList ++ Spec.fullName id ++ if lim.timings then " (".toList ++ duration ++ "s)".toList else []]
  | .sectionStarted id loc => ["entering section: ".toList ++ id.name ++ " at ".toList ++ position loc]
  | .sectionEnded id => ["leaving section: ".toList ++ id.name]
  | .caseSkipped id place message => entry "skipped".toList id place (.message message)
  | .assertionFailed id place data expected allowed => entry (failureKind expected allowed) id place data
  | .assertionSucceeded id place data => entry "passed".toList id place data
  | .listStarted => ["Matching test cases:".toList]
  | .listEnded => [decimal n ++ " matching test cases".toList]
  | .listed id => ("  ".toList ++ Spec.fullName id) :: if id.tags = [] then [] else ["      ".toList ++ id.tags]

/-- The number of tests listed. -/
def listedAfter (n : Nat) : Console.Event → Nat
  | .listStarted => 0
  | .listed _ => n + 1
  | _ => n

/-- The lines about a sequence of events. -/
def toldAll (lim : Limits) : Nat → List Console.Event → List Text
  | _, [] => []
  | n, e :: es => told lim n e ++ toldAll lim (listedAfter n e) es

/-- Lines as a text. -/
def unlines (ls : List Text) : Text := ls.flatMap fun l => l ++ ['\n']

/-! ## Reading -/

/-- The lines of a text (what follows the last line break is dropped). -/
def linesFrom (acc : Text) : Text → List Text
  | [] => []
  | c :: cs => if c = '\n' then acc :: linesFrom [] cs else linesFrom (acc ++ [c]) cs

def lines (s : Text) : List Text := linesFrom [] s

/-- The name of the test case if the line begins the entry of a failure. -/
def failureIn (line : Text) : Option Text :=
  let start := "failed: running test case \"".toList
  if start <+: line ∧ line.getLast? = some '"' then some (line.drop start.length).dropLast else none

/-- The failures in a report. -/
def failures (out : Text) : List Text := (lines out).filterMap failureIn

/-- The name of the test case if the event is a failure that was neither expected nor allowed. -/
def failedName : Console.Event → Option Text
  | .assertionFailed id _ _ false false => some id.name
  | _ => none

/-- Removing colours: from an escape character to the next letter `m`. -/
def stripFrom : Bool → Text → Text
  | _, [] => []
  | false, c :: cs => if c = '\x1b' then stripFrom true cs else c :: stripFrom false cs
  | true, c :: cs => if c = 'm' then stripFrom false cs else stripFrom true cs

def strip (s : Text) : Text := stripFrom false s

/-- The codes for starting colours. -/
def starts : List Text :=
  ["\x1b[1;31m".toList, "\x1b[1;32m".toList, "\x1b[1;33m".toList, "\x1b[1;35m".toList, "\x1b[1;36m".toList]

/-- Every colour is ended before another one is started, and before the end. -/
inductive Closed : Text → Prop where
  | nil : Closed []
  | plain {c s} : c ≠ '\x1b' → Closed s → Closed (c :: s)
  | colored {code s r} : code ∈ starts → '\x1b' ∉ s → Closed r → Closed (code ++ s ++ "\x1b[0m".toList ++ r)

/-! ## Texts the reporter can handle -/

/-- The texts of an expression or message. -/
def dataTexts : Data → List Text
  | .message m => [m]
  | .expression type expected actual => [type ++ "(".toList ++ expected ++ ")".toList, actual]

def placeTexts (id : Id) (place : Place) : List Text :=
  [id.name, id.type] ++ place.sections.map (·.name) ++ place.captures

/-- The texts that are printed in colour. -/
def coloredTexts : Console.Event → List Text
  | .runStarted name => [name]
  | .runEnded .. => []
  | .caseStarted id _ => [Spec.fullName id]
  | .caseEnded id _ => [Spec.fullName id]
  | .sectionStarted id _ => [id.name]
  | .sectionEnded id => [id.name]
  | .caseSkipped id place message => message :: placeTexts id place
  | .assertionFailed id place data _ _ => placeTexts id place ++ dataTexts data
  | .assertionSucceeded id place data => placeTexts id place ++ dataTexts data
  | .listStarted => []
  | .listEnded => []
  | .listed _ => []

/-- The texts that are printed as they are. -/
def plainTexts : Console.Event → List Text
  | .runEnded _ _ _ _ _ duration => [duration]
  | .caseStarted _ loc => [loc.file]
  | .caseEnded _ duration => [duration]
  | .sectionStarted _ loc => [loc.file]
  | .caseSkipped _ place _ => [place.loc.file]
  | .assertionFailed _ place _ _ _ => [place.loc.file]
  | .assertionSucceeded _ place _ => [place.loc.file]
  | .listed id => [Spec.fullName id, id.tags]
  | _ => []

/-- The numbers that are printed. -/
def numbers : Console.Event → List Nat
  | .runEnded _ run fail skip asserts _ => [run, fail, skip, asserts]
  | .caseStarted _ loc => [loc.line]
  | .sectionStarted _ loc => [loc.line]
  | .caseSkipped _ place _ => [place.loc.line]
  | .assertionFailed _ place _ _ _ => [place.loc.line]
  | .assertionSucceeded _ place _ => [place.loc.line]
  | _ => []

/-- The names that are put together. -/
def fullNames : Console.Event → List Text
  | .caseStarted id _ => [Spec.fullName id]
  | .caseEnded id _ => [Spec.fullName id]
  | .listed id => [Spec.fullName id]
  | _ => []

/-- The durations that are printed. -/
def durations : Console.Event → List Text
  | .runEnded _ _ _ _ _ duration => [duration]
  | .caseEnded _ duration => [duration]
  | _ => []

/-- The event can be told completely: what is coloured fits in the buffer with its codes (of 11 characters). -/
structure EventOk (lim : Limits) (e : Console.Event) : Prop where
  colored : ∀ t ∈ coloredTexts e, t.length + 11 ≤ lim.message
  number : ∀ n ∈ numbers e, n < 2 ^ 64
  name : ∀ t ∈ fullNames e, t.length ≤ lim.name
  duration : ∀ t ∈ durations e, t.length ≤ lim.message

/-- No text of the event has the character. -/
def Without (lim : Limits) (c : Char) (e : Console.Event) : Prop :=
  c ∉ lim.version ∧ (∀ t ∈ coloredTexts e, c ∉ t) ∧ ∀ t ∈ plainTexts e, c ∉ t

/-- Limits for which the arithmetic does not wrap, and the fixed texts fit in the buffer. -/
def LimitsOk (lim : Limits) : Prop :=
  lim.message + 3 < 2 ^ 64 ∧ lim.name + 3 < 2 ^ 64 ∧ 32 ≤ lim.message ∧ lim.version.length + 20 ≤ lim.message

/-! ## From the events of a run to the events the reporter is given -/

/-- A place that belongs to what the model of running tests knows about it. -/
def At (ctx : Run.Ctx) (place : Place) : Prop :=
  place.sections.length = ctx.path.length ∧ place.captures = ctx.caps ∧ place.type = ctx.locType

/-- The reporter events that belong to an event of the run, in the test case `id`. Names of sections, locations,
texts of assertions and durations can be any, since the model of running tests has none. -/
inductive Told (id : Id) : Run.Event → List Console.Event → Prop where
  | user (a : Nat) : Told id (.user a) []
  | sectionStarted (n : Nat) (sid : SectionId) (loc : Location) :
      Told id (.sectionStarted n) [.sectionStarted sid loc]
  | sectionEnded (n : Nat) (skipped : Bool) (a f al : Nat) (sid : SectionId) :
      Told id (.sectionEnded n skipped a f al) [.sectionEnded sid]
  | assertionSucceeded {ctx : Run.Ctx} (t : Text) {place : Place} (data : Data) : At ctx place →
      Told id (.assertionSucceeded ctx t) [.assertionSucceeded id place data]
  | assertionFailed {ctx : Run.Ctx} (t : Text) (ex al : Bool) {place : Place} (data : Data) : At ctx place →
      Told id (.assertionFailed ctx t ex al) [.assertionFailed id place data ex al]
  | caseSkipped {ctx : Run.Ctx} (m : Text) {place : Place} : At ctx place →
      Told id (.caseSkipped ctx m) [.caseSkipped id place m]
  | caseStarted (loc : Location) : Told id (.caseStarted ⟨id.name, id.tags, id.type⟩) [.caseStarted id loc]
  | caseEnded (a f al : Nat) (st : Run.CaseState) (d : Text) :
      Told id (.caseEnded ⟨id.name, id.tags, id.type⟩ a f al st) [.caseEnded id d]

/-- The reporter events of a log, in the test case `id`. -/
inductive ToldLog (id : Id) : List Run.Event → List Console.Event → Prop where
  | nil : ToldLog id [] []
  | cons {e es log events} : Told id e es → ToldLog id log events → ToldLog id (e :: log) (es ++ events)

/-- The reporter events of several test cases, given their names, tags, types, and logs. -/
inductive ToldCases : List (Filter.TestId × List Run.Event) → List Console.Event → Prop where
  | nil : ToldCases [] []
  | cons {id : Id} {log rest es events} : ToldLog id log es → ToldCases rest events →
      ToldCases ((⟨id.name, id.tags, id.type⟩, log) :: rest) (es ++ events)

/-- The reporter events of a run, with or without its start and its end. -/
inductive ToldRun (parts : List (Filter.TestId × List Run.Event)) :
    List Run.Event → List Console.Event → Prop where
  | quiet {es} : ToldCases parts es → ToldRun parts (parts.flatMap (·.2)) es
  | framed {es} (name : Text) (run fail allowedFail skip a f al : Nat) (success : Bool) (duration : Text) :
      ToldCases parts es → ToldRun parts
        ([.runStarted] ++ parts.flatMap (·.2) ++ [.runEnded run fail allowedFail skip a f al success])
        ([.runStarted name] ++ es ++ [.runEnded success run fail skip a duration])

end Verif.Report.Spec.Console
