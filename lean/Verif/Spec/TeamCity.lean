import Verif.Model.Reporter
import Verif.Spec.Xml
/-!
# Reading TeamCity service messages, and what they should say

The reader accepts `##teamCity[name key='value' ...]` lines, with `|` as the escape character in values.
-/
namespace Verif.Report.Spec.TeamCity
open Verif

/-- A service message. -/
structure Message where
  name : Text
  args : List (Text × Text)
deriving DecidableEq, Repr

/-- What follows the escape character. -/
def unescape (c : Char) : Option Char :=
  if c = '|' then some '|' else if c = '\'' then some '\'' else if c = 'n' then some '\n'
  else if c = 'r' then some '\r' else if c = '[' then some '[' else if c = ']' then some ']' else none

/-- Where the reader is: in the fixed text at the start of a message (what is left of it), in the name of
the message, in a key, before the opening quote, in a value, after an escape character, after a value,
before the end of the line. -/
inductive Mode where
  | header (left : Text)
  | name (acc : Text)
  | key (name : Text) (args : List (Text × Text)) (acc : Text)
  | quote (name : Text) (args : List (Text × Text)) (key : Text)
  | value (name : Text) (args : List (Text × Text)) (key acc : Text)
  | escape (name : Text) (args : List (Text × Text)) (key acc : Text)
  | between (name : Text) (args : List (Text × Text))
  | newline (name : Text) (args : List (Text × Text))
deriving DecidableEq, Repr

def header : Text := "##teamCity[".toList

/-- The characters that names of messages and keys consist of. -/
def word (c : Char) : Bool := c.isAlpha

/-- Reading one character, having read the messages `ms`. -/
def step (ms : List Message) (m : Mode) (c : Char) : Option (List Message × Mode) :=
  match m with
  | .header [] => none
  | .header [h] => if c = h then some (ms, .name []) else none
  | .header (h :: hs) => if c = h then some (ms, .header hs) else none
  | .name acc =>
    if word c then some (ms, .name (acc ++ [c])) else if c = ' ' then some (ms, .key acc [] [])
    else if c = ']' then some (ms, .newline acc []) else none
  | .key n as acc =>
    if word c then some (ms, .key n as (acc ++ [c])) else if c = '=' then some (ms, .quote n as acc) else none
  | .quote n as k => if c = '\'' then some (ms, .value n as k []) else none
  | .value n as k acc =>
    if c = '\'' then some (ms, .between n (as ++ [(k, acc)])) else if c = '|' then some (ms, .escape n as k acc)
    else if c = '\n' ∨ c = '\r' ∨ c = '[' ∨ c = ']' then none else some (ms, .value n as k (acc ++ [c]))
  | .escape n as k acc => (unescape c).map fun d => (ms, .value n as k (acc ++ [d]))
  | .between n as =>
    if c = ' ' then some (ms, .key n as []) else if c = ']' then some (ms, .newline n as) else none
  | .newline n as => if c = '\n' then some (ms ++ [⟨n, as⟩], .header header) else none

/-- Reading a text. -/
def feed (ms : List Message) (m : Mode) : Text → Option (List Message × Mode)
  | [] => some (ms, m)
  | c :: cs => (step ms m c).bind fun r => feed r.1 r.2 cs

/-- The messages in a text that consists of messages only. -/
def messages (s : Text) : Option (List Message) :=
  match feed [] (.header header) s with
  | some (ms, m) => if m = .header header then some ms else none
  | none => none

/-! ## What should be said -/

/-- The application and the filters. -/
def suite (app : Text) (filters : List Text) : Text :=
  app ++ filters.flatMap fun f => " \"".toList ++ f ++ "\"".toList

/-- An assertion: where, with which captures, and what. -/
def assertionText (loc : Location) (captures : List Text) (data : Data) : Text :=
  loc.file ++ ":".toList ++ decimal loc.line ++ "\n".toList ++
    captures.flatMap (fun c => "with ".toList ++ c ++ "\n".toList) ++ "  ".toList ++
    match data with
    | .message m => m
    | .expression type expected actual =>
      type ++ "(".toList ++ expected ++ ")".toList ++
        if actual = [] then []
        else if 64 < expected.length + type.length + 3 ∨ 64 < actual.length + 5 then
          "\n  got: ".toList ++ actual
        else ", got: ".toList ++ actual

/-- The message an event is told as; listings are not told as messages. -/
def told (lim : Limits) : Event → List Message
  | .runStarted name filters => [⟨"testSuiteStarted".toList, [("name".toList, suite name filters)]⟩]
  | .runEnded name filters _ _ _ _ _ =>
    [⟨"testSuiteFinished".toList, [("name".toList, suite name filters)]⟩]
  | .caseStarted id _ => [⟨"testStarted".toList, [("name".toList, Spec.fullName id)]⟩]
  | .caseEnded id _ _ _ micros =>
    [⟨"testFinished".toList, ("name".toList, Spec.fullName id) ::
      if lim.timings then [("duration".toList, decimal micros)] else []⟩]
  | .sectionStarted id _ =>
    [⟨"blockOpened".toList, [("name".toList, id.name), ("description".toList, id.description)]⟩]
  | .sectionEnded id _ _ _ _ => [⟨"blockClosed".toList, [("name".toList, id.name)]⟩]
  | .caseSkipped id captures loc message =>
    [⟨"testIgnored".toList, [("name".toList, Spec.fullName id),
      ("message".toList, assertionText loc captures (.message message))]⟩]
  | .assertionFailed id captures loc data expected allowed =>
    if expected || allowed then
      [⟨"testStdOut".toList, [("name".toList, Spec.fullName id),
        ("out".toList, assertionText loc captures data)]⟩]
    else
      [⟨"testFailed".toList, [("name".toList, Spec.fullName id),
        ("message".toList, assertionText loc captures data)]⟩]
  | .assertionSucceeded id captures loc data =>
    [⟨"testStdOut".toList, [("name".toList, Spec.fullName id),
      ("out".toList, assertionText loc captures data)]⟩]
  | .listStarted .. | .listEnded .. | .listed .. => []

/-- Messages that start or finish a test or a suite. -/
def frames : List Text :=
  ["testSuiteStarted".toList, "testSuiteFinished".toList, "testStarted".toList, "testFinished".toList]

/-- Messages about these tests, given by their full names and whether they failed, one after the other: each
test is started and finished under its name, and in between there is a `testFailed` message if and only if
the test failed. -/
inductive TestsTold : List (Text × Bool) → List Message → Prop where
  | nil : TestsTold [] []
  | test {name failed inner more tests ms} : (∀ m ∈ inner, m.name ∉ frames) →
      (failed = true ↔ ∃ m ∈ inner, m.name = "testFailed".toList) → TestsTold tests ms →
      TestsTold ((name, failed) :: tests)
        (⟨"testStarted".toList, [("name".toList, name)]⟩ :: inner ++
          ⟨"testFinished".toList, ("name".toList, name) :: more⟩ :: ms)

/-! ## Texts the reporter can handle -/

/-- The text a character is written as. -/
def coded (c : Char) : Text :=
  if c = '|' then "||".toList else if c = '\'' then "|'".toList else if c = '\n' then "|n".toList
  else if c = '\r' then "|r".toList else if c = '[' then "|[".toList else if c = ']' then "|]".toList
  else [c]

/-- Decoding. There is no result if a special character is not escaped. -/
def decode : Text → Option Text
  | [] => some []
  | '|' :: c :: r => (unescape c).bind fun d => (decode r).map (d :: ·)
  | c :: r => if c ∈ ['|', '\'', '\n', '\r', '[', ']'] then none else (decode r).map (c :: ·)

/-- Texts that are printed escaped. -/
def Short (cap : Nat) (s : Text) : Prop := (s.flatMap coded).length ≤ cap

/-- Texts that are printed as they are. -/
def Plain (s : Text) : Prop := ∀ c ∈ s, c ∉ ['|', '\'', '\n', '\r', '[', ']']

instance (cap : Nat) (s : Text) : Decidable (Short cap s) := by unfold Short; exact inferInstance
instance (s : Text) : Decidable (Plain s) := by unfold Plain; exact inferInstance

def AssertionOk (lim : Limits) (loc : Location) (captures : List Text) (data : Data) : Prop :=
  Short lim.message loc.file ∧ loc.line < 2 ^ 64 ∧ (∀ c ∈ captures, Short lim.message c) ∧
  match data with
  | .message m => Short lim.message m
  | .expression type expected actual =>
    Plain type ∧ Short lim.message expected ∧ Short lim.message actual

/-- The events the reporter can tell. -/
def EventOk (lim : Limits) : Event → Prop
  | .runStarted name filters => Short lim.message (suite name filters)
  | .runEnded name filters _ _ _ _ _ => Short lim.message (suite name filters)
  | .caseStarted id _ => Short lim.name (Spec.fullName id)
  | .caseEnded id _ _ _ micros => Short lim.name (Spec.fullName id) ∧ micros < 2 ^ 64
  | .sectionStarted id _ => Plain id.name ∧ Plain id.description
  | .sectionEnded id _ _ _ _ => Plain id.name
  | .caseSkipped id captures loc message =>
    Short lim.name (Spec.fullName id) ∧ AssertionOk lim loc captures (.message message)
  | .assertionFailed id captures loc data _ _ =>
    Short lim.name (Spec.fullName id) ∧ AssertionOk lim loc captures data
  | .assertionSucceeded id captures loc data =>
    Short lim.name (Spec.fullName id) ∧ AssertionOk lim loc captures data
  | .listStarted .. => True
  | .listEnded .. => True
  | .listed .. => False

/-- Limits for which the arithmetic does not wrap and a line number fits in the buffer. -/
def LimitsOk (lim : Limits) : Prop := lim.message + 3 < 2 ^ 64 ∧ lim.name + 3 < 2 ^ 64 ∧ 20 ≤ lim.message

end Verif.Report.Spec.TeamCity
