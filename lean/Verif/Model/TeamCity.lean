import Verif.Model.Reporter
/-!
# Model of the TeamCity reporter

Source: src/snitch_reporter_teamcity.cpp 14-179.
-/
namespace Verif.Report.TeamCity

/-- src/snitch_reporter_teamcity.cpp 28-33 `escape`. -/
def stages : List (Text × Text) :=
  [("|".toList, "||".toList), ("'".toList, "|'".toList), ("\n".toList, "|n".toList),
    ("\r".toList, "|r".toList), ("[".toList, "|[".toList), ("]".toList, "|]".toList)]

/-- src/snitch_reporter_teamcity.cpp 35-41 `make_escaped`, for a text. -/
def makeEscaped (cap : Nat) (s : Text) : Outcome Text := do
  let (ss, _) ← Util.appendOrTruncate false (SV.empty cap ' ') [s]
  let (ss, _) ← escapeStages stages ss
  return ss.contents

/-- src/snitch_reporter_teamcity.cpp 47-49: the captures. -/
def printCaptures (lim : Limits) : List Text → Rep → Outcome Rep
  | [], rep => .ok rep
  | c :: cs, rep => do
    let rep ← say lim ["with ".toList, ← makeEscaped lim.message c, "|n".toList] rep
    printCaptures lim cs rep

/-- src/snitch_reporter_teamcity.cpp 61-62: whether a line break is put before the values. The sums are
of lengths of strings that exist, so they do not wrap. -/
def long (type expected actual : Text) : Bool :=
  expected.length + type.length + 3 > 64 || actual.length + 5 > 64

/-- src/snitch_reporter_teamcity.cpp 60-69: the values of an expression. -/
def printActual (lim : Limits) (type expected actual : Text) (rep : Rep) : Outcome Rep := do
  if !actual.isEmpty then
    if long type expected actual then
      say lim ["|n".toList, "  ".toList, "got: ".toList, ← makeEscaped lim.message actual, "'".toList] rep
    else
      say lim [", got: ".toList, ← makeEscaped lim.message actual, "'".toList] rep
  else return say1 "'".toList rep

/-- src/snitch_reporter_teamcity.cpp 53-71: the message or the expression. -/
def printData (lim : Limits) (data : Data) (rep : Rep) : Outcome Rep :=
  match data with
  | .message m => do say lim ["  ".toList, ← makeEscaped lim.message m, "'".toList] rep
  | .expression type expected actual => do
    let rep ← say lim ["  ".toList, type, "(".toList, ← makeEscaped lim.message expected, ")".toList] rep
    printActual lim type expected actual rep

/-- src/snitch_reporter_teamcity.cpp 46: the location. The line is not a string, so it is printed the way
`append_or_print` prints other values. -/
def printLocation (lim : Limits) (loc : Location) (rep : Rep) : Outcome Rep := do
  let chunks ← Print.print lim.message [.str "'".toList, .str (← makeEscaped lim.message loc.file),
    .str ":".toList, .value (← makeNumber 32 loc.line), .str "|n".toList]
  return { rep with out := rep.out ++ chunks.flatten }

/-- src/snitch_reporter_teamcity.cpp 43-72 `print_assertion`. -/
def printAssertion (lim : Limits) (loc : Location) (captures : List Text) (data : Data) (rep : Rep) :
    Outcome Rep := do
  let rep ← printLocation lim loc rep
  let rep ← printCaptures lim captures rep
  printData lim data rep

/-- src/snitch_reporter_teamcity.cpp 16-26 `assertion`, `key_value`. -/
inductive Value where
  | text (s : Text)
  | assertion (loc : Location) (captures : List Text) (data : Data)

/-- src/snitch_reporter_teamcity.cpp 80-87: the arguments of a message. -/
def sendArgs (lim : Limits) : List (Text × Value) → Rep → Outcome Rep
  | [], rep => .ok rep
  | (key, value) :: args, rep => do
    let rep ← say lim [" ".toList, key, "=".toList] rep
    let rep ← match value with
      | .text s => say lim ["'".toList, s, "'".toList] rep
      | .assertion loc captures data => printAssertion lim loc captures data rep
    sendArgs lim args rep

/-- src/snitch_reporter_teamcity.cpp 74-89 `send_message`. -/
def sendMessage (lim : Limits) (message : Text) (args : List (Text × Value)) (rep : Rep) :
    Outcome Rep := do
  let rep ← say lim ["##teamCity[".toList, message] rep
  let rep ← sendArgs lim args rep
  return say1 "]\n".toList rep

/-- src/snitch_reporter_teamcity.cpp 95-97: the filters. -/
def filtersLoop : List Text → Str → Outcome Str
  | [], ss => .ok ss
  | f :: fs, ss => do
    let (ss, _) ← Util.appendOrTruncate false ss [" \"".toList, f, "\"".toList]
    filtersLoop fs ss

/-- src/snitch_reporter_teamcity.cpp 91-100 `make_suite_name`. -/
def makeSuiteName (lim : Limits) (app : Text) (filters : List Text) : Outcome Text := do
  let (ss, _) ← Util.appendOrTruncate false (SV.empty lim.message ' ') [app]
  let ss ← filtersLoop filters ss
  let (ss, _) ← escapeStages stages ss
  return ss.contents

/-- src/snitch_reporter_teamcity.cpp 102-107 `make_full_name`. -/
def makeFullName (lim : Limits) (id : Id) : Outcome Text := do
  let ss ← fullName lim id
  let (ss, _) ← escapeStages stages ss
  return ss.contents

/-- src/snitch_reporter_teamcity.cpp 109-117 `make_duration`, given the number of microseconds. -/
def makeDuration (micros : Nat) : Outcome Text := makeNumber 32 micros

/-- src/snitch_reporter_teamcity.cpp 140-146: the arguments of `testFinished`. -/
def finishedArgs (lim : Limits) (name : Text) (micros : Nat) : Outcome (List (Text × Value)) := do
  if lim.timings then
    return [("name".toList, .text name), ("duration".toList, .text (← makeDuration micros))]
  else return [("name".toList, .text name)]

/-- src/snitch_reporter_teamcity.cpp 120-124 `initialize`: the verbosity is raised to *high* (2). -/
def initVerbosity (verbosity : Nat) : Nat := if verbosity < 2 then 2 else verbosity

/-- src/snitch_reporter_teamcity.cpp 126-178 `report`. -/
def report (lim : Limits) (rep : Rep) : Event → Outcome Rep
  | .runStarted name filters => do
    sendMessage lim "testSuiteStarted".toList
      [("name".toList, .text (← makeSuiteName lim name filters))] rep
  | .runEnded name filters _ _ _ _ _ => do
    sendMessage lim "testSuiteFinished".toList
      [("name".toList, .text (← makeSuiteName lim name filters))] rep
  | .caseStarted id _ => do
    sendMessage lim "testStarted".toList [("name".toList, .text (← makeFullName lim id))] rep
  | .caseEnded id _ _ _ micros => do
    sendMessage lim "testFinished".toList (← finishedArgs lim (← makeFullName lim id) micros) rep
  | .sectionStarted id _ =>
    sendMessage lim "blockOpened".toList
      [("name".toList, .text id.name), ("description".toList, .text id.description)] rep
  | .sectionEnded id _ _ _ _ => sendMessage lim "blockClosed".toList [("name".toList, .text id.name)] rep
  | .caseSkipped id captures loc message => do
    sendMessage lim "testIgnored".toList [("name".toList, .text (← makeFullName lim id)),
      ("message".toList, .assertion loc captures (.message message))] rep
  | .assertionFailed id captures loc data expected allowed => do
    sendMessage lim (if expected || allowed then "testStdOut".toList else "testFailed".toList)
      [("name".toList, .text (← makeFullName lim id)),
        (if expected || allowed then "out".toList else "message".toList,
          .assertion loc captures data)] rep
  | .assertionSucceeded id captures loc data => do
    sendMessage lim "testStdOut".toList [("name".toList, .text (← makeFullName lim id)),
      ("out".toList, .assertion loc captures data)] rep
  | .listStarted _ _ => .ok rep
  | .listEnded _ _ => .ok rep
  | .listed id _ => do say lim [← makeFullName lim id, "\n".toList] rep

/-- The events of a run, one after the other. -/
def reportAll (lim : Limits) : List Event → Rep → Outcome Rep
  | [], rep => .ok rep
  | e :: es, rep => do
    let rep ← report lim rep e
    reportAll lim es rep

end Verif.Report.TeamCity
