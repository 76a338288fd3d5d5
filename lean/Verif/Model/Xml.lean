import Verif.Model.Reporter
/-!
# Model of the Catch2 XML reporter

Source: src/snitch_reporter_catch2_xml.cpp 15-283.
-/
namespace Verif.Report.Xml

/-- src/snitch_reporter_catch2_xml.cpp 21-27 `escape`. -/
def stages : List (Text × Text) :=
  [("&".toList, "&amp;".toList), ("\"".toList, "&quot;".toList), ("'".toList, "&apos;".toList),
    ("<".toList, "&lt;".toList), (">".toList, "&gt;".toList)]

/-- src/snitch_reporter_catch2_xml.cpp 29-34 `make_escaped`, for any capacity. -/
def makeEscaped (cap : Nat) (s : Text) : Outcome Text := do
  let (ss, _) ← Util.appendOrTruncate false (SV.empty cap ' ') [s]
  let (ss, _) ← escapeStages stages ss
  return ss.contents

/-- src/snitch_reporter_catch2_xml.cpp 36-41 `make_full_name`. -/
def makeFullName (lim : Limits) (id : Id) : Outcome Text := do
  let ss ← fullName lim id
  let (ss, _) ← escapeStages stages ss
  return ss.contents

/-- src/snitch_reporter_catch2_xml.cpp 46-50: the loop of `make_filters`. -/
def filtersLoop : List Text → Bool → Str → Outcome Str
  | [], _, ss => .ok ss
  | f :: fs, first, ss => do
    let (ss, _) ← Util.appendOrTruncate false ss
      [if first then "\"".toList else " \"".toList, f, "\"".toList]
    filtersLoop fs false ss

/-- src/snitch_reporter_catch2_xml.cpp 43-54 `make_filters`. -/
def makeFilters (lim : Limits) (filters : List Text) : Outcome Text := do
  let ss ← filtersLoop filters true (SV.empty lim.message ' ')
  let (ss, _) ← escapeStages stages ss
  return ss.contents

/-- src/snitch_reporter_catch2_xml.cpp 56-63 `make_string`. -/
def makeString (n : Nat) : Outcome Text := makeNumber 32 n

/-- src/snitch_reporter_catch2_xml.cpp 65-69 `get_indent`. -/
def indent (rep : Rep) : Text := List.replicate (min 16 (2 * rep.level % sizeT)) ' '

/-- src/snitch_reporter_catch2_xml.cpp 71-74 `close`; the level is a `std::size_t`. -/
def close (lim : Limits) (name : Text) (rep : Rep) : Outcome Rep :=
  let rep := { rep with level := subSize rep.level 1 }
  say lim [indent rep, "</".toList, name, ">\n".toList] rep

/-- src/snitch_reporter_catch2_xml.cpp 76-78 `print`. -/
def print (lim : Limits) (data : Text) (rep : Rep) : Outcome Rep :=
  say lim [indent rep, data, "\n".toList] rep

/-- src/snitch_reporter_catch2_xml.cpp 87-89, 101-103: printing the attributes. -/
def sayArgs (lim : Limits) : List (Text × Text) → Rep → Outcome Rep
  | [], rep => .ok rep
  | a :: as, rep => do
    let rep ← say lim [" ".toList, a.1, "=\"".toList, a.2, "\"".toList] rep
    sayArgs lim as rep

/-- src/snitch_reporter_catch2_xml.cpp 80-92 `open`. -/
def openTag (lim : Limits) (name : Text) (args : List (Text × Text)) (rep : Rep) : Outcome Rep := do
  let rep ← say lim [indent rep, "<".toList, name] rep
  let rep ← sayArgs lim args rep
  let rep := say1 ">\n".toList rep
  return { rep with level := (rep.level + 1) % sizeT }

/-- src/snitch_reporter_catch2_xml.cpp 94-105 `node`. -/
def node (lim : Limits) (name : Text) (args : List (Text × Text)) (rep : Rep) : Outcome Rep := do
  let rep ← say lim [indent rep, "<".toList, name] rep
  let rep ← sayArgs lim args rep
  return say1 "/>\n".toList rep

/-- src/snitch_reporter_catch2_xml.cpp 107-118 `open_close`. -/
def openClose (lim : Limits) (name content : Text) (rep : Rep) : Outcome Rep :=
  if content.isEmpty then node lim name [] rep
  else say lim [indent rep, "<".toList, name, ">".toList, content, "</".toList, name, ">\n".toList] rep

/-- src/snitch_reporter_catch2_xml.cpp 122-126: the captures. -/
def reportCaptures (lim : Limits) : List Text → Rep → Outcome Rep
  | [], rep => .ok rep
  | c :: cs, rep => do
    let rep ← openTag lim "Info".toList [] rep
    let rep ← print lim (← makeEscaped lim.message c) rep
    let rep ← close lim "Info".toList rep
    reportCaptures lim cs rep

/-- src/snitch_reporter_catch2_xml.cpp 130-137: a message. -/
def reportMessage (lim : Limits) (loc : Location) (message : Text) (success : Bool) (rep : Rep) :
    Outcome Rep := do
  let name := if success then "Success".toList else "Failure".toList
  let rep ← openTag lim name [("filename".toList, ← makeEscaped lim.message loc.file),
    ("line".toList, ← makeString loc.line)] rep
  let rep ← print lim (← makeEscaped lim.message message) rep
  close lim name rep

/-- src/snitch_reporter_catch2_xml.cpp 138-159: an expression. -/
def reportExpression (lim : Limits) (loc : Location) (type expected actual : Text) (success : Bool)
    (rep : Rep) : Outcome Rep := do
  let rep ← openTag lim "Expression".toList
    [("success".toList, if success then "true".toList else "false".toList), ("type".toList, type),
      ("filename".toList, ← makeEscaped lim.message loc.file),
      ("line".toList, ← makeString loc.line)] rep
  let rep ← openTag lim "Original".toList [] rep
  let rep ← print lim (← makeEscaped lim.message expected) rep
  let rep ← close lim "Original".toList rep
  let rep ← openTag lim "Expanded".toList [] rep
  let rep ← print lim (← makeEscaped lim.message (if !actual.isEmpty then actual else expected)) rep
  let rep ← close lim "Expanded".toList rep
  close lim "Expression".toList rep

/-- src/snitch_reporter_catch2_xml.cpp 120-161 `report_assertion`. -/
def reportAssertion (lim : Limits) (captures : List Text) (loc : Location) (data : Data)
    (success : Bool) (rep : Rep) : Outcome Rep := do
  let rep ← reportCaptures lim captures rep
  match data with
  | .message m => reportMessage lim loc m success rep
  | .expression type expected actual => reportExpression lim loc type expected actual success rep

/-- src/snitch_reporter_catch2_xml.cpp 192-196, 241-245: the counts of assertions. -/
def countArgs (c : Counts) : Outcome (List (Text × Text)) := do
  return [("successes".toList, ← makeString (subSize (subSize c.all c.failed) c.allowed)),
    ("failures".toList, ← makeString c.failed), ("expectedFailures".toList, ← makeString c.allowed)]

/-- src/snitch_reporter_catch2_xml.cpp 201-204: the counts of test cases. -/
def caseArgs (run fail allowedFail skip : Nat) : Outcome (List (Text × Text)) := do
  return [("successes".toList, ← makeString (subSize (subSize run fail) allowedFail)),
    ("failures".toList, ← makeString fail), ("expectedFailures".toList, ← makeString allowedFail),
    ("skips".toList, ← makeString skip)]

/-- src/snitch_reporter_catch2_xml.cpp 217-228, 247-250: the duration, if timings are compiled in. -/
def durationArgs (lim : Limits) (duration : Text) : List (Text × Text) :=
  if lim.timings then [("durationInSeconds".toList, duration)] else []

/-- src/snitch_reporter_catch2_xml.cpp 213-214, 235-236, 257-258: the location. -/
def locationArgs (lim : Limits) (loc : Location) : Outcome (List (Text × Text)) := do
  return [("filename".toList, ← makeEscaped lim.message loc.file),
    ("line".toList, ← makeString loc.line)]

/-- src/snitch_reporter_catch2_xml.cpp 271-281: one test in a listing. -/
def reportListed (lim : Limits) (id : Id) (loc : Location) (rep : Rep) : Outcome Rep := do
  let rep ← openTag lim "TestCase".toList [] rep
  let rep ← openClose lim "Name".toList (← makeFullName lim id) rep
  let rep ← openClose lim "ClassName".toList (← makeEscaped lim.message id.fixture) rep
  let rep ← openClose lim "Tags".toList (← makeEscaped lim.message id.tags) rep
  let rep ← openTag lim "SourceInfo".toList [] rep
  let rep ← openClose lim "File".toList (← makeEscaped lim.message loc.file) rep
  let rep ← openClose lim "Line".toList (← makeString loc.line) rep
  let rep ← close lim "SourceInfo".toList rep
  close lim "TestCase".toList rep

/-- src/snitch_reporter_catch2_xml.cpp 164-168, the constructor of the reporter: the verbosity is raised to
*high* (2). -/
def initVerbosity (verbosity : Nat) : Nat := if verbosity < 2 then 2 else verbosity

/-- src/snitch_reporter_catch2_xml.cpp 175-283 `reporter::report`. -/
def report (lim : Limits) (rep : Rep) : Event → Outcome Rep
  | .runStarted name filters => do
    let rep ← print lim "<?xml version=\"1.0\" encoding=\"UTF-8\"?>\n".toList rep
    openTag lim "Catch2TestRun".toList [("name".toList, ← makeEscaped lim.message name),
      ("rng-seed".toList, "0".toList), ("xml-format-version".toList, "3".toList),
      ("catch2-version".toList, lim.version ++ ".snitch".toList),
      ("filters".toList, ← makeFilters lim filters)] rep
  | .runEnded _ _ run fail allowedFail skip counts => do
    let rep ← node lim "OverallResults".toList
      ((← countArgs counts) ++ [("skips".toList, ← makeString skip)]) rep
    let rep ← node lim "OverallResultsCases".toList (← caseArgs run fail allowedFail skip) rep
    close lim "Catch2TestRun".toList rep
  | .caseStarted id loc => do
    openTag lim "TestCase".toList ([("name".toList, ← makeFullName lim id),
      ("tags".toList, ← makeEscaped lim.message id.tags)] ++ (← locationArgs lim loc)) rep
  | .caseEnded _ _ state duration _ => do
    let rep ← node lim "OverallResult".toList
      ([("success".toList, if state = .failed then "false".toList else "true".toList),
        ("skips".toList, if state = .skipped then "1".toList else "0".toList)] ++
        durationArgs lim duration) rep
    close lim "TestCase".toList rep
  | .sectionStarted id loc => do
    openTag lim "Section".toList ([("name".toList, ← makeEscaped lim.message id.name)] ++
      (← locationArgs lim loc)) rep
  | .sectionEnded _ _ skipped counts duration => do
    let rep ← node lim "OverallResults".toList ((← countArgs counts) ++
      [("skipped".toList, if skipped then "true".toList else "false".toList)] ++
      durationArgs lim duration) rep
    close lim "Section".toList rep
  | .caseSkipped _ _ loc message => do
    let rep ← openTag lim "Skip".toList (← locationArgs lim loc) rep
    let rep ← print lim message rep
    close lim "Skip".toList rep
  | .assertionFailed _ captures loc data _ _ => reportAssertion lim captures loc data false rep
  | .assertionSucceeded _ captures loc data => reportAssertion lim captures loc data true rep
  | .listStarted _ _ => do
    let rep ← print lim "<?xml version=\"1.0\" encoding=\"UTF-8\"?>".toList rep
    openTag lim "MatchingTests".toList [] rep
  | .listEnded _ _ => close lim "MatchingTests".toList rep
  | .listed id loc => reportListed lim id loc rep

/-- The events of a run, one after the other. -/
def reportAll (lim : Limits) : List Event → Rep → Outcome Rep
  | [], rep => .ok rep
  | e :: es, rep => do
    let rep ← report lim rep e
    reportAll lim es rep

end Verif.Report.Xml
