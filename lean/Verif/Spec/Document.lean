import Verif.Spec.Events
import Verif.Spec.SectionEnds
/-!
# Specification of what an XML document says about tests
-/
namespace Verif.Events.Spec
open Verif.Report Verif.Report.Spec

/-- The attributes of an element. -/
abbrev Attrs := List (Text × Text)

/-- What is met on a walk through elements, in the order of the document: the start tag of a section, the counts in it, its
end tag, and anything else (with all that is in it). -/
inductive Mark where
  | start (attrs : Attrs)
  | counts (attrs : Attrs)
  | stop
  | leaf (n : Node)

mutual
/-- The walk through an element. -/
def walk : Node → List Mark
  | .text t => [.leaf (.text t)]
  | .elem name attrs children =>
    if name = "Section".toList then .start attrs :: walkAll children ++ [.stop]
    else if name = "OverallResults".toList then [.counts attrs]
    else [.leaf (.elem name attrs children)]
/-- The walk through elements. -/
def walkAll : List Node → List Mark
  | [] => []
  | n :: ns => walk n ++ walkAll ns
end

mutual
/-- What is in an element other than counts, each with the sections around it, outermost first. -/
def located (path : List Attrs) : Node → List (List Attrs × Node)
  | .text t => [(path, .text t)]
  | .elem name attrs children =>
    if name = "Section".toList then locatedAll (path ++ [attrs]) children
    else if name = "OverallResults".toList then []
    else [(path, .elem name attrs children)]
/-- The same for elements. -/
def locatedAll (path : List Attrs) : List Node → List (List Attrs × Node)
  | [] => []
  | n :: ns => located path n ++ locatedAll path ns
end

/-- The walk without the numbers. -/
def Mark.blank : Mark → Mark
  | .counts _ => .counts []
  | m => m

/-- The numbers met on a walk. -/
def Mark.numbers : Mark → Option Attrs
  | .counts attrs => some attrs
  | _ => none

/-- How a section is presented. -/
def sectionAttrs (sec : Section) : Attrs := ("name".toList, attr sec.id.name) :: locationAttrs sec.loc

/-- How what happens in a section is presented: the captures that hold at an assertion, and then the assertion, with its place
and expression or message; for a skip, its place and message. -/
def Heard.nodes : Heard → List Node
  | .assertion ok place data => place.captures.map infoNode ++ [assertionNode place.loc ok data]
  | .skip place message => [.elem "Skip".toList (locationAttrs place.loc) (textNode message)]
  | _ => []

/-- How what happens is presented: sections start with their name and place, and end with counts. -/
def Heard.marks : Heard → List Mark
  | .enter sec => [.start (sectionAttrs sec)]
  | .leave _ => [.counts [], .stop]
  | h => h.nodes.map .leaf

/-- The sections in which something happens. -/
def Heard.sections : Heard → List Section
  | .assertion _ place _ => place.sections
  | .skip place _ => place.sections
  | _ => []

/-- The durations of tests that are told, in order. -/
def testDurations (es : List Events.Event) : List Duration :=
  es.filterMap fun e => match e with
    | .caseEnded _ _ _ _ d _ _ => some d
    | _ => none

/-- The duration of the run that is told, if any. -/
def runDurations (es : List Events.Event) : List Duration :=
  es.filterMap fun e => match e with
    | .runEnded _ _ _ _ _ _ _ d _ => some d
    | _ => none

/-- The time that the element of a test says it takes: an attribute of the last element in it. -/
def timeIn : Node → Option Text
  | .elem _ _ children =>
    match children.getLast? with
    | some (.elem _ attrs _) => attrs.lookup "durationInSeconds".toList
    | _ => none
  | .text _ => none

/-- The durations of sections that are told, in order: a list for each test whose end is told, of those told since the end of the
test before (which are in `before`). -/
def sectionDurations (before : List Duration) : List Events.Event → List (List Duration)
  | [] => []
  | .sectionEnded _ _ _ _ d :: es => sectionDurations (before ++ [d]) es
  | .caseEnded _ _ _ _ _ _ _ :: es => before :: sectionDurations [] es
  | _ :: es => sectionDurations before es

/-- The times that the sections in the element of a test say they take, in order of their ends. -/
def sectionTimesIn : Node → List (Option Text)
  | .elem _ _ children => ((walkAll children).filterMap Mark.numbers).map (·.lookup "durationInSeconds".toList)
  | .text _ => []

/-- How a duration is shown. -/
def shownTime (rl : Report.Limits) (d : Duration) : Option Text := if rl.timings then some (attr d.text) else none

/-- What there is to be told about a test, at verbosity `v`. -/
def toldOf [Run.MessageLimit] (src : Source) (v : Nat) (t : Run.TestCase) (tags : List Text) : List Heard :=
  ((Run.Spec.caseStory t (Run.Spec.hasTag tags "!shouldfail")).filter (Run.Spec.Item.visible v)).filterMap (toTell src)

/-- What an XML document has to say about a test with the given tags, at verbosity `v`: an element with the name, tags and place
of the test; in it everything that is told about the test, in the order in which it happens; each section with the numbers that
its end event has to tell (see `Run.Spec.lefts`); and if the test is a success and if it was skipped. -/
def TestElement [Run.MessageLimit] (src : Source) (rl : Report.Limits) (v : Nat) (t : Run.TestCase) (tags : List Text)
    (n : Node) : Prop :=
  ∃ inside duration, n = .elem "TestCase".toList (("name".toList, attr (fullName (declared src t))) ::
      ("tags".toList, attr t.id.tags) :: locationAttrs (src.loc t.loc))
    (inside ++ [.elem "OverallResult".toList
      ([("success".toList, yesNo (Run.Spec.verdictOf t tags ≠ .failed)),
        ("skips".toList, decimal (if Run.Spec.verdictOf t tags = .skipped then 1 else 0))] ++ durationAttrs rl duration) []]) ∧
    (walkAll inside).map Mark.blank = (toldOf src v t tags).flatMap Heard.marks ∧
    ((walkAll inside).filterMap Mark.numbers).map (·.take 4) =
      (Run.Spec.lefts [] [] (Run.Spec.caseStory t (Run.Spec.hasTag tags "!shouldfail"))).map fun x =>
        let e := x.told (Run.Spec.hasTag tags "!mayfail" || Run.Spec.hasTag tags "!shouldfail")
        countAttrs ⟨e.2.2.1, e.2.2.2.1, e.2.2.2.2⟩ ++ [("skipped".toList, yesNo x.skipped)]

/-- What is in the element of a test, other than counts and the result, each with the sections around it. -/
def contents : Node → List (List Attrs × Node)
  | .elem _ _ children => locatedAll [] children.dropLast
  | .text _ => []

/-- What there is to be told, each with the sections in which it happens. -/
def placed (l : List Heard) : List (List Attrs × Node) :=
  l.flatMap fun h => h.nodes.map fun n => (h.sections.map sectionAttrs, n)

end Verif.Events.Spec
