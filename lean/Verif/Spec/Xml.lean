import Verif.Model.Reporter
/-!
# Specification for the XML report

A reader of XML (of the part of the language the report uses), which takes one character at a time, and
what a reader should find in the report of given events. Independent of the model of the reporter.
-/
namespace Verif.Report.Spec
open Verif

/-! ## Reading XML -/

/-- What a document is made of. -/
inductive Node where
  | text (t : Text)
  | elem (name : Text) (attrs : List (Text × Text)) (children : List Node)

/-- White space. -/
def blank (c : Char) : Bool := c = ' ' || c = '\n' || c = '\t'

/-- Characters allowed in a document. (Bytes from 128 on are taken as they come: whether they are valid
UTF-8 is not considered.) -/
def legal (c : Char) : Bool := decide (32 ≤ c.toNat) || c = '\n' || c = '\t'

/-- Characters of names (fewer than XML allows). -/
def nameChar (c : Char) : Bool := c.isAlphanum || c = '-'

/-- The five predefined entities. -/
def entityChar (ref : Text) : Option Char :=
  if ref = "amp".toList then some '&'
  else if ref = "quot".toList then some '"'
  else if ref = "apos".toList then some '\''
  else if ref = "lt".toList then some '<'
  else if ref = "gt".toList then some '>'
  else none

/-- White space at both ends of text, which the report uses for layout, is not significant. -/
def trim (s : Text) : Text := ((s.dropWhile blank).reverse.dropWhile blank).reverse

/-- The text between two tags: nothing if it is only white space. -/
def textNode (s : Text) : List Node := if trim s = [] then [] else [.text (trim s)]

/-- Where a reader can be. -/
inductive Mode where
  | content (t : Text)
  | contentRef (t ref : Text)
  | tag
  | endTag (name : Text)
  | startTag (name : Text)
  | space (name : Text) (attrs : List (Text × Text))
  | key (name : Text) (attrs : List (Text × Text)) (k : Text)
  | equals (name : Text) (attrs : List (Text × Text)) (k : Text)
  | value (name : Text) (attrs : List (Text × Text)) (k v : Text)
  | valueRef (name : Text) (attrs : List (Text × Text)) (k v ref : Text)
  | endValue (name : Text) (attrs : List (Text × Text))
  | slash (name : Text) (attrs : List (Text × Text))

/-- An element whose end tag has not been read, and what was read before it in the element around it. -/
structure Pending where
  name : Text
  attrs : List (Text × Text)
  before : List Node

/-- The elements not yet ended (innermost first), what was read in the innermost, and where the reader
is. -/
structure Reader where
  stack : List Pending
  nodes : List Node
  mode : Mode

/-- In an attribute, line breaks and tabs are read as spaces. -/
def attrChar (c : Char) : Char := if blank c then ' ' else c

/-- The reader takes one character; `none` if the document is not well-formed. -/
def step (r : Reader) (c : Char) : Option Reader :=
  match r.mode with
  | .content t =>
    if c = '<' then some { r with nodes := r.nodes ++ textNode t, mode := .tag }
    else if c = '&' then some { r with mode := .contentRef t [] }
    else if c = '>' then none
    else if legal c then some { r with mode := .content (t ++ [c]) } else none
  | .contentRef t ref =>
    if c = ';' then (entityChar ref).map fun x => { r with mode := .content (t ++ [x]) }
    else some { r with mode := .contentRef t (ref ++ [c]) }
  | .tag =>
    if c = '/' then some { r with mode := .endTag [] }
    else if nameChar c then some { r with mode := .startTag [c] } else none
  | .endTag name =>
    if c = '>' then
      match r.stack with
      | [] => none
      | p :: stack =>
        if name = p.name then
          some { stack, nodes := p.before ++ [.elem p.name p.attrs r.nodes], mode := .content [] }
        else none
    else if nameChar c then some { r with mode := .endTag (name ++ [c]) } else none
  | .startTag name =>
    if c = '>' then some { stack := ⟨name, [], r.nodes⟩ :: r.stack, nodes := [], mode := .content [] }
    else if c = '/' then some { r with mode := .slash name [] }
    else if c = ' ' then some { r with mode := .space name [] }
    else if nameChar c then some { r with mode := .startTag (name ++ [c]) } else none
  | .space name attrs =>
    if nameChar c then some { r with mode := .key name attrs [c] } else none
  | .key name attrs k =>
    if c = '=' then some { r with mode := .equals name attrs k }
    else if nameChar c then some { r with mode := .key name attrs (k ++ [c]) } else none
  | .equals name attrs k =>
    if c = '"' then some { r with mode := .value name attrs k [] } else none
  | .value name attrs k v =>
    if c = '"' then
      if attrs.any (·.1 = k) then none
      else some { r with mode := .endValue name (attrs ++ [(k, v)]) }
    else if c = '&' then some { r with mode := .valueRef name attrs k v [] }
    else if c = '<' then none
    else if legal c then some { r with mode := .value name attrs k (v ++ [attrChar c]) } else none
  | .valueRef name attrs k v ref =>
    if c = ';' then (entityChar ref).map fun x => { r with mode := .value name attrs k (v ++ [x]) }
    else some { r with mode := .valueRef name attrs k v (ref ++ [c]) }
  | .endValue name attrs =>
    if c = '>' then some { stack := ⟨name, attrs, r.nodes⟩ :: r.stack, nodes := [], mode := .content [] }
    else if c = '/' then some { r with mode := .slash name attrs }
    else if c = ' ' then some { r with mode := .space name attrs } else none
  | .slash name attrs =>
    if c = '>' then some { r with nodes := r.nodes ++ [.elem name attrs []], mode := .content [] }
    else none

/-- The reader takes a text. -/
def feed : Reader → Text → Option Reader
  | r, [] => some r
  | r, c :: cs => (step r c).bind (feed · cs)

/-- The declaration at the start of a document. -/
def declaration : Text := "<?xml version=\"1.0\" encoding=\"UTF-8\"?>".toList

/-- What has been read at the end: one element, with nothing but white space around it. -/
def root : Reader → Option Node
  | ⟨[], nodes, .content t⟩ =>
    match nodes, trim t with
    | [.elem name attrs children], [] => some (.elem name attrs children)
    | _, _ => none
  | _ => none

/-- Reading a document: the declaration and one element. `none` if it is not well-formed. -/
def document (s : Text) : Option Node :=
  if declaration.isPrefixOf s then
    (feed ⟨[], [], .content []⟩ (s.drop declaration.length)).bind root
  else none

/-! ## What the report should say -/

/-- A number in decimal. -/
def decimal (n : Nat) : Text := Nat.toDigits 10 n

/-- A text as read back from an attribute. -/
def attr (s : Text) : Text := s.map attrChar

/-- A location. -/
def locationAttrs (loc : Location) : List (Text × Text) :=
  [("filename".toList, attr loc.file), ("line".toList, decimal loc.line)]

/-- Yes or no. -/
def yesNo (b : Bool) : Text := if b then "true".toList else "false".toList

/-- A capture. -/
def infoNode (c : Text) : Node := .elem "Info".toList [] (textNode c)

/-- An assertion. -/
def assertionNode (loc : Location) (success : Bool) : Data → Node
  | .message m =>
    .elem (if success then "Success".toList else "Failure".toList) (locationAttrs loc) (textNode m)
  | .expression type expected actual =>
    .elem "Expression".toList
      (("success".toList, yesNo success) :: ("type".toList, attr type) :: locationAttrs loc)
      [.elem "Original".toList [] (textNode expected),
        .elem "Expanded".toList [] (textNode (if actual = [] then expected else actual))]

/-- The counts of assertions. -/
def countAttrs (c : Counts) : List (Text × Text) :=
  [("successes".toList, decimal (c.all - c.failed - c.allowed)), ("failures".toList, decimal c.failed),
    ("expectedFailures".toList, decimal c.allowed)]

/-- The duration, if there is one. -/
def durationAttrs (lim : Limits) (d : Text) : List (Text × Text) :=
  if lim.timings then [("durationInSeconds".toList, attr d)] else []

/-- The name of a test with its type. -/
def fullName (id : Id) : Text :=
  if id.type = [] then id.name else id.name ++ " <".toList ++ id.type ++ ">".toList

/-- What an event that neither starts nor ends anything is told as. -/
def leafNodes : Event → Option (List Node)
  | .assertionFailed _ captures loc data _ _ =>
    some (captures.map infoNode ++ [assertionNode loc false data])
  | .assertionSucceeded _ captures loc data =>
    some (captures.map infoNode ++ [assertionNode loc true data])
  | .caseSkipped _ _ loc message => some [.elem "Skip".toList (locationAttrs loc) (textNode message)]
  | _ => none

/-- `Tells lim es ns`: the events `es`, which happen in a test case, are told as `ns`. Sections are
elements which contain what happens in them, and their counts. -/
inductive Tells (lim : Limits) : List Event → List Node → Prop where
  | nil : Tells lim [] []
  | leaf {e l es ns} : leafNodes e = some l → Tells lim es ns → Tells lim (e :: es) (l ++ ns)
  | section {id loc inner ns id' loc' skipped counts d rest ns'} : Tells lim inner ns →
      Tells lim rest ns' →
      Tells lim (.sectionStarted id loc :: inner ++ .sectionEnded id' loc' skipped counts d :: rest)
        (.elem "Section".toList (("name".toList, attr id.name) :: locationAttrs loc)
          (ns ++ [.elem "OverallResults".toList (countAttrs counts ++
            [("skipped".toList, yesNo skipped)] ++ durationAttrs lim d) []]) :: ns')

/-- `TellsCases lim es ns`: the events `es` of any number of test cases are told as `ns`. -/
inductive TellsCases (lim : Limits) : List Event → List Node → Prop where
  | nil : TellsCases lim [] []
  | case {id loc inner ns id' loc' state d us rest ns'} : Tells lim inner ns →
      TellsCases lim rest ns' →
      TellsCases lim (.caseStarted id loc :: inner ++ .caseEnded id' loc' state d us :: rest)
        (.elem "TestCase".toList (("name".toList, attr (fullName id)) ::
            ("tags".toList, attr id.tags) :: locationAttrs loc)
          (ns ++ [.elem "OverallResult".toList ([("success".toList, yesNo (state ≠ .failed)),
            ("skips".toList, decimal (if state = .skipped then 1 else 0))] ++ durationAttrs lim d) []])
          :: ns')

/-- The filters of a run: each in quotes, with a space between them. -/
def quoted : List Text → Text
  | [] => []
  | [f] => '"' :: f ++ ['"']
  | f :: fs => '"' :: f ++ ['"', ' '] ++ quoted fs

/-- What a run is told as. -/
def runNode (lim : Limits) (name : Text) (filters : List Text) (cases : List Node)
    (run fail allowedFail skip : Nat) (c : Counts) : Node :=
  .elem "Catch2TestRun".toList
    [("name".toList, attr name), ("rng-seed".toList, "0".toList), ("xml-format-version".toList, "3".toList),
      ("catch2-version".toList, attr (lim.version ++ ".snitch".toList)),
      ("filters".toList, attr (quoted filters))]
    (cases ++ [.elem "OverallResults".toList (countAttrs c ++ [("skips".toList, decimal skip)]) [],
      .elem "OverallResultsCases".toList [("successes".toList, decimal (run - fail - allowedFail)),
        ("failures".toList, decimal fail), ("expectedFailures".toList, decimal allowedFail),
        ("skips".toList, decimal skip)] []])

/-- What a listed test is told as. -/
def listedNode (id : Id) (loc : Location) : Node :=
  .elem "TestCase".toList []
    [.elem "Name".toList [] (textNode (fullName id)), .elem "ClassName".toList [] (textNode id.fixture),
      .elem "Tags".toList [] (textNode id.tags),
      .elem "SourceInfo".toList [] [.elem "File".toList [] (textNode loc.file),
        .elem "Line".toList [] (textNode (decimal loc.line))]]

/-! ## Texts the reporter can handle -/

/-- The text a character is written as. -/
def entity (c : Char) : Text :=
  if c = '&' then "&amp;".toList else if c = '"' then "&quot;".toList
  else if c = '\'' then "&apos;".toList else if c = '<' then "&lt;".toList
  else if c = '>' then "&gt;".toList else [c]

/-- Texts that are printed escaped: all characters are allowed in XML, and the escaped text fits. -/
def Short (cap : Nat) (s : Text) : Prop := s.all legal = true ∧ (s.flatMap entity).length ≤ cap

/-- Texts that are printed as they are. -/
def Plain (s : Text) : Prop :=
  s.all (fun c => legal c && c ≠ '<' && c ≠ '>' && c ≠ '&' && c ≠ '"') = true

instance (s : Text) : Decidable (Plain s) := by unfold Plain; exact inferInstance
instance (cap : Nat) (s : Text) : Decidable (Short cap s) := by unfold Short; exact inferInstance

/-- Locations. -/
def LocationOk (lim : Limits) (loc : Location) : Prop := Short lim.message loc.file ∧ loc.line < 2 ^ 64

/-- The data of an assertion. -/
def DataOk (lim : Limits) : Data → Prop
  | .message m => Short lim.message m
  | .expression type expected actual =>
    Plain type ∧ Short lim.message expected ∧ Short lim.message actual

/-- Counts that are `std::size_t` and consistent (C25 proves this of those that occur). -/
def CountsOk (c : Counts) : Prop := c.all < 2 ^ 64 ∧ c.failed + c.allowed ≤ c.all

/-- The events the XML reporter can tell. -/
def EventOk (lim : Limits) : Event → Prop
  | .runStarted name filters => Short lim.message name ∧ Short lim.message (quoted filters)
  | .runEnded _ _ run fail allowedFail skip counts =>
    run < 2 ^ 64 ∧ skip < 2 ^ 64 ∧ fail + allowedFail ≤ run ∧ CountsOk counts
  | .caseStarted id loc => Short lim.name (fullName id) ∧ Short lim.message id.tags ∧ LocationOk lim loc
  | .caseEnded _ _ _ d _ => Plain d
  | .sectionStarted id loc => Short lim.message id.name ∧ LocationOk lim loc
  | .sectionEnded _ _ _ counts d => CountsOk counts ∧ Plain d
  | .assertionFailed _ captures loc data _ _ =>
    (∀ c ∈ captures, Short lim.message c) ∧ LocationOk lim loc ∧ DataOk lim data
  | .assertionSucceeded _ captures loc data =>
    (∀ c ∈ captures, Short lim.message c) ∧ LocationOk lim loc ∧ DataOk lim data
  | .caseSkipped _ _ loc message => LocationOk lim loc ∧ Plain message
  | .listStarted _ _ => True
  | .listEnded _ _ => True
  | .listed id loc => Short lim.name (fullName id) ∧ Short lim.message id.fixture ∧
      Short lim.message id.tags ∧ LocationOk lim loc

/-- Limits for which the arithmetic of the reporter does not wrap. -/
def LimitsOk (lim : Limits) : Prop :=
  lim.message + 3 < 2 ^ 64 ∧ lim.name + 3 < 2 ^ 64 ∧ Plain lim.version

/-- Decoding the predefined entities. There is no result if a special character occurs other than as
the start of one of them. -/
def decode : Text → Option Text
  | [] => some []
  | '&' :: 'a' :: 'm' :: 'p' :: ';' :: r => (decode r).map ('&' :: ·)
  | '&' :: 'q' :: 'u' :: 'o' :: 't' :: ';' :: r => (decode r).map ('"' :: ·)
  | '&' :: 'a' :: 'p' :: 'o' :: 's' :: ';' :: r => (decode r).map ('\'' :: ·)
  | '&' :: 'l' :: 't' :: ';' :: r => (decode r).map ('<' :: ·)
  | '&' :: 'g' :: 't' :: ';' :: r => (decode r).map ('>' :: ·)
  | c :: r => if c ∈ ['&', '"', '\'', '<', '>'] then none else (decode r).map (c :: ·)

/-- The numbers of an event are numbers of type `std::size_t`. -/
def SizesOk : Event → Prop
  | .runEnded _ _ run fail allowedFail skip c =>
    run < 2 ^ 64 ∧ fail < 2 ^ 64 ∧ allowedFail < 2 ^ 64 ∧ skip < 2 ^ 64 ∧ c.all < 2 ^ 64 ∧
      c.failed < 2 ^ 64 ∧ c.allowed < 2 ^ 64
  | .sectionEnded _ _ _ c _ => c.all < 2 ^ 64 ∧ c.failed < 2 ^ 64 ∧ c.allowed < 2 ^ 64
  | .caseStarted _ loc => loc.line < 2 ^ 64
  | .sectionStarted _ loc => loc.line < 2 ^ 64
  | .assertionFailed _ _ loc _ _ _ => loc.line < 2 ^ 64
  | .assertionSucceeded _ _ loc _ => loc.line < 2 ^ 64
  | .caseSkipped _ _ loc _ => loc.line < 2 ^ 64
  | .listed _ loc => loc.line < 2 ^ 64
  | _ => True

/-- The events at which something begins, and those at which something ends. -/
def begins : Event → Bool
  | .runStarted .. | .caseStarted .. | .sectionStarted .. | .listStarted .. => true
  | _ => false
def ends : Event → Bool
  | .runEnded .. | .caseEnded .. | .sectionEnded .. | .listEnded .. => true
  | _ => false

end Verif.Report.Spec
