import Verif.Model.StringUtil
/-!
# Model of tags and test filters

Source: src/snitch_registry.cpp 16-299, 805-811, 844-885; include/snitch/snitch_registry.hpp 74-77.
Names, tags and filters are plain texts (`std::string_view`).
-/
namespace Verif.Filter
open Util

/-- src/snitch_registry.cpp 30-38: the loop of `for_each_raw_tag`; returns the tags passed to the
callback. `fuel` bounds the number of iterations (`none`: still running). -/
def rawLoop (s : Text) : Nat → Option Nat → Nat → Option (List Text)
  | _, none, last => some [s.drop last]
  | 0, some _, _ => none
  | fuel + 1, some pos, last =>
    let curSize := pos - last
    (rawLoop s fuel (findFrom s [']', '['] (pos + 1)) (pos + 1)).map fun rest =>
      if curSize ≠ 0 then (s.drop last).take (curSize + 1) :: rest else rest

/-- src/snitch_registry.cpp 16-41 `for_each_raw_tag`: the list of views passed to the callback. -/
def rawTags (s : Text) : Outcome (List Text) :=
  if s.isEmpty then .ok []
  else if !s.contains '[' || !s.contains ']' then .abort
  else match rawLoop s (s.length + 1) (findFrom s [']', '['] 0) 0 with
    | some l => .ok l
    | none => .ub

/-- src/snitch_registry.cpp 43-49 `tags::parsed_tag`. -/
inductive ParsedTag
  | tag (t : Text)
  | hidden
  | mayFail
  | shouldFail
  deriving DecidableEq, Repr

/-- src/snitch_registry.cpp 75-83: what follows the treatment of hidden tags. -/
def decodePlain (t : Text) : List ParsedTag :=
  (if t = "[!mayfail]".toList then [.mayFail] else []) ++
  ((if t = "[!shouldfail]".toList then [.shouldFail] else []) ++ [.tag t])

/-- src/snitch_registry.cpp 56-85: the callback of `for_each_tag` for one raw tag; the list of
values passed on. `append` to the local buffer succeeds iff the text fits (C03). -/
def decodeTag (maxTag : Nat) (t : Text) : Outcome (List ParsedTag) :=
  if t = "[.]".toList then .ok (.hidden :: decodePlain t)
  else if ['[', '.'].isPrefixOf t then
    let buffer := '[' :: t.drop 2
    if buffer.length ≤ maxTag then
      .ok (.hidden :: .tag "[.]".toList :: decodePlain buffer)
    else .abort
  else .ok (decodePlain t)

/-- src/snitch_registry.cpp 56: calling the callback for each raw tag in turn. -/
def decodeAll (maxTag : Nat) : List Text → Outcome (List ParsedTag)
  | [] => .ok []
  | t :: ts => do
    let a ← decodeTag maxTag t
    let b ← decodeAll maxTag ts
    return a ++ b

/-- src/snitch_registry.cpp 52-86 `for_each_tag`: the list of values passed to the callback. -/
def forEachTag (maxTag : Nat) (s : Text) : Outcome (List ParsedTag) := do
  let raw ← rawTags s
  decodeAll maxTag raw

/-- src/snitch_registry.cpp 89-98 `has_hidden_tag`. -/
def hasHiddenTag (maxTag : Nat) (tags : Text) : Outcome Bool := do
  let ps ← forEachTag maxTag tags
  return ps.any (· == .hidden)

/-- include/snitch/snitch_registry.hpp 74-77 `filter_result`. -/
structure FilterResult where
  included : Bool
  implicit : Bool
  deriving DecidableEq, Repr

/-- src/snitch_registry.cpp 161-172 `filter_result_and`. -/
def resultAnd (first second : FilterResult) : FilterResult :=
  if !first.included && second.included then first
  else if first.included && !second.included then second
  else if !first.implicit then first
  else second

/-- src/snitch_registry.cpp 174-185 `filter_result_or`. -/
def resultOr (first second : FilterResult) : FilterResult :=
  if first.included && !second.included then first
  else if !first.included && second.included then second
  else if !first.implicit then first
  else second

/-- src/snitch_registry.cpp 188-193 and 199-204: the two outcomes and the pattern, after treating a
leading `~`. -/
def actions (filter : Text) : FilterResult × FilterResult × Text :=
  match filter with
  | '~' :: f => (⟨false, false⟩, ⟨true, true⟩, f)
  | f => (⟨true, false⟩, ⟨false, true⟩, f)

/-- src/snitch_registry.cpp 187-196 `is_filter_match_name`. -/
def matchName (name filter : Text) : FilterResult :=
  let (matchAction, noMatchAction, filter) := actions filter
  if isMatch name filter then matchAction else noMatchAction

/-- src/snitch_registry.cpp 206-213: is some tag (of the decoded list) a match? -/
def anyTag (filter : Text) (ps : List ParsedTag) : Bool :=
  ps.any fun
    | .tag t => isMatch t filter
    | _ => false

/-- src/snitch_registry.cpp 198-216 `is_filter_match_tags_single`. -/
def matchTagsSingle (maxTag : Nat) (tags filter : Text) : Outcome FilterResult := do
  let (matchAction, noMatchAction, filter) := actions filter
  let ps ← forEachTag maxTag tags
  return if anyTag filter ps then matchAction else noMatchAction

/-- src/snitch_registry.cpp 220-252: combining with an optional earlier result. -/
def combine (op : FilterResult → FilterResult → FilterResult) :
    Option FilterResult → FilterResult → FilterResult
  | none, sub => sub
  | some r, sub => op r sub

/-- src/snitch_registry.cpp 224-250: the do-while loop of `is_filter_match_tags`. `fuel` bounds the
number of iterations; running out of it would be `ub`, the theorems show it does not happen. -/
def matchTagsLoop (maxTag : Nat) (tags : Text) : Nat → Option FilterResult → Text →
    Outcome FilterResult
  | 0, _, _ => .ub
  | fuel + 1, result, filter => do
    let endPos := (findFirstNotEscaped filter ']').map (· + 1)
    let sub ← matchTagsSingle maxTag tags
      (match endPos with | some e => filter.take e | none => filter)
    let result := combine resultAnd result sub
    if !result.included then return result
    else match endPos with
      | none => return result
      | some e =>
        let filter := filter.drop e
        if filter.isEmpty then return result
        else matchTagsLoop maxTag tags fuel (some result) filter

/-- src/snitch_registry.cpp 218-253 `is_filter_match_tags`. -/
def matchTags (maxTag : Nat) (tags filter : Text) : Outcome FilterResult :=
  matchTagsLoop maxTag tags (filter.length + 1) none filter

/-- src/snitch_registry.cpp 255-263 `is_filter_match_id_single`. -/
def matchIdSingle (maxTag : Nat) (name tags filter : Text) : Outcome FilterResult :=
  if ['['].isPrefixOf filter || ['~', '['].isPrefixOf filter then matchTags maxTag tags filter
  else .ok (matchName name filter)

/-- src/snitch_registry.cpp 271-296: the do-while loop of `is_filter_match_id`. -/
def matchIdLoop (maxTag : Nat) (name tags : Text) : Nat → Option FilterResult → Text →
    Outcome FilterResult
  | 0, _, _ => .ub
  | fuel + 1, result, filter => do
    let commaPos := findFirstNotEscaped filter ','
    let sub ← matchIdSingle maxTag name tags
      (match commaPos with | some p => filter.take p | none => filter)
    let result := combine resultOr result sub
    if result.included && !result.implicit then return result
    else match commaPos with
      | none => return result
      | some p => matchIdLoop maxTag name tags fuel (some result) (filter.drop (p + 1))

/-- src/snitch_registry.cpp 265-299 `is_filter_match_id`. -/
def matchId (maxTag : Nat) (name tags filter : Text) : Outcome FilterResult :=
  matchIdLoop maxTag name tags (filter.length + 1) none filter

/-- include/snitch/snitch_test_data.hpp 25-34 `test_id` (the fixture plays no role in filters). -/
structure TestId where
  name : Text
  tags : Text
  type : Text
  deriving DecidableEq, Repr

/-- src/snitch_registry.cpp 143-157 `make_full_name`: empty if the text does not fit in
`max_test_name_length`. -/
def makeFullName (maxName : Nat) (id : TestId) : Text :=
  let full := if id.type.length ≠ 0 then id.name ++ " <".toList ++ id.type ++ ">".toList
    else id.name
  if full.length ≤ maxName then full else []

/-- src/snitch_registry.cpp 849-867: the loop over the filter arguments. -/
def matchArgsLoop (maxTag maxName : Nat) (id : TestId) : Option FilterResult → List Text →
    Outcome (Option FilterResult)
  | result, [] => .ok result
  | result, filter :: filters => do
    let sub ← matchId maxTag (makeFullName maxName id) id.tags filter
    let result := combine resultAnd result sub
    if !result.included then return some result
    else matchArgsLoop maxTag maxName id (some result) filters

/-- src/snitch_registry.cpp 844-880: the predicate used when there are filter arguments.
Dereferencing an empty `optional` (no filter at all) would be undefined. -/
def selectWithFilters (maxTag maxName : Nat) (filters : List Text) (id : TestId) : Outcome Bool := do
  match ← matchArgsLoop maxTag maxName id none filters with
  | none => .ub
  | some result =>
    if result.included then
      if !result.implicit then return true
      else return !(← hasHiddenTag maxTag id.tags)
    else return false

/-- src/snitch_registry.cpp 807: the predicate of a run without filter arguments. -/
def selectDefault (maxTag : Nat) (id : TestId) : Outcome Bool := do
  return !(← hasHiddenTag maxTag id.tags)

/-- src/snitch_registry.cpp 834-896: the predicate deciding which tests run, given the positional
command-line arguments. -/
def selectForRun (maxTag maxName : Nat) (filters : List Text) (id : TestId) : Outcome Bool :=
  if filters.isEmpty then selectDefault maxTag id else selectWithFilters maxTag maxName filters id

end Verif.Filter
