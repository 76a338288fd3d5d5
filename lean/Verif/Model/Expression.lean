import Verif.Model.StringUtil
/-!
# Model of decomposed expressions and matchers

Source: include/snitch/snitch_expression.hpp 17-56, 105-186, 190-276,
include/snitch/snitch_matcher.hpp 29-120, src/snitch_matcher.cpp 4-22,
include/snitch/snitch_macros_check.hpp 15-39, 71-84, include/snitch/snitch_string_utility.hpp 39-52.

Which expressions can be decomposed is decided by the C++ type system and is not modelled: the three
forms are the functions `binary`, `unary` and `undecomposed`. User-defined comparisons that throw are in
Verif/Model/TestCase.lean (`Eval.exc`).
-/
namespace Verif.Expr

/-- include/snitch/snitch_expression.hpp 31-36: the comparison operators. -/
inductive Op where
  | less | greater | lessEqual | greaterEqual | equal | notEqual
deriving DecidableEq, Repr

/-- include/snitch/snitch_expression.hpp 31-36: `DISP`. -/
def Op.actual : Op → Text
  | .less => " < ".toList
  | .greater => " > ".toList
  | .lessEqual => " <= ".toList
  | .greaterEqual => " >= ".toList
  | .equal => " == ".toList
  | .notEqual => " != ".toList

/-- include/snitch/snitch_expression.hpp 31-36: `DISP_INV`. -/
def Op.inverse : Op → Text
  | .less => " >= ".toList
  | .greater => " <= ".toList
  | .lessEqual => " > ".toList
  | .greaterEqual => " < ".toList
  | .equal => " != ".toList
  | .notEqual => " == ".toList

/-- The C++ comparison operators between the types of the two operands (built in or user defined). -/
structure Comparison (α β : Type) where
  lt : α → β → Bool
  gt : α → β → Bool
  le : α → β → Bool
  ge : α → β → Bool
  eq : α → β → Bool
  ne : α → β → Bool

/-- include/snitch/snitch_expression.hpp 23-28: `lhs OP rhs`. -/
def Op.eval {α β : Type} (c : Comparison α β) : Op → α → β → Bool
  | .less => c.lt
  | .greater => c.gt
  | .lessEqual => c.le
  | .greaterEqual => c.ge
  | .equal => c.eq
  | .notEqual => c.ne

/-- include/snitch/snitch_expression.hpp 46-55 `append_value`: `none` for a type that cannot be
appended to a string, otherwise the text the value is appended as (C02-C06). -/
def appendValue (ce : Bool) (ss : Str) (v : Option Text) : Outcome (Str × Bool) :=
  match v with
  | some t => Append.text ce ss t
  | none => Append.text ce ss "?".toList

/-- include/snitch/snitch_expression.hpp 40-44 `expression`, without the two texts given by the
macro. -/
structure Expression where
  actual : Text
  success : Bool
deriving DecidableEq, Repr

/-- Values appended one after the other with `||` between the failures; cleared if one of them does not
fit (include/snitch/snitch_expression.hpp 162-181, 259-261). -/
def appendValues (ce : Bool) : List (Option Text) → Str → Outcome Str
  | [], ss => .ok ss
  | v :: vs, ss => do
    let (ss, ok) ← appendValue ce ss v
    if ok then appendValues ce vs ss else return ss.clear

/-- The text of an expression: filled if `!expr.success || SNITCH_DECOMPOSE_SUCCESSFUL_ASSERTIONS`
(`always`); `cap` is `max_expr_length`. -/
def describe (always ce : Bool) (cap : Nat) (success : Bool) (vs : List (Option Text)) :
    Outcome Expression := do
  if !success || always then
    let ss ← appendValues ce vs (SV.empty cap ' ')
    return { actual := ss.contents, success }
  else return { actual := [], success }

/-- include/snitch/snitch_expression.hpp 151-186 `extracted_binary_expression::to_expression`, last
branch: neither operand is a matcher. -/
def binary {α β : Type} (always ce : Bool) (cap : Nat) (expected : Bool) (c : Comparison α β) (op : Op)
    (showL : α → Option Text) (showR : β → Option Text) (l : α) (r : β) : Outcome Expression :=
  let actual := op.eval c l r
  describe always ce cap (actual == expected)
    [showL l, some (if actual then op.actual else op.inverse), showR r]

/-- include/snitch/snitch_expression.hpp 252-266 `extracted_unary_expression::to_expression`. -/
def unary {α : Type} (always ce : Bool) (cap : Nat) (expected : Bool) (toBool : α → Bool)
    (showV : α → Option Text) (v : α) : Outcome Expression :=
  describe always ce cap (toBool v == expected) [showV v]

/-- include/snitch/snitch_macros_check.hpp 24-28: the condition cannot be decomposed. -/
def undecomposed (expected value : Bool) : Expression := { actual := [], success := value == expected }

/-! ## Matchers -/

/-- include/snitch/snitch_matcher.hpp 13-15. -/
inductive Status where
  | failed | matched
deriving DecidableEq, Repr

/-- include/snitch/snitch_matcher.hpp 17-22 `matcher_for`: anything with `match` and
`describe_match`. -/
structure Matcher (α : Type) where
  matches_ : α → Bool
  describe : α → Status → Outcome Text

/-- include/snitch/snitch_matcher.hpp 29-40 `match`. -/
def runMatch {α : Type} (m : Matcher α) (v : α) : Outcome (Bool × Text) :=
  if !m.matches_ v then do return (false, ← m.describe v .failed)
  else do return (true, ← m.describe v .matched)

/-- include/snitch/snitch_matcher.hpp 112-120: `==` with a matcher on either side; `!=` is its
negation (a rewritten candidate in C++20). Only these two operators exist. -/
def matcherEval {α : Type} (m : Matcher α) (isEqual : Bool) (v : α) : Bool :=
  if isEqual then m.matches_ v else !m.matches_ v

/-- include/snitch/snitch_expression.hpp 151-176: the first two branches: one operand is a matcher
(which one makes no difference). -/
def withMatcher {α : Type} (always ce : Bool) (cap : Nat) (expected : Bool) (m : Matcher α)
    (isEqual : Bool) (v : α) : Outcome Expression :=
  let actual := matcherEval m isEqual v
  let success := actual == expected
  if !success || always then do
    let status := if isEqual == actual then Status.matched else Status.failed
    let text ← m.describe v status
    describe always ce cap success [some text]
  else .ok { actual := [], success }

/-- include/snitch/snitch_string_utility.hpp 39-52 `resize_or_truncate<N, M>`. -/
def resizeOrTruncate (ce : Bool) (n m : Nat) (s : Text) : Outcome Text :=
  if n = m then .ok s
  else if n > m then do
    let (ss, _) ← Append.text ce (SV.empty n ' ') s
    return ss.contents
  else do
    let (ss, _) ← Util.appendOrTruncate ce (SV.empty n ' ') [s]
    return ss.contents

/-- include/snitch/snitch_macros_check.hpp 71-84 `CHECK_THAT` / `REQUIRE_THAT`; `n` is
`max_expr_length`, `m` is the capacity of the description (`max_message_length` for the matchers of the
library). -/
def checkThat {α : Type} (n m : Nat) (mt : Matcher α) (v : α) : Outcome Expression := do
  let (ok, text) ← runMatch mt v
  let actual ← resizeOrTruncate false n m text
  return { actual, success := ok }

/-- src/snitch_matcher.cpp 7-18 `contains_substring`; `cap` is `max_message_length`. -/
def containsSubstring (cap : Nat) (pattern : Text) : Matcher Text where
  matches_ message := (Util.findAt pattern message).isSome
  describe message status := do
    let (ss, _) ← Util.appendOrTruncate false (SV.empty cap ' ')
      [if status = .matched then "found".toList else "could not find".toList, " '".toList, pattern,
        "' in '".toList, message, "'".toList]
    return ss.contents

/-- include/snitch/snitch_matcher.hpp 97-110 `with_what_contains`; an exception is given by its
`what()`. -/
def withWhatContains {ε : Type} (cap : Nat) (what : ε → Text) (pattern : Text) : Matcher ε where
  matches_ e := (containsSubstring cap pattern).matches_ (what e)
  describe e status := (containsSubstring cap pattern).describe (what e) status

/-- include/snitch/snitch_matcher.hpp 63-71: the loop of `is_any_of::match`. -/
def anyOfLoop {α : Type} (eq : α → α → Bool) (value : α) : List α → Bool
  | [] => false
  | v :: vs => if eq v value then true else anyOfLoop eq value vs

/-- include/snitch/snitch_matcher.hpp 82-89: the loop of `is_any_of::describe_match`. -/
def anyOfList {α : Type} (showV : α → Text) : List α → Bool → Str → Outcome Str
  | [], _, ss => .ok ss
  | v :: vs, first, ss => do
    let (ss, _) ← Util.appendOrTruncate false ss
      [if first then "'".toList else ", '".toList, showV v, "'".toList]
    anyOfList showV vs false ss

/-- include/snitch/snitch_matcher.hpp 55-92 `is_any_of`; `cap` is `max_message_length`. -/
def isAnyOf {α : Type} (cap : Nat) (eq : α → α → Bool) (showV : α → Text) (list : List α) :
    Matcher α where
  matches_ value := anyOfLoop eq value list
  describe value status := do
    let (ss, _) ← Util.appendOrTruncate false (SV.empty cap ' ')
      ["'".toList, showV value, "' was ".toList,
        if status = .failed then "not ".toList else [], "found in {".toList]
    let ss ← anyOfList showV list true ss
    let (ss, _) ← Util.appendOrTruncate false ss ["}".toList]
    return ss.contents

end Verif.Expr
