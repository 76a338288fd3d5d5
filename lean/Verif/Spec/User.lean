import Verif.Model.User
import Verif.Spec.Expression
import Verif.Spec.Append
import Verif.Spec.StringUtil
/-!
# Specification: which functions of the program a check calls, and what their exceptions do
-/
namespace Verif.User.Spec
open Verif.Expr Verif.Expr.Spec

/-- The exception a function throws, if any. -/
def thrown {ε α : Type} (f : Fn ε α) : Option ε :=
  match f.does with
  | .returns _ => none
  | .throws e => some e

/-- What a function returns, if anything. -/
def value {ε α : Type} (f : Fn ε α) : Option α :=
  match f.does with
  | .returns a => some a
  | .throws _ => none

/-- A call to be made: of which function, the exception it throws, and is that the end of the program? -/
structure Step (ε : Type) where
  call : Call
  thrown : Option ε
  fatal : Bool

/-- The step of calling `f` where `fatal` says whether an exception ends the program although `f` lets it out. -/
def step {ε α : Type} (c : Call) (f : Fn ε α) (fatal : Bool) : Step ε := ⟨c, thrown f, f.declared || fatal⟩

/-- The calls are made in this order until one throws; only if none does, there is a result. -/
def play {ε α : Type} (result : α) : List (Step ε) → Act ε α
  | [] => ⟨[], .ok result⟩
  | s :: ss =>
    match s.thrown with
    | some e => ⟨[s.call], if s.fatal then .terminated else .threw e⟩
    | none => ⟨s.call :: (play result ss).calls, (play result ss).ends⟩

/-- The text of an operand: `?` if it cannot be converted. -/
def operandText {ε : Type} (shown : Option (Fn ε Text)) : Text :=
  match shown with
  | some f => (value f).getD []
  | none => "?".toList

/-- The step of converting an operand to a text. -/
def convert {ε : Type} (position : Nat) (shown : Option (Fn ε Text)) : List (Step ε) :=
  match shown with
  | some f => [step (.append position) f true]
  | none => []

/-- The value of a condition. -/
def verdict {ε : Type} (f : Fn ε Bool) : Bool := (value f).getD false

/-- Is the text of a condition wanted? -/
def wanted (always expected actual : Bool) : Bool := actual != expected || always

/-- ` == ` or ` != ` and so on, for a comparison with this result. -/
def symbol (op : Op) (actual : Bool) : Text := if actual then op.actual else op.inverse

/-- The calls of a comparison: the operands, the comparison and the conversion of its result to `bool`; then, only if the
text is wanted, the conversion of the left operand, and, only if there is room left, the one of the right. -/
def comparisonPlan {ε : Type} (always : Bool) (cap : Nat) (expected : Bool) (op : Op) (u : Comparing ε) :
    List (Step ε) :=
  [step .operands u.operands false, step .compare u.compare false, step .truth u.truth u.compare.declared] ++
  (if wanted always expected (verdict u.truth) then
    convert 0 u.left ++
      if (operandText u.left ++ symbol op (verdict u.truth)).length ≤ cap then convert 1 u.right else []
  else [])

/-- The text of a comparison. -/
def comparisonText {ε : Type} (op : Op) (u : Comparing ε) : Text :=
  operandText u.left ++ symbol op (verdict u.truth) ++ operandText u.right

/-- What a condition gives: it passes if it has the expected value; its text, if wanted and if there is room for it. -/
def outcome (always : Bool) (cap : Nat) (expected actual : Bool) (text : Text) : Expression :=
  ⟨if wanted always expected actual then allOrNothing cap text else [], actual == expected⟩

/-- The calls of a condition that is a single value. -/
def valuePlan {ε : Type} (always expected : Bool) (operands : Fn ε Unit) (truth : Fn ε Bool)
    (shown : Option (Fn ε Text)) : List (Step ε) :=
  [step .operands operands false, step .truth truth false] ++
    if wanted always expected (verdict truth) then convert 0 shown else []

/-- The calls of a condition that cannot be decomposed. -/
def conditionPlan {ε : Type} (operands : Fn ε Unit) (truth : Fn ε Bool) : List (Step ε) :=
  [step .operands operands false, step .truth truth false]

/-- The status asked for: did the value match? -/
def statusOf {ε : Type} (u : Matching ε) : Status := if verdict u.matching then .matched else .failed

/-- The description of a match. -/
def description {ε : Type} (u : Matching ε) : Text := (value (u.describe (statusOf u))).getD []

/-- The result of `value == matcher`, or `value != matcher`. -/
def matcherVerdict {ε : Type} (isEqual : Bool) (u : Matching ε) : Bool := verdict u.matching == isEqual

/-- The calls of `CHECK(value == matcher)`: the description only if the text is wanted. -/
def matcherPlan {ε : Type} (always expected isEqual : Bool) (u : Matching ε) : List (Step ε) :=
  [step .operands u.operands false, step .matching u.matching true] ++
    if wanted always expected (matcherVerdict isEqual u) then
      [step (.describe (statusOf u)) (u.describe (statusOf u)) true]
    else []

/-- The calls of `CHECK_THAT` (exceptions of the matcher are fatal) and `CHECK_THROWS_MATCHES` (they are not): always with
the description. -/
def matchPlan {ε : Type} (fatal : Bool) (u : Matching ε) : List (Step ε) :=
  [step .operands u.operands false, step .matching u.matching fatal,
    step (.describe (statusOf u)) (u.describe (statusOf u)) fatal]

/-- The text of an argument of a message. -/
def argText {ε : Type} : Arg ε → Text
  | .text t => t
  | .value f => (value f).getD []

/-- The conversions for a message: of one value after the other, as long as all that comes before has fit. -/
def argPlan {ε : Type} (cap : Nat) : Nat → Nat → List (Arg ε) → List (Step ε)
  | _, _, [] => []
  | used, i, a :: as =>
    (match a with
      | .text _ => []
      | .value f => [step (.append i) f true]) ++
    if used + (argText a).length ≤ cap then
      argPlan cap (used + (argText a).length) (match a with | .text _ => i | .value _ => i + 1) as
    else []

/-- The calls of `CAPTURE` or `INFO`. -/
def capturePlan {ε : Type} (cap : Nat) (operands : Fn ε Unit) (args : List (Arg ε)) : List (Step ε) :=
  step .operands operands false :: argPlan cap 0 0 args

end Verif.User.Spec
