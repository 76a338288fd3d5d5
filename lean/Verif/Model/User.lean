import Verif.Model.Expression
import Verif.Model.TestCase
/-!
# Model of the calls of user code made by checks and captures

Source: include/snitch/snitch_macros_check.hpp 15-30, 71-84, include/snitch/snitch_macros_check_base.hpp 22-38,
include/snitch/snitch_expression.hpp 18-56, 151-186, 252-266, include/snitch/snitch_matcher.hpp 30-40, 112-120,
include/snitch/snitch_macros_exceptions.hpp 50-72, include/snitch/snitch_capture.hpp 28-48,
include/snitch/snitch_string_utility.hpp 29-37, include/snitch/snitch_append.hpp 378-382.

The functions of Verif/Model/Expression.lean again, with the functions of the program they call: the operands, the
comparison, the conversion of its result to `bool`, the overload of `append` for the type of an operand, the functions
of a matcher. Each of them can throw an exception. What becomes of the exception depends on the `noexcept` of the
functions of the library between it and the test.

Simplified: the operands are evaluated in one call; an overload of `append` appends one text, with `append` of a
`std::string_view`, and returns the result of this. Copying values is not modelled.
-/
namespace Verif.User
open Verif.Expr

/-- The functions of the program that are called (include/snitch/snitch_expression.hpp 27, 47-48, 259; include/snitch/snitch_matcher.hpp
32-38); `append` for the first operand, the second one, and so on. -/
inductive Call where
  | operands
  | compare
  | truth
  | append (position : Nat)
  | matching
  | describe (status : Status)
deriving DecidableEq, Repr

/-- What a call of a function of the program does. (Nothing in /repo: code of the user.) -/
inductive Done (ε α : Type) where
  | returns (a : α)
  | throws (e : ε)
deriving DecidableEq, Repr

/-- A function of the program (nothing in /repo: code of the user), for the given arguments: is it declared `noexcept`, and what does calling it do? -/
structure Fn (ε α : Type) where
  declared : Bool
  does : Done ε α
deriving DecidableEq, Repr

/-- How a piece of the library ends: with a result, with an exception that leaves it, with `std::terminate`, or with
undefined behaviour. (The language, not /repo.) -/
inductive Ends (ε α : Type) where
  | ok (a : α)
  | threw (e : ε)
  | terminated
  | undefined
deriving DecidableEq, Repr

/-- The calls made, and how it ends. (The language, not /repo.) -/
structure Act (ε α : Type) where
  calls : List Call
  ends : Ends ε α
deriving DecidableEq, Repr

/-- One piece after the other. (The language, not /repo.) -/
def Act.bind {ε α β : Type} (x : Act ε α) (f : α → Act ε β) : Act ε β :=
  match x with
  | ⟨cs, .ok a⟩ => ⟨cs ++ (f a).calls, (f a).ends⟩
  | ⟨cs, .threw e⟩ => ⟨cs, .threw e⟩
  | ⟨cs, .terminated⟩ => ⟨cs, .terminated⟩
  | ⟨cs, .undefined⟩ => ⟨cs, .undefined⟩

/-- Sequences are written with `do`. (The language, not /repo.) -/
instance {ε : Type} : Monad (Act ε) where
  pure a := ⟨[], .ok a⟩
  bind := Act.bind

/-- A call of a function of the program. An exception that would leave a function declared `noexcept` calls
`std::terminate` (C++20 [except.spec] 5). -/
def call {ε α : Type} (c : Call) (f : Fn ε α) : Act ε α :=
  ⟨[c], match f.does with
    | .returns a => .ok a
    | .throws e => if f.declared then .terminated else .threw e⟩

/-- A function of the library that is `noexcept(b)`: include/snitch/snitch_expression.hpp 24, 47, 52, 151, 252,
include/snitch/snitch_matcher.hpp 30, 113, 118, include/snitch/snitch_append.hpp 379,
include/snitch/snitch_string_utility.hpp 30. -/
def noThrow {ε α : Type} (b : Bool) (x : Act ε α) : Act ε α :=
  match x with
  | ⟨cs, .threw e⟩ => ⟨cs, if b then .terminated else .threw e⟩
  | x => x

/-- A piece without calls of user code, modelled elsewhere; `assertion_failed` (src/snitch_error_handling.cpp 16-25) ends
the program. -/
def lift {ε α : Type} : Outcome α → Act ε α
  | .ok a => ⟨[], .ok a⟩
  | .abort => ⟨[], .terminated⟩
  | .ub => ⟨[], .undefined⟩

/-- include/snitch/snitch_expression.hpp 46-55 `append_value`, both overloads are `noexcept`; `none`: there is no overload
of `append` for the type. -/
def appendValue {ε : Type} (ce : Bool) (position : Nat) (ss : Str) (shown : Option (Fn ε Text)) : Act ε (Str × Bool) :=
  noThrow true
    (match shown with
    | some f => do
      let t ← call (.append position) f
      lift (Append.text ce ss t)
    | none => lift (Append.text ce ss "?".toList))

/-- What the program defines for a comparison of two operands (include/snitch/snitch_expression.hpp 27, 178-181): evaluating them, `lhs OP rhs`, the conversion of the
result to `bool`, and `append` for each operand. -/
structure Comparing (ε : Type) where
  operands : Fn ε Unit
  compare : Fn ε Unit
  truth : Fn ε Bool
  left : Option (Fn ε Text)
  right : Option (Fn ε Text)

/-- include/snitch/snitch_expression.hpp 23-28: `operator()` of an operator, `noexcept(noexcept(lhs OP rhs))`; the
conversion to `bool` is part of the return statement. -/
def applyOperator {ε : Type} (u : Comparing ε) : Act ε Bool :=
  noThrow u.compare.declared do
    call .compare u.compare
    call .truth u.truth

/-- include/snitch/snitch_expression.hpp 151-186 `to_expression` of a comparison without matcher; it is `noexcept` if
`operator()` is. -/
def comparison {ε : Type} (always ce : Bool) (cap : Nat) (expected : Bool) (op : Op) (u : Comparing ε) :
    Act ε Expression :=
  noThrow u.compare.declared do
    let actual ← applyOperator u
    let success := actual == expected
    if !success || always then
      let (ss, ok) ← appendValue ce 0 (SV.empty cap ' ') u.left
      if !ok then return { actual := [], success }
      else
        let (ss, ok) ← lift (Append.text ce ss (if actual then op.actual else op.inverse))
        if !ok then return { actual := [], success }
        else
          let (ss, ok) ← appendValue ce 1 ss u.right
          return { actual := if ok then ss.contents else [], success }
    else return { actual := [], success }

/-- include/snitch/snitch_macros_check.hpp 15-24 `CHECK(lhs OP rhs)`: the operands are evaluated, then `to_expression`
is called. (The condition also stands in a `decltype`, which evaluates nothing.) -/
def checkComparison {ε : Type} (always ce : Bool) (cap : Nat) (expected : Bool) (op : Op) (u : Comparing ε) :
    Act ε Expression := do
  call .operands u.operands
  comparison always ce cap expected op u

/-- include/snitch/snitch_macros_check.hpp 15-24, include/snitch/snitch_expression.hpp 252-266 `CHECK(value)`: `to_expression`
is `noexcept` if the conversion to `bool` is. -/
def checkValue {ε : Type} (always ce : Bool) (cap : Nat) (expected : Bool) (operands : Fn ε Unit) (truth : Fn ε Bool)
    (shown : Option (Fn ε Text)) : Act ε Expression := do
  call .operands operands
  noThrow truth.declared do
    let actual ← call .truth truth
    let success := actual == expected
    if !success || always then
      let (ss, ok) ← appendValue ce 0 (SV.empty cap ' ') shown
      return { actual := if ok then ss.contents else [], success }
    else return { actual := [], success }

/-- include/snitch/snitch_macros_check.hpp 24-28: a condition that is not decomposed. -/
def checkCondition {ε : Type} (expected : Bool) (operands : Fn ε Unit) (truth : Fn ε Bool) : Act ε Expression := do
  call .operands operands
  let actual ← call .truth truth
  return { actual := [], success := actual == expected }

/-- What the program defines for a matcher and a value (include/snitch/snitch_matcher.hpp 17-22): evaluating both, `match` (converted to `bool`) and `describe_match`
(converted to a `std::string_view`). -/
structure Matching (ε : Type) where
  operands : Fn ε Unit
  matching : Fn ε Bool
  describe : Status → Fn ε Text

/-- include/snitch/snitch_matcher.hpp 112-120 and include/snitch/snitch_expression.hpp 23-28, 151-176:
`CHECK(value == matcher)`, or `!=` if `isEqual` is false, with the operators of the library, which are `noexcept`; so is
then `to_expression`, which calls `describe_match`. -/
def checkMatcher {ε : Type} (always ce : Bool) (cap : Nat) (expected isEqual : Bool) (u : Matching ε) :
    Act ε Expression := do
  call .operands u.operands
  noThrow true do
    let m ← noThrow true (call .matching u.matching)
    let actual := if isEqual then m else !m
    let success := actual == expected
    if !success || always then
      let status := if isEqual == actual then Status.matched else Status.failed
      let text ← call (.describe status) (u.describe status)
      let (ss, ok) ← lift (Append.text ce (SV.empty cap ' ') text)
      return { actual := if ok then ss.contents else [], success }
    else return { actual := [], success }

/-- include/snitch/snitch_macros_check.hpp 71-84 `CHECK_THAT(value, matcher)`, with `match` of
include/snitch/snitch_matcher.hpp 30-40, which is `noexcept`. -/
def checkThat {ε : Type} (n m : Nat) (u : Matching ε) : Act ε Expression := do
  call .operands u.operands
  let (success, text) ← noThrow true do
    let b ← call .matching u.matching
    let text ← call (.describe (if b then .matched else .failed)) (u.describe (if b then .matched else .failed))
    return (b, text)
  let actual ← lift (resizeOrTruncate false n m text)
  return { actual, success }

/-- include/snitch/snitch_macros_exceptions.hpp 56-71 `CHECK_THROWS_MATCHES`, once the exception has been caught: the
matcher is evaluated and called in the handler; the verdict and the description. -/
def throwsMatches {ε : Type} (u : Matching ε) : Act ε (Bool × Text) := do
  call .operands u.operands
  let b ← call .matching u.matching
  let text ← call (.describe (if b then .matched else .failed)) (u.describe (if b then .matched else .failed))
  return (b, text)

/-- An argument of `append_or_truncate` (include/snitch/snitch_string_utility.hpp 29-30): a text of the library, or a value of the program. -/
inductive Arg (ε : Type) where
  | text (t : Text)
  | value (shown : Fn ε Text)

/-- include/snitch/snitch_append.hpp 378-382: variadic `append`, which is `noexcept`; left to right, stopping at the first
text that does not fit. -/
def variadic {ε : Type} (ce : Bool) : Nat → List (Arg ε) → Str → Act ε (Str × Bool)
  | _, [], ss => return (ss, true)
  | i, .text t :: as, ss => do
    let (ss, ok) ← lift (Append.text ce ss t)
    if ok then variadic ce i as ss else return (ss, false)
  | i, .value f :: as, ss => do
    let t ← call (.append i) f
    let (ss, ok) ← lift (Append.text ce ss t)
    if ok then variadic ce (i + 1) as ss else return (ss, false)

/-- include/snitch/snitch_string_utility.hpp 29-37 `append_or_truncate`, which is `noexcept`. -/
def appendOrTruncate {ε : Type} (ce : Bool) (ss : Str) (args : List (Arg ε)) : Act ε (Str × Bool) :=
  noThrow true do
    let (ss, ok) ← noThrow true (variadic ce 0 args ss)
    if !ok then
      let ss ← lift (Util.truncateEnd ss)
      return (ss, false)
    else return (ss, true)

/-- include/snitch/snitch_capture.hpp 28-32, 42-47: the text of one capture, of `INFO(args...)`, or of `CAPTURE(value)`,
where the arguments are the name, ` := ` and the value; `cap` is `max_capture_length`. -/
def capture {ε : Type} (cap : Nat) (operands : Fn ε Unit) (args : List (Arg ε)) : Act ε Text := do
  call .operands operands
  let (ss, _) ← appendOrTruncate false (SV.empty cap ' ') args
  return ss.contents

/-- What evaluating the operand of a check (include/snitch/snitch_macros_check.hpp 15-30) does in the model of runs (Verif/Model/TestCase.lean): a value or an exception;
nothing if the program ends. -/
def toEval : Ends Run.Exn Expression → Option Run.Eval
  | .ok e => some (.val e.success)
  | .threw e => some (.exc e)
  | _ => none

end Verif.User
