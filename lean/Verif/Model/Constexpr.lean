import Verif.Model.TestCase
import Verif.Model.Decompose
/-!
# Model of the checks at compile time

Source: include/snitch/snitch_macros_constexpr.hpp 15-75, include/snitch/snitch_macros_consteval.hpp 15-53. What is
evaluated at compile time cannot throw (the compiler would refuse it), so it is a value; the texts reported
(type, condition, and what is displayed for it) are given as in `Stmt.check`.
-/
namespace Verif.Run

/-- include/snitch/snitch_macros_check_base.hpp 33-38 `SNITCH_REPORT_EXPRESSION`: reports, and aborts if the check
failed and is a `REQUIRE`. -/
def reportExpression (cfg : Cfg) (flight ok abort : Bool) (data : Text) (s : TS) : TS × Res :=
  (reportAssertion cfg flight ok data s, if ok then .normal else maybeAbort abort)

/-- include/snitch/snitch_macros_constexpr.hpp 15-49 `SNITCH_CONSTEXPR_REQUIRE_IMPL` and 58-75
`SNITCH_CONSTEXPR_REQUIRE_THAT_IMPL` (the same up to how the expression is made): `compile` is the verdict at
compile time, `run` what the evaluation at run time does. -/
def constexprCheck (cfg : Cfg) (flight : Bool) (loc : Nat) (abort : Bool) (compile : Bool) (compileData : Text) (run : Eval)
    (runData : Text) (s : TS) : Outcome (TS × Res) := do
  let s ← checkEnter cfg flight loc s
  let (s, r) := reportExpression cfg flight compile abort compileData s
  match r with
  | .raised e => endCheck flight (.raised e) s
  | .normal =>
    match run with
    | .exc e => endCheck flight (.raised e) s
    | .val ok =>
      let (s, r) := reportExpression cfg flight ok abort runData s
      endCheck flight r s

/-- include/snitch/snitch_macros_consteval.hpp 15-30 `SNITCH_CONSTEVAL_REQUIRE_IMPL` and 39-48
`SNITCH_CONSTEVAL_REQUIRE_THAT_IMPL`. -/
def constevalCheck (cfg : Cfg) (flight : Bool) (loc : Nat) (abort : Bool) (compile : Bool) (data : Text) (s : TS) :
    Outcome (TS × Res) := do
  let s ← checkEnter cfg flight loc s
  let (s, r) := reportExpression cfg flight compile abort data s
  endCheck flight r s

end Verif.Run

namespace Verif.Expr

/-- include/snitch/snitch_macros_constexpr.hpp 58-75, include/snitch/snitch_macros_consteval.hpp 39-48: the expression
of the `_THAT` variants at compile time (`checkThat` is that at run time). Matchers of the user; those of the library
that print are modelled at run time. -/
def constexprThat {α : Type} (n m : Nat) (mt : Matcher α) (v : α) : Outcome Expression := do
  let (ok, text) ← runMatch mt v
  let actual ← resizeOrTruncate true n m text
  return { actual, success := ok }

end Verif.Expr
