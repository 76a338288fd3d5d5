import Verif.Model.NoExceptions
/-!
# What the build without exceptions does, compared with the normal build

The words in which C73 is stated. Nothing here refers to the functions of `Model/NoExceptions.lean`.
-/
namespace Verif.NoExc.Spec
open Verif.Run

/-- Statements that can be written without exceptions: user statements, checks, SKIP. -/
def WritableStmt : Stmt → Prop
  | .act _ | .check _ (.val _) _ _ | .skip .. => True
  | _ => False

/-- Operands are those of checks, not of the macros about exceptions. -/
def WritableAsk : Ask → Prop
  | .check .. => True
  | _ => False

/-- Code that can be written without exceptions. -/
def Writable : Prog → Prop
  | .done => True
  | .stmt m k => WritableStmt m ∧ Writable k
  | .sec _ _ b k => Writable b ∧ Writable k
  | .capture _ k => Writable k
  | .block b k => Writable b ∧ Writable k
  | .tryCatch .. => False
  | .nested _ o a k => WritableAsk a ∧ Writable o ∧ Writable k
  | .guard c k => Writable c ∧ Writable k

/-- Statements other than REQUIRE, FAIL, SKIP: they let the test go on, whatever they find. -/
def GentleStmt : Stmt → Prop
  | .check _ _ abort _ | .skip _ abort _ => abort = false
  | _ => True

/-- The same for macros with an operand that uses macros. -/
def GentleAsk : Ask → Prop
  | .check _ abort _ => abort = false
  | _ => True

/-- Code in which only CHECK, FAIL_CHECK and SKIP_CHECK are used, as the documentation recommends. -/
def Gentle : Prog → Prop
  | .done => True
  | .stmt m k => GentleStmt m ∧ Gentle k
  | .sec _ _ b k => Gentle b ∧ Gentle k
  | .capture _ k => Gentle k
  | .block b k => Gentle b ∧ Gentle k
  | .tryCatch _ b h k => Gentle b ∧ Gentle h ∧ Gentle k
  | .nested _ o a k => GentleAsk a ∧ Gentle o ∧ Gentle k
  | .guard c k => Gentle c ∧ Gentle k

/-- An event as it is told without exceptions: the location of an assertion counts as exact. -/
def exactly : Event → Event
  | .assertionSucceeded ctx data => .assertionSucceeded { ctx with locType := .exact } data
  | .assertionFailed ctx data expected allowed => .assertionFailed { ctx with locType := .exact } data expected allowed
  | e => e

/-- The assertion made at the end of a test in the normal build. -/
def implicit (cfg : Cfg) (state : CaseState) (ctx : Ctx) : List Event :=
  if cfg.verbosity ≥ 3 ∧ state ≠ .skipped then [.assertionSucceeded ctx "no exception caught".toList] else []

/-- It counts as one assertion, unless the test is skipped. -/
def implicitCount (state : CaseState) : Nat := if state = .skipped then 0 else 1

/-- The end event of a test (from verbosity *high* on). -/
def ended (cfg : Cfg) (t : TestCase) (asserts failures allowed : Nat) (state : CaseState) : List Event :=
  if cfg.verbosity ≥ 2 then [.caseEnded t.id asserts failures allowed state] else []

/-- The last thing a program that was ended by a macro has reported: a failed assertion, or that the test is skipped. -/
def LastWords (log : List Event) : Prop :=
  (∃ l ctx data e a, log = l ++ [.assertionFailed ctx data e a]) ∨ ∃ l ctx msg, log = l ++ [.caseSkipped ctx msg]

/-- How the result `s0` of a test in the build without exceptions compares with its result `s` in the normal build, when
nothing ends the program: the same state and failures; one assertion fewer is counted, and its event is missing; the
other events are the same, with exact locations. -/
structure Told (cfg : Cfg) (t : TestCase) (s0 s : TS) : Prop where
  state : s0.state = s.state
  failures : s0.failures = s.failures
  allowed : s0.allowed = s.allowed
  asserts : s0.asserts + implicitCount s.state = s.asserts
  log : ∃ A B ctx, s.log = A ++ implicit cfg s.state ctx ++ B ++ ended cfg t s.asserts s.failures s.allowed s.state ∧
    s0.log = (A ++ B).map exactly ++ ended cfg t s0.asserts s0.failures s0.allowed s0.state

/-- The events of a test whose program has been ended in the middle: the first ones of the normal build, up to the
failed REQUIRE or FAIL, or the SKIP. (After SKIP_CHECK nothing more is reported, not even a failed REQUIRE.) -/
def Cut (s0 s : TS) : Prop :=
  s0.log <+: s.log.map exactly ∧ (LastWords s0.log ∨ s0.state = .skipped)

end Verif.NoExc.Spec
