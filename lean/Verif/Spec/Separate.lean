import Verif.Spec.Sections
/-!
# Specification of the tests that a test with sections stands for
-/
namespace Verif.Run.Spec
open Verif.Run

/-- The code with only those of its sections that lead to leaf section number `n` (`some n`), or without any (`none`). -/
def only : Prog → Option Nat → Prog
  | .done, _ => .done
  | .stmt m k, w => .stmt m (only k w)
  | .sec _ _ _ k, none => only k none
  | .sec id loc b k, some n =>
    if n < max 1 (leaves b) then .sec id loc (only b (if leaves b = 0 then none else some n)) (only k none)
    else only k (some (n - max 1 (leaves b)))
  | .capture caps k, w => .capture caps (only k w)
  | .block b k, none => .block (only b none) (only k none)
  | .block b k, some n =>
    if n < leaves b then .block (only b (some n)) (only k none) else .block (only b none) (only k (some (n - leaves b)))
  | .tryCatch type b h k, w => .tryCatch type b h (only k w)
  | .nested loc o ask k, w => .nested loc o ask (only k w)
  | .guard c k, w => .guard c (only k w)

/-- The test which does what execution number `n` of a test is for: everything outside sections, and the sections that lead to
leaf section number `n`. -/
def alone (t : TestCase) (n : Nat) : TestCase :=
  { t with body := only (t.body.no n) (if leaves (t.body.no n) = 0 then none else some n) }

/-- Code without `SKIP` and `SKIP_CHECK`. -/
def NoSkip : Prog → Prop
  | .done => True
  | .stmt (.skip ..) _ => False
  | .stmt _ k => NoSkip k
  | .sec _ _ b k => NoSkip b ∧ NoSkip k
  | .capture _ k => NoSkip k
  | .block b k => NoSkip b ∧ NoSkip k
  | .tryCatch _ b h k => NoSkip b ∧ NoSkip h ∧ NoSkip k
  | .nested _ o _ k => NoSkip o ∧ NoSkip k
  | .guard c k => NoSkip c ∧ NoSkip k

/-- Code which does not itself throw the exception with which the framework ends tests. -/
def OwnThrows : Prog → Prop
  | .done => True
  | .stmt (.throw e) k => e.isAbort = false ∧ OwnThrows k
  | .stmt (.check _ (.exc e) _ _) k => e.isAbort = false ∧ OwnThrows k
  | .stmt _ k => OwnThrows k
  | .sec _ _ b k => OwnThrows b ∧ OwnThrows k
  | .capture _ k => OwnThrows k
  | .block b k => OwnThrows b ∧ OwnThrows k
  | .tryCatch _ b h k => OwnThrows b ∧ OwnThrows h ∧ OwnThrows k
  | .nested _ o _ k => OwnThrows o ∧ OwnThrows k
  | .guard c k => OwnThrows c ∧ OwnThrows k

/-- What a test did that matters: statements of the user, and failures with their place and text. -/
inductive Deed
  | did (a : Nat)
  | failed (ctx : Ctx) (text : Text)
  deriving DecidableEq, Repr

/-- What a log says that was done. -/
def deeds (log : List Event) : List Deed :=
  log.filterMap fun e => match e with
    | .user a => some (.did a)
    | .assertionFailed ctx d _ _ => some (.failed ctx d)
    | _ => none

variable [MessageLimit]

/-- The test is ended by an exception that leaves it (that of a failed `REQUIRE`, or another one) in its first execution. -/
def interrupted (t : TestCase) : Prop := (passNo t.body.first (topCtx t.loc) 0).2 ≠ .normal

end Verif.Run.Spec
