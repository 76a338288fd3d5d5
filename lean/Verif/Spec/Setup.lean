import Verif.Spec.Program
/-!
# Specification of code before the sections of a test
-/
namespace Verif.Run.Spec
open Verif.Run

/-- A section: its name, its place and its code. -/
structure Sec where
  id : Nat
  loc : Nat
  body : Prog

/-- One section after the other, and then `k`. -/
def sectionsThen : List Sec → Prog → Prog
  | [], k => k
  | s :: l, k => .sec s.id s.loc s.body (sectionsThen l k)

/-- `{ setup } SECTION(...) {...} SECTION(...) {...} k` -/
def before (setup : Prog) (l : List Sec) (k : Prog) : Prog := .block setup (sectionsThen l k)

/-- `SECTION(...) { { setup } ... } SECTION(...) { { setup } ... } k` -/
def within (setup : Prog) (l : List Sec) (k : Prog) : Prog :=
  sectionsThen (l.map fun s => { s with body := .block setup s.body }) k

/-- The code before the sections of the first test is at the begin of each section of the second one. There are sections, but none in
the code before and after them. In each execution the code may be another. -/
structure SetupTest (t u : TestCase) : Prop where
  id : u.id = t.id
  loc : u.loc = t.loc
  body : ∀ n, ∃ setup l k, leaves setup = 0 ∧ leaves k = 0 ∧ l ≠ [] ∧ t.body.no n = before setup l k ∧ u.body.no n = within setup l k

/-- What is said by a log except for section starts and ends and for the places (sections and lines) of checks: the statements of the
user, the checks with their captures and texts, and the skips. -/
inductive Said
  | did (a : Nat)
  | checked (ok : Bool) (caps : List Text) (text : Text)
  | skipped (caps : List Text) (msg : Text)
  deriving DecidableEq, Repr

def said (log : List Event) : List Said :=
  log.filterMap fun e => match e with
    | .user a => some (.did a)
    | .assertionSucceeded ctx d => some (.checked true ctx.caps d)
    | .assertionFailed ctx d _ _ => some (.checked false ctx.caps d)
    | .caseSkipped ctx msg => some (.skipped ctx.caps msg)
    | _ => none

end Verif.Run.Spec
