import Verif.Model.Macros
import Verif.Spec.Sections
/-!
# Specification vocabulary for declarations of tests and fixtures
-/
namespace Verif.Macros.Spec
open Verif.Macros Verif.Run Verif.Run.Spec

/-- A test, as seen by a user: name, tags, name of the type and of the fixture (empty if there is none), where it is
declared, and what is called to run it. -/
structure Test where
  name : Text
  tags : Text
  type : Text
  fixture : Text
  loc : Nat
  body : Body

/-- The tests that a declaration stands for: one, or one for each type, in the order of the types. -/
def tests : Decl → List Test
  | .testCase name tags loc body => [⟨name, tags, [], [], loc, body⟩]
  | .templateTestCase name tags loc types => types.map fun t => ⟨name, tags, t.1, [], loc, t.2⟩
  | .templateListTestCase name tags loc types => types.2.map fun t => ⟨name, tags, t.1, [], loc, t.2⟩
  | .testCaseMethod f name tags loc body => [⟨name, tags, [], f.name, loc, f.call body⟩]
  | .templateTestCaseMethod f name tags loc types =>
    types.map fun t => ⟨name, tags, t.1, f, loc, t.2.1.call t.2.2⟩
  | .templateListTestCaseMethod f name tags loc types =>
    types.2.map fun t => ⟨name, tags, t.1, f, loc, t.2.1.call t.2.2⟩

/-- How the registry holds a test that has not been run. -/
def entry (t : Test) : Entry := ⟨⟨⟨t.name, t.tags, t.type⟩, t.loc, t.body⟩, t.fixture, .notRun⟩

variable [MessageLimit]

/-- One execution of a test with a fixture, in context `c`: the fixture is made; if this works the body is executed (for
its leaf section number `n`), and then the fixture is destroyed, whether or not the body throws. -/
def life (f : Fixture) (body : Prog) (c : Ctx) (n : Nat) : List Item × Exit :=
  andThen (pass f.ctor c none) (anyway (passNo body c n) (pass f.dtor c none))

/-- `k` executions, starting with number `n`, each of which does what `run` says, when `seen` is what happened so far:
up to the first that throws, or until the test is skipped. -/
def repeated (run : Nat → List Item × Exit) : Nat → Nat → List Item → List Item × Exit
  | 0, _, seen => (seen, .normal)
  | k + 1, n, seen =>
    match run n with
    | (l, .raised e a) => (seen ++ l, .raised e a)
    | (l, .normal) => if skipsTest (seen ++ l) then (seen ++ l, .normal) else repeated run k (n + 1) (seen ++ l)

/-- Everything that happens in a test at `loc` with a fixture: in each execution the body does what it does in this
execution. -/
def fixtureStory (f : Fixture) (body : Body) (loc : Nat) (shouldFail : Bool) : List Item :=
  let x := repeated (fun n => life f (body.no n) (topCtx loc) n) (passCount body.first) 0 []
  let all := x.1 ++ ending loc x.2
  effective (all ++ if shouldFail then
    [.assertion (all.any Item.isFailure) (Ctx.exactly (topCtx loc) loc) "expected test to fail".toList] else [])

omit [MessageLimit] in
/-- What a function that uses test macros does if these were not there (nor anything in sections, or in the operands of
checks): the user statements that are executed, and the exception with which it ends if it does not end normally. `none`
if a destructor throws, which ends the program. -/
def without : Prog → Option (List Nat × Option Exn)
  | .done => some ([], none)
  | .stmt (.act a) k => (without k).map fun x => (a :: x.1, x.2)
  | .stmt (.throw e) _ => some ([], some e)
  | .stmt _ k => without k
  | .sec _ _ _ k => without k
  | .capture _ k => without k
  | .nested _ _ _ k => without k
  | .block b k =>
    match without b with
    | some (l, none) => (without k).map fun x => (l ++ x.1, x.2)
    | x => x
  | .tryCatch type b h k =>
    match without b with
    | some (l, none) => (without k).map fun x => (l ++ x.1, x.2)
    | some (l, some e) =>
      if catches type e then
        match without h with
        | some (l', none) => (without k).map fun x => (l ++ l' ++ x.1, x.2)
        | some (l', some e') => some (l ++ l', some e')
        | none => none
      else some (l, some e)
    | none => none
  | .guard c k =>
    match without k, without c with
    | some (l, r), some (l', none) => some (l ++ l', r)
    | _, _ => none

/-- The code does not call `notify_exception_handled` itself. -/
def Silent : Prog → Prop
  | .done => True
  | .stmt m k => m ≠ .notify ∧ Silent k
  | .sec _ _ _ k => Silent k
  | .capture _ k => Silent k
  | .nested _ _ _ k => Silent k
  | .block b k => Silent b ∧ Silent k
  | .tryCatch _ b h k => Silent b ∧ Silent h ∧ Silent k
  | .guard c k => Silent c ∧ Silent k

/-- No sections, and no test macros in operands. -/
def Unnested : Prog → Prop
  | .done => True
  | .stmt _ k => Unnested k
  | .sec .. => False
  | .capture _ k => Unnested k
  | .nested .. => False
  | .block b k => Unnested b ∧ Unnested k
  | .tryCatch _ b h k => Unnested b ∧ Unnested h ∧ Unnested k
  | .guard c k => Unnested c ∧ Unnested k

end Verif.Macros.Spec
