import Verif.Spec.Sections
/-!
# Specification of what the end of a section tells
-/
namespace Verif.Run.Spec
open Verif.Run

/-- The end of a section: which section it is, whether the test was skipped by then, and what happened since it was entered. -/
structure Left where
  id : Nat
  skipped : Bool
  inside : List Item
deriving DecidableEq, Repr

/-- The sections that end for good in what happens: `seen` is what happened before, and the sections that are open are given
innermost first, each with what happened in it since it was entered. -/
def lefts : List Item → List (Nat × List Item) → List Item → List Left
  | _, _, [] => []
  | seen, opened, .enter id first :: l => lefts (seen ++ [.enter id first]) ((id, []) :: opened) l
  | seen, [], .leave id last :: l => lefts (seen ++ [.leave id last]) [] l
  | seen, (k, inside) :: opened, .leave id last :: l =>
    (if last then [⟨k, skipsTest seen, inside⟩] else []) ++ lefts (seen ++ [.leave id last]) opened l
  | seen, opened, x :: l => lefts (seen ++ [x]) (opened.map fun o => (o.1, o.2 ++ [x])) l

/-- What the end of a section has to tell: the section, whether the test is skipped, and the numbers of assertions in it, of
failures, and of failures that are expected or allowed. `special`: the test may or should fail. -/
def Left.told (special : Bool) (x : Left) : Nat × Bool × Nat × Nat × Nat :=
  (x.id, x.skipped, (x.inside.filter Item.isAssertion).length,
    if special then 0 else (x.inside.filter Item.isFailure).length,
    if special then (x.inside.filter Item.isFailure).length else 0)

/-- What the ends of sections tell. -/
def sectionEnds (log : List Event) : List (Nat × Bool × Nat × Nat × Nat) :=
  log.filterMap fun e => match e with
    | .sectionEnded id skipped a f al => some (id, skipped, a, f, al)
    | _ => none

/-- The sections that are open at a place of something that happens. -/
def Item.path : Item → List Nat
  | .assertion _ ctx _ => ctx.path
  | .skip ctx _ => ctx.path
  | _ => []

/-- What the end of section `id` should tell: all assertions and failures in the section, whenever they happened. -/
def allOf (special : Bool) (id : Nat) (story : List Item) : Nat × Nat × Nat :=
  let here := story.filter fun x => decide (id ∈ x.path)
  ((here.filter Item.isAssertion).length,
    if special then 0 else (here.filter Item.isFailure).length,
    if special then (here.filter Item.isFailure).length else 0)

/-- Every end of a section tells all assertions and failures in the section. -/
def EndsTellAll (special : Bool) (story : List Item) (log : List Event) : Prop :=
  ∀ e ∈ sectionEnds log, e.2.2 = allOf special e.1 story

/-- The sections of a body, in the order of their beginnings (sections inside try blocks, operands and destructors are not
considered). -/
def sectionIds : Prog → List Nat
  | .done => []
  | .stmt _ k => sectionIds k
  | .sec id _ b k => id :: sectionIds b ++ sectionIds k
  | .capture _ k => sectionIds k
  | .block b k => sectionIds b ++ sectionIds k
  | .tryCatch _ _ _ k => sectionIds k
  | .nested _ _ _ k => sectionIds k
  | .guard _ k => sectionIds k

/-- No section contains two leaf sections, so each is executed only once. -/
def Once : Prog → Prop
  | .done => True
  | .stmt _ k => Once k
  | .sec _ _ b k => leaves b ≤ 1 ∧ Once b ∧ Once k
  | .capture _ k => Once k
  | .block b k => Once b ∧ Once k
  | .tryCatch _ _ _ k => Once k
  | .nested _ _ _ k => Once k
  | .guard _ k => Once k

/-- Every assertion and every skip is told where `rel` holds between its sections and the sections whose start has been told
and whose end has not. -/
def ToldInside (rel : List Nat → List Nat → Prop) : List Nat → List Event → Prop
  | _, [] => True
  | p, .sectionStarted id :: l => ToldInside rel (p ++ [id]) l
  | p, .sectionEnded .. :: l => ToldInside rel p.dropLast l
  | p, .assertionSucceeded ctx _ :: l => rel ctx.path p ∧ ToldInside rel p l
  | p, .assertionFailed ctx _ _ _ :: l => rel ctx.path p ∧ ToldInside rel p l
  | p, .caseSkipped ctx _ :: l => rel ctx.path p ∧ ToldInside rel p l
  | p, _ :: l => ToldInside rel p l

end Verif.Run.Spec
