import Verif.Model.Current
/-!
# Which test a macro belongs to

The specification follows the nesting of the code only: it has no variable that could be left with the
wrong value.
-/
namespace Verif.Current.Spec

/-- The uses in a piece of code belonging to test `owner`, in order, each with the innermost test
around it; tests are numbered from `next`. Also the number of tests run, and whether an exception
leaves the code. -/
def uses (owner : Nat) : Nat → Code → List (Nat × Use) × Nat × Bool
  | _, .done => ([], 0, false)
  | next, .use here k =>
    let (l, n, r) := uses owner next k
    ((owner, .at here) :: l, n, r)
  | _, .raise => ([], 0, true)
  | next, .handle body k =>
    let (l1, n1, _) := uses owner next body
    let (l2, n2, r) := uses owner (next + n1) k
    (l1 ++ l2, n1 + n2, r)
  | next, .runTest body k =>
    let (l1, n1, _) := uses next (next + 1) body
    let (l2, n2, r) := uses owner (next + 1 + n1) k
    (l1 ++ [(next, .closing)] ++ l2, 1 + n1 + n2, r)

/-- Executing the code reaches a use that is not inside any test, and whether it raises (when it does
not). -/
def stray : Code → Bool × Bool
  | .done => (false, false)
  | .use _ _ => (true, false)
  | .raise => (false, true)
  | .handle body k => ((stray body).1 || (stray k).1, (stray k).2)
  | .runTest _ k => stray k

end Verif.Current.Spec
