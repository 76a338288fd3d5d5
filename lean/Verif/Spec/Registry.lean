import Verif.Model.Registry
import Verif.Spec.Filter
/-!
# Specification of registering, listing and running

Uses only the data types of the model (tests, states, results), not its functions.
-/
namespace Verif.Reg.Spec

/-- The full name of a test: its name, followed by its type for typed tests. -/
def fullName (id : Filter.TestId) : Text :=
  if id.type = [] then id.name else id.name ++ " <".toList ++ id.type ++ ">".toList

/-- A test can be registered if its full name is not empty and fits. -/
def Registrable (maxName : Nat) (t : Run.TestCase) : Prop :=
  fullName t.id ≠ [] ∧ (fullName t.id).length ≤ maxName

instance (maxName : Nat) (t : Run.TestCase) : Decidable (Registrable maxName t) :=
  inferInstanceAs (Decidable (_ ∧ _))

/-- The tags of a test are written `[t1]...[tn]`, and the short forms `[.x]` fit. -/
def Tagged (maxTag : Nat) (id : Filter.TestId) (ts : List Text) : Prop :=
  id.tags = Verif.Spec.tagString ts ∧ (∀ t ∈ ts, Verif.Spec.TagOk t) ∧
    ∀ t ∈ ts, Verif.Spec.Hides t → t.length < maxTag

/-- How many results are in a given state. -/
def count (st : Run.CaseState) (rs : List Run.TS) : Nat := (rs.filter fun r => r.state = st).length

/-- Sum of a counter over the results. -/
def total (f : Run.TS → Nat) (rs : List Run.TS) : Nat := (rs.map f).sum

end Verif.Reg.Spec
