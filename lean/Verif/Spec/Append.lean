import Verif.Model.Vector
import Verif.Spec.Text
/-!
# Specification of appending to a bounded text destination
-/
namespace Verif.Spec
open Verif

/-- `r` is a correct result of appending the text `s` to `v`: the call returns, the capacity is
unchanged and respected, the new content is the old content followed by the longest prefix of `s`
that fits, and `true` is returned exactly if the whole of `s` fitted. -/
def Appended (v : SV Char) (s : List Char) (r : Outcome (SV Char × Bool)) : Prop :=
  ∃ v' ok, r = .ok (v', ok) ∧ v'.capacity = v.capacity ∧ v'.size ≤ v'.capacity ∧
    v'.contents = fill v.capacity v.contents s ∧
    (ok = true ↔ v.contents.length + s.length ≤ v.capacity)

end Verif.Spec
