import Verif.Model.Vector
/-!
# Specification of a bounded list (independent of the buffer representation)
-/
namespace Verif.Spec
open Verif

variable {α : Type}

/-- `ListStep cap l op l'`: a plain list `l`, bounded by `cap`, may become `l'` by `op`.
Growing exposes elements whose value is unspecified. -/
inductive ListStep (cap : Nat) : List α → SV.Op α → List α → Prop where
  | clear (l) : ListStep cap l .clear []
  | resize (l l') (n) : n ≤ cap → l'.length = n → l'.take l.length = l.take n →
      ListStep cap l (.resize n) l'
  | grow (l l') (n) : l.length + n ≤ cap → l'.length = l.length + n → l'.take l.length = l →
      ListStep cap l (.grow n) l'
  | pushBack (l) (x) : l.length < cap → ListStep cap l (.pushBack x) (l ++ [x])
  | popBack (l) : l ≠ [] → ListStep cap l .popBack l.dropLast
  | set (l) (i x) : i < l.length → ListStep cap l (.set i x) (l.set i x)

/-- Sequences of steps. -/
inductive ListSteps (cap : Nat) : List α → List (SV.Op α) → List α → Prop where
  | nil (l) : ListSteps cap l [] l
  | cons {l op l' ops l''} : ListStep cap l op l' → ListSteps cap l' ops l'' →
      ListSteps cap l (op :: ops) l''

/-- The documented requirement of the call is violated for the list `l`. -/
def Violates (cap : Nat) (l : List α) : SV.Op α → Prop
  | .clear => False
  | .resize n => cap < n
  | .grow n => cap < l.length + n
  | .pushBack _ => l.length = cap
  | .popBack => l = []
  | .set i _ => l.length ≤ i

/-- `grow` arguments for which `size() + elem` is computed without wrap-around. -/
def NoWrap (cap : Nat) : SV.Op α → Prop
  | .grow n => cap + n < 2 ^ 64
  | _ => True

end Verif.Spec
