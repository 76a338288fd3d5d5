import Verif.Model.Any
/-!
# What containers hold

The specification says which object each container holds, and nothing about bytes and deleters.
-/
namespace Verif.Any.Spec

/-- The containers in order of creation: `none` if destroyed, otherwise the object held and its
type; and the number of objects made so far. -/
structure State where
  holds : List (Option (Option (Nat × Nat))) := []
  made : Nat := 0

/-- Whether a container exists. -/
def State.exists (s : State) (i : Nat) : Prop := (s.holds[i]?.join).isSome = true

instance (s : State) (i : Nat) : Decidable (s.exists i) := inferInstanceAs (Decidable (_ = _))

/-- The object held by a container. -/
def State.content (s : State) (i : Nat) : Option (Nat × Nat) := s.holds[i]?.join.join

/-- The intended effect of an operation. -/
def State.after (s : State) : Op → State
  | .create => { s with holds := s.holds ++ [some none] }
  | .createFrom j =>
    if s.exists j then { s with holds := s.holds.set j (some none) ++ [some (s.content j)] } else s
  | .emplace i t =>
    if s.exists i then { holds := s.holds.set i (some (some (s.made, t))), made := s.made + 1 } else s
  | .emplaceThrows i => if s.exists i then { s with holds := s.holds.set i (some none) } else s
  | .reset i => if s.exists i then { s with holds := s.holds.set i (some none) } else s
  | .assign i j =>
    if s.exists i ∧ s.exists j then
      { s with holds := (s.holds.set i (some (s.content j))).set j (some none) }
    else s
  | .destroy i => if s.exists i then { s with holds := s.holds.set i none } else s

end Verif.Any.Spec
