import Verif.Lemmas.Any
/-!
# C38: type-erased storage destroys every object exactly once

`Spec.State.after` says which object each container holds after an operation; it knows nothing of bytes
and deleters. In the model (Verif/Model/Any.lean) `made` lists the types of all objects constructed and
`gone` all calls of a destructor; destroying an object twice, or through a deleter of another type, is
`.ub`.
-/
namespace Verif.Props
open Verif.Any Verif.Any.Spec

/-- C38: whatever is done with any number of containers, nothing undefined happens, and every object made
so far is held by exactly one container and has not been destroyed, or is held by none and has been
destroyed exactly once. -/
theorem C38_once (ops : List Op) :
    ∃ w, run {} ops = .ok w ∧ w.gone.Nodup ∧ (∀ o ∈ w.gone, o < w.made.length) ∧
      ∀ (o t : Nat), w.made[o]? = some t →
        ((o ∉ w.gone ∧ ∃ i : Nat, (ops.foldl State.after {}).holds[i]? = some (some (some (o, t))) ∧
            ∀ (j t' : Nat), (ops.foldl State.after {}).holds[j]? = some (some (some (o, t'))) → j = i) ∨
          (o ∈ w.gone ∧
            ∀ (j t' : Nat), (ops.foldl State.after {}).holds[j]? ≠ some (some (some (o, t'))))) := by
  obtain ⟨w, e, h⟩ := inv_start.run ops
  refine ⟨w, e, h.nodup, h.bound, ?_⟩
  intro o t ho
  by_cases hg : o ∈ w.gone
  · right
    refine ⟨hg, ?_⟩
    intro j t' hj
    exact ((h.live o t').2 ⟨j, hj⟩).2 hg
  · left
    obtain ⟨i, hi⟩ := (h.live o t).1 ⟨ho, hg⟩
    exact ⟨hg, i, hi, fun j t' hj => h.uniq j i o t' t hj hi⟩

/-- C38: when all containers are gone, every object made has been destroyed. -/
theorem C38_all_gone (ops : List Op) (w : World) (e : run {} ops = .ok w)
    (hall : ∀ c ∈ w.containers, c = none) : ∀ o, o < w.made.length → o ∈ w.gone := by
  obtain ⟨w', e', h⟩ := inv_start.run ops
  rw [e] at e'; cases e'
  intro o ho
  apply Classical.byContradiction
  intro hg
  obtain ⟨i, hi⟩ := (h.live o w.made[o]).1 ⟨List.getElem?_eq_getElem ho, hg⟩
  rw [← h.view i] at hi
  cases hc : w.containers[i]? with
  | none => rw [hc] at hi; cases hi
  | some c => rw [hc, hall c (List.mem_of_getElem? hc)] at hi; cases hi

/-- C38: `get<T>()` returns the object held if it is of type `T`, which is then alive, and otherwise
reports a failure; `has_value()` tells whether an object is held. -/
theorem C38_get (ops : List Op) (w : World) (e : run {} ops = .ok w) (i : Nat) (c : Container)
    (hc : w.at i = some c) (t : Nat) :
    (∀ o, (ops.foldl State.after {}).content i = some (o, t) →
      Any.get w c t = .ok o ∧ w.made[o]? = some t ∧ o ∉ w.gone) ∧
    ((∀ o, (ops.foldl State.after {}).content i ≠ some (o, t)) → Any.get w c t = .abort) ∧
    c.hasValue = ((ops.foldl State.after {}).content i).isSome := by
  obtain ⟨w', e', h⟩ := inv_start.run ops
  rw [e] at e'; cases e'
  rw [h.content hc]
  obtain ⟨_, hst⟩ := h.good i c (at_eq hc)
  have hh := h.holds hc
  cases hid : c.id with
  | none => simp [Any.get, Container.hasValue, Container.view, hid]
  | some t0 =>
    obtain ⟨o0, ho0⟩ := Option.isSome_iff_exists.1 (hst (by rw [hid]; rfl))
    have hv : c.view = some (o0, t0) := by simp [Container.view, hid, ho0]
    rw [hv] at hh
    have hl := (h.live o0 t0).2 ⟨i, hh⟩
    refine ⟨?_, ?_, ?_⟩
    · intro o ho
      rw [hv] at ho; cases ho
      refine ⟨?_, hl⟩
      simp only [Any.get, Container.hasValue, hid, ho0]
      simp [hl.1, hl.2]
    · intro hne
      have : t0 ≠ t := by
        intro e; subst e; exact hne o0 hv
      simp [Any.get, Container.hasValue, hid, this]
    · simp [Container.hasValue, hid, hv]

/-- The hypotheses can be met: two containers, the object of the second is moved to the first (whose own
is destroyed), replaced, and all are destroyed, in the order in which the program does it. -/
example : run {} [.create, .create, .emplace 0 7, .emplace 1 8, .assign 0 1, .emplace 1 9, .createFrom 0,
      .assign 1 1, .destroy 0, .destroy 1, .destroy 2] =
    .ok { containers := [none, none, none], made := [7, 8, 9], gone := [0, 2, 1] } := by decide

example : run {} [.create, .create, .emplace 1 8, .assign 0 1] =
    .ok { containers := [some { storage := some 0, deleter := some 8, id := some 8 },
      some { storage := some 0, deleter := none, id := none }], made := [8], gone := [] } := by decide

end Verif.Props
