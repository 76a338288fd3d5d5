import Verif.Spec.Reorder
import Verif.Lemmas.Separate
/-! # Lemmas for C102 -/
namespace Verif.Run.Reorder
open Verif.Run Verif.Run.Spec Verif.Run.Separate

/-- The code for each of the leaf sections. -/
def paths (p : Prog) : List Prog := (List.range (leaves p)).map fun n => only p (some n)

/-- The same, but the code without sections if there are no leaf sections. -/
def pathsOr (p : Prog) : List Prog := if leaves p = 0 then [only p none] else paths p

theorem paths_sec (id loc : Nat) (b k : Prog) :
    paths (.sec id loc b k) = (pathsOr b).map (fun x => .sec id loc x (only k none)) ++ paths k := by
  unfold paths
  simp only [leaves]
  rw [List.range_add, List.map_append, List.map_map]
  congr 1
  · unfold pathsOr paths
    split
    · rename_i h
      rw [h]
      simp [only, h]
    · rename_i h
      rw [show max 1 (leaves b) = leaves b by omega, List.map_map]
      refine List.map_congr_left fun n hn => ?_
      have := List.mem_range.1 hn
      simp only [Function.comp, only, h, if_false]
      rw [if_pos (by omega)]
  · refine List.map_congr_left fun n _ => ?_
    simp only [Function.comp, only]
    rw [if_neg (by omega), Nat.add_sub_cancel_left]

theorem paths_block (b k : Prog) :
    paths (.block b k) = (paths b).map (fun x => .block x (only k none)) ++ (paths k).map fun x => .block (only b none) x := by
  unfold paths
  simp only [leaves]
  rw [List.range_add, List.map_append, List.map_map, List.map_map, List.map_map]
  congr 1
  · refine List.map_congr_left fun n hn => ?_
    have := List.mem_range.1 hn
    simp only [Function.comp, only, this, if_true]
  · refine List.map_congr_left fun n _ => ?_
    simp only [Function.comp, only]
    rw [if_neg (by omega), Nat.add_sub_cancel_left]

theorem leaves_reordered {p q : Prog} (h : Reordered p q) : leaves q = leaves p := by
  induction h with
  | refl => rfl
  | trans _ _ i1 i2 => rw [i2, i1]
  | swap => simp only [leaves]; omega
  | _ => simp_all only [leaves]

/-- The code for the leaf sections is the same, in another order. -/
theorem paths_reordered {p q : Prog} (h : Reordered p q) : only q none = only p none ∧ (paths p).Perm (paths q) := by
  have hor : ∀ {p q : Prog}, leaves q = leaves p → only q none = only p none ∧ (paths p).Perm (paths q) →
      (pathsOr p).Perm (pathsOr q) := by
    intro p q hl h
    unfold pathsOr
    rw [hl, h.1]
    split
    · exact .refl _
    · exact h.2
  induction h with
  | refl => exact ⟨rfl, .refl _⟩
  | trans _ _ i1 i2 => exact ⟨by rw [i2.1, i1.1], i1.2.trans i2.2⟩
  | swap a la x b lb y k =>
    refine ⟨rfl, ?_⟩
    simp only [paths_sec, only]
    rw [← List.append_assoc, ← List.append_assoc]
    exact List.Perm.append_right _ List.perm_append_comm
  | sec id loc hb hk ib ik =>
    refine ⟨ik.1, ?_⟩
    rw [paths_sec, paths_sec, ik.1]
    exact ((hor (leaves_reordered hb) ib).map _).append ik.2
  | block hb hk ib ik =>
    refine ⟨by simp only [only, ib.1, ik.1], ?_⟩
    rw [paths_block, paths_block, ik.1, ib.1]
    exact (ib.2.map _).append (ik.2.map _)
  | stmt m hk ik =>
    refine ⟨by simp only [only, ik.1], ?_⟩
    have := ik.2.map (Prog.stmt m)
    unfold paths at this ⊢
    rwa [List.map_map, List.map_map] at this
  | capture caps hk ik =>
    refine ⟨by simp only [only, ik.1], ?_⟩
    have := ik.2.map (Prog.capture caps)
    unfold paths at this ⊢
    rwa [List.map_map, List.map_map] at this
  | tryCatch type b h hk ik =>
    refine ⟨by simp only [only, ik.1], ?_⟩
    have := ik.2.map (Prog.tryCatch type b h)
    unfold paths at this ⊢
    rwa [List.map_map, List.map_map] at this
  | nested loc o ask hk ik =>
    refine ⟨by simp only [only, ik.1], ?_⟩
    have := ik.2.map (Prog.nested loc o ask)
    unfold paths at this ⊢
    rwa [List.map_map, List.map_map] at this
  | guard c hk ik =>
    refine ⟨by simp only [only, ik.1], ?_⟩
    have := ik.2.map (Prog.guard c)
    unfold paths at this ⊢
    rwa [List.map_map, List.map_map] at this

theorem pathsOr_reordered {p q : Prog} (h : Reordered p q) : (pathsOr p).Perm (pathsOr q) := by
  unfold pathsOr
  rw [leaves_reordered h, (paths_reordered h).1]
  split
  · exact .refl _
  · exact (paths_reordered h).2

/-- What does not depend on the order. -/
theorem kept {p q : Prog} (h : Reordered p q) :
    secDepth q = secDepth p ∧ capDepth q = capDepth p ∧ (Calm q ↔ Calm p) ∧ (Tidy q ↔ Tidy p) ∧
      (NoSkip q ↔ NoSkip p) ∧ (OwnThrows q ↔ OwnThrows p) := by
  induction h with
  | refl => simp
  | trans _ _ i1 i2 =>
    obtain ⟨a1, a2, a3, a4, a5, a6⟩ := i1
    obtain ⟨b1, b2, b3, b4, b5, b6⟩ := i2
    exact ⟨b1.trans a1, b2.trans a2, b3.trans a3, b4.trans a4, b5.trans a5, b6.trans a6⟩
  | swap =>
    refine ⟨by simp only [secDepth]; omega, by simp only [capDepth]; omega, ?_, ?_, ?_, ?_⟩
    all_goals simp only [Calm, Tidy, NoSkip, OwnThrows]
    all_goals exact ⟨fun ⟨a, b, c⟩ => ⟨b, a, c⟩, fun ⟨a, b, c⟩ => ⟨b, a, c⟩⟩
  | stmt m hk ik =>
    obtain ⟨a1, a2, a3, a4, a5, a6⟩ := ik
    refine ⟨a1, a2, by simp only [Calm, a3], a4, ?_, ?_⟩
    · cases m <;> simp only [NoSkip, a5]
    · cases m with
      | check loc ev ab d => cases ev <;> simp only [OwnThrows, a6]
      | _ => simp only [OwnThrows, a6]
  | _ => simp_all only [secDepth, capDepth, Calm, Tidy, NoSkip, OwnThrows, and_self]

/-- The separate tests of a test which does the same in each execution, as a list. -/
theorem alones {t : TestCase} (hl : t.body.later = []) :
    (List.range (passCount t.body.first)).map (alone t) =
      (pathsOr t.body.first).map fun p : Prog => ({ t with body := (p : Body) } : TestCase) := by
  have e : ∀ n, t.body.no n = t.body.first := by
    intro n
    unfold Body.no
    rw [hl]
    cases n <;> rfl
  unfold pathsOr paths passCount alone
  simp only [e]
  split
  · rename_i h
    rw [h]; rfl
  · rename_i h
    rw [show max 1 (leaves t.body.first) = leaves t.body.first by omega, List.map_map]
    rfl

/-- Tests with sections in another order have the same separate tests, in another order. -/
theorem alones_reordered {t u : TestCase} (h : ReorderedTest t u) :
    ((List.range (passCount t.body.first)).map (alone t)).Perm ((List.range (passCount u.body.first)).map (alone u)) := by
  rw [alones h.same, alones h.same']
  have : (fun p : Prog => ({ u with body := (p : Body) } : TestCase)) = fun p : Prog => { t with body := p } := by
    funext p
    rw [h.id, h.loc]
  rw [this]
  exact (pathsOr_reordered h.body).map _

end Verif.Run.Reorder
