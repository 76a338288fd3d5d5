import Verif.Spec.Extend
import Verif.Lemmas.Reorder
/-! # Lemmas for C104 -/
namespace Verif.Run.Extend
open Verif.Run Verif.Run.Spec Verif.Run.Separate Verif.Run.Reorder

/-- Everything in the first list is in the second one, as often, in any order. -/
def Part {α : Type} (l m : List α) : Prop := ∃ r, m.Perm (l ++ r)

theorem Part.refl {α : Type} (l : List α) : Part l l := ⟨[], by simp⟩

theorem Part.trans {α : Type} {l m n : List α} : Part l m → Part m n → Part l n := by
  rintro ⟨r, h⟩ ⟨s, g⟩
  exact ⟨r ++ s, g.trans (by rw [← List.append_assoc]; exact h.append_right _)⟩

theorem Part.map {α β : Type} (f : α → β) {l m : List α} : Part l m → Part (l.map f) (m.map f) := by
  rintro ⟨r, h⟩
  exact ⟨r.map f, by rw [← List.map_append]; exact h.map f⟩

theorem Part.flatMap {α β : Type} (f : α → List β) {l m : List α} : Part l m → Part (l.flatMap f) (m.flatMap f) := by
  rintro ⟨r, h⟩
  exact ⟨r.flatMap f, by rw [← List.flatMap_append]; exact h.flatMap_right f⟩

theorem Part.append {α : Type} {l m l' m' : List α} : Part l m → Part l' m' → Part (l ++ l') (m ++ m') := by
  rintro ⟨r, h⟩ ⟨s, g⟩
  refine ⟨r ++ s, (h.append g).trans ?_⟩
  rw [List.append_assoc, List.append_assoc]
  refine List.Perm.append_left _ ?_
  rw [← List.append_assoc, ← List.append_assoc]
  exact List.Perm.append_right _ List.perm_append_comm

theorem Part.mem {α : Type} {l m : List α} (h : Part l m) {x : α} (hx : x ∈ l) : x ∈ m := by
  obtain ⟨r, h⟩ := h
  exact h.mem_iff.2 (List.mem_append_left _ hx)

theorem leaves_extended {p q : Prog} (h : Extended p q) : leaves p ≤ leaves q ∧ (leaves p = 0 ↔ leaves q = 0) := by
  induction h with
  | refl => simp
  | trans _ _ i1 i2 => exact ⟨Nat.le_trans i1.1 i2.1, i1.2.trans i2.2⟩
  | after => simp only [leaves]; omega
  | before => simp only [leaves]; omega
  | _ => simp only [leaves]; omega

private theorem or_part {p q : Prog} (hl : leaves p = 0 ↔ leaves q = 0) (h : only q none = only p none ∧ Part (paths p) (paths q)) :
    Part (pathsOr p) (pathsOr q) := by
  unfold pathsOr
  by_cases hp : leaves p = 0
  · rw [if_pos hp, if_pos (hl.1 hp), h.1]
    exact .refl _
  · rw [if_neg hp, if_neg (fun h => hp (hl.2 h))]
    exact h.2

/-- The code for the leaf sections is still there. -/
theorem paths_extended {p q : Prog} (h : Extended p q) : only q none = only p none ∧ Part (paths p) (paths q) := by
  induction h with
  | refl => exact ⟨rfl, .refl _⟩
  | trans _ _ i1 i2 => exact ⟨by rw [i2.1, i1.1], i1.2.trans i2.2⟩
  | after a la x b lb y k =>
    refine ⟨rfl, ?_⟩
    simp only [paths_sec, only]
    exact (Part.refl _).append ⟨_, List.perm_append_comm⟩
  | before a la x b lb y k =>
    refine ⟨rfl, ?_⟩
    rw [paths_sec b]
    exact ⟨_, List.perm_append_comm⟩
  | sec id loc hb hk ib ik =>
    refine ⟨ik.1, ?_⟩
    rw [paths_sec, paths_sec, ik.1]
    exact ((or_part (leaves_extended hb).2 ib).map _).append ik.2
  | block hb hk ib ik =>
    refine ⟨by simp only [only, ib.1, ik.1], ?_⟩
    rw [paths_block, paths_block, ik.1, ib.1]
    exact (ib.2.map _).append (ik.2.map _)
  | stmt m hk ik =>
    refine ⟨by simp only [only, ik.1], ?_⟩
    have := ik.2.map (Prog.stmt m)
    unfold paths at this ⊢
    rwa [List.map_map, List.map_map] at this
  | capture caps hk ik =>
    refine ⟨by simp only [only, ik.1], ?_⟩
    have := ik.2.map (Prog.capture caps)
    unfold paths at this ⊢
    rwa [List.map_map, List.map_map] at this
  | tryCatch type b h hk ik =>
    refine ⟨by simp only [only, ik.1], ?_⟩
    have := ik.2.map (Prog.tryCatch type b h)
    unfold paths at this ⊢
    rwa [List.map_map, List.map_map] at this
  | nested loc o ask hk ik =>
    refine ⟨by simp only [only, ik.1], ?_⟩
    have := ik.2.map (Prog.nested loc o ask)
    unfold paths at this ⊢
    rwa [List.map_map, List.map_map] at this
  | guard c hk ik =>
    refine ⟨by simp only [only, ik.1], ?_⟩
    have := ik.2.map (Prog.guard c)
    unfold paths at this ⊢
    rwa [List.map_map, List.map_map] at this

/-- What the smaller test has from the larger one. -/
theorem less {p q : Prog} (h : Extended p q) :
    secDepth p ≤ secDepth q ∧ capDepth p ≤ capDepth q ∧ (Calm q → Calm p) ∧ (Tidy q → Tidy p) ∧
      (NoSkip q → NoSkip p) ∧ (OwnThrows q → OwnThrows p) := by
  induction h with
  | refl => simp
  | trans _ _ i1 i2 =>
    obtain ⟨a1, a2, a3, a4, a5, a6⟩ := i1
    obtain ⟨b1, b2, b3, b4, b5, b6⟩ := i2
    exact ⟨Nat.le_trans a1 b1, Nat.le_trans a2 b2, a3 ∘ b3, a4 ∘ b4, a5 ∘ b5, a6 ∘ b6⟩
  | after =>
    refine ⟨by simp only [secDepth]; omega, by simp only [capDepth]; omega, ?_, ?_, ?_, ?_⟩
    all_goals simp only [Calm, Tidy, NoSkip, OwnThrows]
    all_goals exact fun ⟨a, _, c⟩ => ⟨a, c⟩
  | before =>
    refine ⟨by simp only [secDepth]; omega, by simp only [capDepth]; omega, ?_, ?_, ?_, ?_⟩
    all_goals simp only [Calm, Tidy, NoSkip, OwnThrows]
    all_goals exact fun ⟨_, b, c⟩ => ⟨b, c⟩
  | stmt m hk ik =>
    obtain ⟨a1, a2, a3, a4, a5, a6⟩ := ik
    refine ⟨a1, a2, fun h => ⟨h.1, a3 h.2⟩, a4, ?_, ?_⟩
    · cases m <;> simp only [NoSkip] <;> first | exact a5 | exact fun h => ⟨h.1, a5 h.2⟩ | simp
    · cases m with
      | check loc ev ab d => cases ev <;> simp only [OwnThrows] <;> first | exact a6 | exact fun h => ⟨h.1, a6 h.2⟩ | simp
      | _ => simp only [OwnThrows] <;> first | exact a6 | exact fun h => ⟨h.1, a6 h.2⟩ | simp
  | guard c hk ik =>
    obtain ⟨a1, a2, a3, a4, a5, a6⟩ := ik
    simp only [secDepth, capDepth, Calm, Tidy, NoSkip, OwnThrows]
    refine ⟨by omega, by omega, ?_, ?_, ?_, ?_⟩ <;> simp_all
    intro _ _ h _
    exact h.imp_right a3
  | _ =>
    simp only [secDepth, capDepth, Calm, Tidy, NoSkip, OwnThrows]
    refine ⟨by omega, by omega, ?_, ?_, ?_, ?_⟩ <;> simp_all

/-- The separate tests of the smaller test are those of the larger one, in the larger one there are more. -/
theorem alones_extended {t u : TestCase} (h : ExtendedTest t u) :
    Part ((List.range (passCount t.body.first)).map (alone t)) ((List.range (passCount u.body.first)).map (alone u)) := by
  rw [alones h.same, alones h.same']
  have : (fun p : Prog => ({ u with body := (p : Body) } : TestCase)) = fun p : Prog => { t with body := p } := by
    funext p
    rw [h.id, h.loc]
  rw [this]
  exact (or_part (leaves_extended h.body).2 (paths_extended h.body)).map _

end Verif.Run.Extend
