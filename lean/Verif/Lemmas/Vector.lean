import Verif.Spec.Vector
/-! Helper lemmas about `SV`. -/
namespace Verif
namespace SV
variable {α : Type}

/-- Representation: `v` has capacity `cap` and shows the list `l`. -/
def Holds (v : SV α) (cap : Nat) (l : List α) : Prop :=
  v.buf.length = cap ∧ v.size = l.length ∧ v.buf.take v.size = l

theorem Holds.le {v : SV α} {cap : Nat} {l : List α} (h : v.Holds cap l) : l.length ≤ cap := by
  obtain ⟨h1, h2, h3⟩ := h
  rw [← h3]; simp [List.length_take]; omega

theorem Holds.contents {v : SV α} {cap : Nat} {l : List α} (h : v.Holds cap l) :
    v.contents = l := h.2.2

theorem Holds.capacity {v : SV α} {cap : Nat} {l : List α} (h : v.Holds cap l) :
    v.capacity = cap := h.1

theorem Holds.available {v : SV α} {cap : Nat} {l : List α} (h : v.Holds cap l) :
    v.available = cap - l.length := by
  simp [SV.available, SV.capacity, h.1, h.2.1]

theorem holds_of_wf {v : SV α} (h : v.size ≤ v.capacity) : v.Holds v.capacity v.contents := by
  refine ⟨rfl, ?_, rfl⟩
  simp [SV.contents, SV.capacity] at *; omega

theorem holds_empty (cap : Nat) (fill : α) : (SV.empty cap fill).Holds cap [] := by
  simp [Holds, SV.empty]

theorem Holds.resize {v : SV α} {cap : Nat} {l : List α} (h : v.Holds cap l) {n : Nat}
    (hn : n ≤ cap) : v.resize n = .ok { v with size := n } ∧
      ({ v with size := n } : SV α).Holds cap (v.buf.take n) := by
  obtain ⟨h1, h2, h3⟩ := h
  refine ⟨?_, h1, ?_, rfl⟩
  · simp [SV.resize, SV.capacity]; omega
  · simp; omega

/-- After a size increase without a write the list is extended by stale elements. -/
theorem Holds.grow {v : SV α} {cap : Nat} {l : List α} (h : v.Holds cap l) {n : Nat}
    (hn : l.length + n ≤ cap) (hcap : cap < sizeT) :
    v.grow n = .ok { v with size := l.length + n } := by
  obtain ⟨h1, h2, h3⟩ := h
  have : (v.size + n) % sizeT = l.length + n := by
    rw [h2]; exact Nat.mod_eq_of_lt (by omega)
  simp [SV.grow, SV.capacity, this]; omega

end SV
end Verif
