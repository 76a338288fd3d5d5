import Verif.Model.Append
import Verif.Lemmas.Vector
import Verif.Spec.Text
/-! Helper lemmas about appending. -/
namespace Verif
open SV Spec

namespace SV
variable {α : Type}

theorem Holds.memWrite {v : SV α} {cap : Nat} {l : List α} (h : v.Holds cap l)
    (hcap : cap < sizeT) (xs : List α) (hx : l.length + xs.length ≤ cap) :
    ∃ v', (v.grow xs.length >>= fun v => v.memWrite l.length xs) = .ok v' ∧
      v'.Holds cap (l ++ xs) := by
  rw [h.grow hx hcap]
  obtain ⟨h1, h2, h3⟩ := h
  simp only [Outcome.bind_ok, SV.memWrite, h1]
  rw [if_pos hx]
  refine ⟨_, rfl, ?_, ?_, ?_⟩
  · simp; omega
  · simp
  · have : v.buf.take l.length = l := by rw [← h2]; exact h3
    simp only [this]
    rw [List.take_append_of_le_length (by simp)]
    exact List.take_of_length_le (by simp)

theorem Holds.setAt {v : SV α} {cap : Nat} {l : List α} (h : v.Holds cap l) {i : Nat}
    (hi : i < l.length) (x : α) :
    ∃ v', v.setAt i x = .ok v' ∧ v'.Holds cap (l.set i x) := by
  have hle := h.le
  obtain ⟨h1, h2, h3⟩ := h
  refine ⟨{ v with buf := v.buf.set i x }, ?_, ?_, ?_, ?_⟩
  · simp only [SV.setAt]; rw [if_neg (by omega), if_pos (by omega)]
  · simp [h1]
  · simp [h2]
  · simp [List.take_set, h3]

end SV

namespace Append

theorem fast_holds {v : Str} {cap : Nat} {l : Text} (h : v.Holds cap l) (hcap : cap < sizeT)
    (s : Text) :
    ∃ v', fast v s = .ok (v', decide (l.length + s.length ≤ cap)) ∧
      v'.Holds cap (fill cap l s) := by
  have hle := h.le
  unfold fast fill
  by_cases hs : s = []
  · subst hs
    simp only [List.isEmpty_nil, if_true]
    refine ⟨v, ?_, ?_⟩
    · simp [hle]
    · simpa [List.take_of_length_le hle] using h
  · have : s.isEmpty = false := by cases s <;> simp_all
    simp only [this, Bool.false_eq_true, if_false, h.available]
    have hlen : (s.take (min s.length (cap - l.length))).length = min s.length (cap - l.length) := by
      simp
    obtain ⟨v', hv', hh⟩ := h.memWrite hcap (s.take (min s.length (cap - l.length)))
      (by rw [hlen]; omega)
    rw [hlen] at hv'
    refine ⟨v', ?_, ?_⟩
    · rw [h.2.1]
      cases hg : v.grow (min s.length (cap - l.length)) with
      | ok w =>
        rw [hg] at hv'
        simp only [Outcome.bind_ok] at hv' ⊢
        rw [hv']
        simp only [Outcome.bind_ok, Outcome.pure_eq]
        congr 2
        by_cases hc : l.length + s.length ≤ cap
        · simp [hc]; omega
        · simp [hc]; omega
      | abort => rw [hg] at hv'; simp at hv'
      | ub => rw [hg] at hv'; simp at hv'
    · rw [List.take_append, List.take_of_length_le hle]
      have : s.take (min s.length (cap - l.length)) = s.take (cap - l.length) := by
        rw [List.take_eq_take_iff]; omega
      rwa [this] at hh

/-- Overwriting a middle part of a list. -/
theorem constexprLoop_holds {cap : Nat} (s : Text) : ∀ {v : Str} {l : Text} (off : Nat),
    v.Holds cap l → off + s.length ≤ l.length →
    ∃ v', constexprLoop v off s = .ok v' ∧
      v'.Holds cap (l.take off ++ s ++ l.drop (off + s.length)) := by
  induction s with
  | nil =>
    intro v l off h _
    exact ⟨v, rfl, by simpa using h⟩
  | cons c cs ih =>
    intro v l off h hoff
    simp only [List.length_cons] at hoff
    obtain ⟨v1, h1, hh1⟩ := h.setAt (i := off) (by omega) c
    obtain ⟨v2, h2, hh2⟩ := ih (off + 1) hh1 (by simp; omega)
    refine ⟨v2, ?_, ?_⟩
    · simp [constexprLoop, h1, h2]
    · have e1 : (l.set off c).take (off + 1) = l.take off ++ [c] := by
        rw [List.take_add_one]
        simp [List.take_set, List.set_eq_of_length_le (l := l.take off) (i := off) (by simp; omega)]
        rw [List.getElem?_set_self (by omega)]
      have e2 : (l.set off c).drop (off + 1 + cs.length) = l.drop (off + (cs.length + 1)) := by
        rw [List.drop_set]
        rw [if_pos (by omega)]
        congr 1; omega
      rw [e1, e2] at hh2
      simpa using hh2

theorem constexpr_holds {v : Str} {cap : Nat} {l : Text} (h : v.Holds cap l) (hcap : cap < sizeT)
    (s : Text) :
    ∃ v', constexpr v s = .ok (v', decide (l.length + s.length ≤ cap)) ∧
      v'.Holds cap (fill cap l s) := by
  have hle := h.le
  unfold constexpr fill
  simp only [h.available, h.2.1]
  have hcc : (if decide (s.length ≤ cap - l.length) = true then s.length else cap - l.length)
      = min s.length (cap - l.length) := by
    by_cases hx : s.length ≤ cap - l.length <;> simp [hx] <;> omega
  rw [hcc]
  generalize hn : min s.length (cap - l.length) = n
  have hg := h.grow (n := n) (by omega) hcap
  rw [hg]
  simp only [Outcome.bind_ok]
  have hb : v.buf.length = cap := h.1
  have hh : ({ v with size := l.length + n } : Str).Holds cap (v.buf.take (l.length + n)) := by
    refine ⟨hb, ?_, rfl⟩
    simp; omega
  have hlen : (s.take n).length = n := by simp; omega
  obtain ⟨v', h1, h2⟩ := constexprLoop_holds (s.take n) l.length hh (by rw [hlen]; simp; omega)
  refine ⟨v', ?_, ?_⟩
  · rw [h1]; simp only [Outcome.bind_ok, Outcome.pure_eq]
    congr 2
    by_cases hc : l.length + s.length ≤ cap
    · simp [hc]; omega
    · simp [hc]; omega
  · have e : (v.buf.take (l.length + n)).take l.length = l := by
      rw [List.take_take, Nat.min_eq_left (by omega), ← h.2.1]; exact h.2.2
    have e2 : (v.buf.take (l.length + n)).drop (l.length + (s.take n).length) = [] := by
      rw [hlen]; simp
    rw [e, e2, List.append_nil] at h2
    rw [List.take_append, List.take_of_length_le hle]
    have : s.take n = s.take (cap - l.length) := by
      rw [List.take_eq_take_iff]; omega
    rwa [this] at h2

theorem text_holds (ce : Bool) {v : Str} {cap : Nat} {l : Text} (h : v.Holds cap l)
    (hcap : cap < sizeT) (s : Text) :
    ∃ v', text ce v s = .ok (v', decide (l.length + s.length ≤ cap)) ∧
      v'.Holds cap (fill cap l s) := by
  cases ce
  · simpa [text] using fast_holds h hcap s
  · simpa [text] using constexpr_holds h hcap s

theorem fill_fill {cap : Nat} {l a b : Text} (h : l.length + a.length ≤ cap) :
    fill cap (fill cap l a) b = fill cap l (a ++ b) := by
  simp only [fill]
  rw [List.take_of_length_le (l := l ++ a) (by simpa using h), List.append_assoc]

theorem fill_of_full {cap : Nat} {l a b : Text} (h : cap ≤ l.length + a.length) :
    fill cap l (a ++ b) = fill cap l a := by
  simp only [fill]
  rw [← List.append_assoc, List.take_append_of_le_length (by simpa using h)]

theorem variadic_holds (ce : Bool) {cap : Nat} (hcap : cap < sizeT) (args : List Text) :
    ∀ {v : Str} {l : Text}, v.Holds cap l →
    ∃ v', variadic ce v args = .ok (v', decide (l.length + args.flatten.length ≤ cap)) ∧
      v'.Holds cap (fill cap l args.flatten) := by
  induction args with
  | nil =>
    intro v l h
    refine ⟨v, ?_, ?_⟩
    · simp [variadic, h.le]
    · simpa [fill, List.take_of_length_le h.le] using h
  | cons a as ih =>
    intro v l h
    obtain ⟨v1, h1, hh1⟩ := text_holds ce h hcap a
    by_cases hf : l.length + a.length ≤ cap
    · obtain ⟨v2, h2, hh2⟩ := ih hh1
      have hl : (fill cap l a).length = l.length + a.length := by
        simp [fill]; omega
      refine ⟨v2, ?_, ?_⟩
      · simp only [variadic, h1, Outcome.bind_ok, hf, decide_true, if_true, h2, hl,
          List.flatten_cons, List.length_append, Nat.add_assoc]
      · rw [fill_fill hf] at hh2; simpa using hh2
    · refine ⟨v1, ?_, ?_⟩
      · have : ¬ (l.length + (a.length + as.flatten.length) ≤ cap) := by omega
        simp only [variadic, h1, Outcome.bind_ok, hf, decide_false, Bool.false_eq_true, if_false,
          List.flatten_cons, List.length_append, this, Outcome.pure_eq]
      · rw [List.flatten_cons, fill_of_full (by omega)]; exact hh1

end Append
end Verif
