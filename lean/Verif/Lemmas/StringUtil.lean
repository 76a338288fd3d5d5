import Verif.Model.StringUtil
import Verif.Lemmas.Append
import Verif.Spec.StringUtil
/-! Helper lemmas for the string utilities. -/
namespace Verif
open SV Spec
namespace Util

theorem dots_holds {cap : Nat} : ∀ (n : Nat) {v : Str} {l : Text} (off : Nat),
    v.Holds cap l → off + n ≤ l.length →
    ∃ v', dots v off n = .ok v' ∧
      v'.Holds cap (l.take off ++ List.replicate n '.' ++ l.drop (off + n)) := by
  intro n
  induction n with
  | zero => intro v l off h _; exact ⟨v, rfl, by simpa using h⟩
  | succ n ih =>
    intro v l off h hoff
    obtain ⟨v1, h1, hh1⟩ := h.setAt (i := off) (by omega) '.'
    obtain ⟨v2, h2, hh2⟩ := ih (off + 1) hh1 (by simp; omega)
    refine ⟨v2, by simp [dots, h1, h2], ?_⟩
    rw [List.set_eq_take_append_cons_drop, if_pos (by omega)] at hh2
    have e1 : (l.take off ++ '.' :: l.drop (off + 1)).take (off + 1) = l.take off ++ ['.'] := by
      rw [List.take_append, List.take_of_length_le (by simp; omega)]
      simp only [List.length_take, Nat.min_eq_left (show off ≤ l.length by omega)]
      simp
    have e2 : (l.take off ++ '.' :: l.drop (off + 1)).drop (off + 1 + n) = l.drop (off + (n + 1)) := by
      rw [List.drop_append, List.drop_of_length_le (by simp; omega)]
      simp only [List.length_take, Nat.min_eq_left (show off ≤ l.length by omega)]
      have : off + 1 + n - off = n + 1 := by omega
      rw [this]
      simp [Nat.add_comm, Nat.add_left_comm]
    rw [e1, e2] at hh2
    simpa [List.replicate_succ] using hh2

/-- What truncation leaves. -/
def truncated (cap : Nat) (l : Text) : Text := l.take (min (l.length + 3) cap - 3) ++ marker cap

theorem truncateEnd_holds {v : Str} {cap : Nat} {l : Text} (h : v.Holds cap l)
    (hcap : cap + 3 < sizeT) : ∃ v', truncateEnd v = .ok v' ∧ v'.Holds cap (truncated cap l) := by
  have hle := h.le
  unfold truncateEnd
  simp only [h.2.1, h.capacity]
  have hmod : (l.length + 3) % sizeT = l.length + 3 := Nat.mod_eq_of_lt (by omega)
  rw [hmod]
  have e1 : (if l.length + 3 > cap then cap else l.length + 3) = min (l.length + 3) cap := by
    split <;> omega
  rw [e1]
  generalize hn : min (l.length + 3) cap = n
  have e2 : (if n ≥ 3 then n - 3 else 0) = n - 3 := by split <;> omega
  rw [e2]
  obtain ⟨r1, r2⟩ := h.resize (n := n) (by omega)
  rw [r1]; simp only [Outcome.bind_ok]
  have hlen : (v.buf.take n).length = n := by
    rw [List.length_take, h.1]; omega
  obtain ⟨v', e3, hh⟩ := dots_holds (n - (n - 3)) (n - 3) r2 (by rw [hlen]; omega)
  refine ⟨v', e3, ?_⟩
  have d0 : (v.buf.take n).drop (n - 3 + (n - (n - 3))) = [] :=
    List.drop_of_length_le (by rw [hlen]; omega)
  have t0 : (v.buf.take n).take (n - 3) = l.take (n - 3) := by
    rw [List.take_take, Nat.min_eq_left (by omega)]
    conv => rhs; rw [← h.2.2]
    rw [List.take_take, h.2.1, Nat.min_eq_left (by omega)]
  rw [d0, t0, List.append_nil] at hh
  have hm : List.replicate (n - (n - 3)) '.' = marker cap := by
    unfold marker; congr 1; omega
  rw [hm] at hh
  rw [truncated, hn]
  exact hh

theorem truncated_of_full {cap : Nat} {l : Text} (h : l.length = cap) :
    truncated cap l = l.take (cap - 3) ++ marker cap := by
  unfold truncated
  have : min (l.length + 3) cap = cap := by omega
  rw [this]

theorem appendOrTruncate_holds (ce : Bool) {v : Str} {cap : Nat} {l : Text} (h : v.Holds cap l)
    (hcap : cap + 3 < sizeT) (args : List Text) :
    ∃ v', appendOrTruncate ce v args =
        .ok (v', decide (l.length + args.flatten.length ≤ cap)) ∧
      v'.Holds cap (if l.length + args.flatten.length ≤ cap then l ++ args.flatten
        else (l ++ args.flatten).take (cap - 3) ++ marker cap) := by
  obtain ⟨v1, e1, h1⟩ := Append.variadic_holds ce (show cap < sizeT by omega) args h
  unfold appendOrTruncate
  rw [e1]; simp only [Outcome.bind_ok]
  by_cases hf : l.length + args.flatten.length ≤ cap
  · refine ⟨v1, by simp only [hf, decide_true, Bool.not_true, Bool.false_eq_true, if_false,
      Outcome.pure_eq], ?_⟩
    rw [if_pos hf]
    rw [fill, List.take_of_length_le (by simpa using hf)] at h1
    exact h1
  · simp only [hf, decide_false, Bool.not_false, if_true, if_false]
    obtain ⟨v2, e2, h2⟩ := truncateEnd_holds h1 hcap
    rw [e2]
    refine ⟨v2, by simp, ?_⟩
    have : (fill cap l args.flatten).length = cap := by
      simp only [fill, List.length_take, List.length_append]; omega
    rw [truncated_of_full this] at h2
    rw [fill, List.take_take, Nat.min_eq_left (by omega)] at h2
    exact h2

/-! ### find -/

theorem findAt_none {p : Text} : ∀ {s : Text}, findAt p s = none →
    ∀ r, replaced p r s = s := by
  intro s
  induction s with
  | nil => intro _ r; simp [replaced]
  | cons c cs ih =>
    intro h r
    simp only [findAt] at h
    split at h
    · simp at h
    · rename_i h1
      have h1' : ¬ p <+: c :: cs := by rwa [List.isPrefixOf_iff_prefix] at h1
      rw [replaced, if_neg h1', ih (by simpa using h)]

/-- The first occurrence splits the text. -/
theorem findAt_some {p : Text} : ∀ {s : Text} {i : Nat}, findAt p s = some i →
    ∃ x y, s = x ++ p ++ y ∧ x.length = i ∧
      (p ≠ [] → ∀ r, replaced p r s = x ++ r ++ replaced p r y) := by
  intro s
  induction s with
  | nil =>
    intro i h
    simp only [findAt] at h
    split at h
    · rename_i h1
      simp at h h1; subst h; subst h1
      exact ⟨[], [], by simp, rfl, by simp⟩
    · simp at h
  | cons c cs ih =>
    intro i h
    simp only [findAt] at h
    split at h
    · rename_i h1
      simp at h; subst h
      have h1' : p <+: c :: cs := by rwa [List.isPrefixOf_iff_prefix] at h1
      obtain ⟨y, hy⟩ := h1'
      refine ⟨[], y, by simpa using hy.symm, rfl, ?_⟩
      intro hp r
      have h1' : p <+: c :: cs := ⟨y, hy⟩
      rw [replaced, if_pos h1']
      have : cs.drop (p.length - 1) = y := by
        cases p with
        | nil => exact absurd rfl hp
        | cons a p => simp at hy; simp [← hy.2]
      rw [this]; rfl
    · rename_i h1
      have h1' : ¬ p <+: c :: cs := by rwa [List.isPrefixOf_iff_prefix] at h1
      cases hf : findAt p cs with
      | none => rw [hf] at h; simp at h
      | some j =>
        rw [hf] at h; simp at h; subst h
        obtain ⟨x, y, e, hl, hr⟩ := ih hf
        refine ⟨c :: x, y, by simp [e], by simp [hl], ?_⟩
        intro hp r
        rw [replaced, if_neg h1', hr hp]
        simp

theorem findFrom_some {s p : Text} {pos i : Nat} (h : findFrom s p pos = some i) :
    ∃ x y, s.drop pos = x ++ p ++ y ∧ i = pos + x.length ∧ pos ≤ s.length ∧
      (p ≠ [] → ∀ r, replaced p r (s.drop pos) = x ++ r ++ replaced p r y) := by
  unfold findFrom at h
  split at h
  · cases hf : findAt p (s.drop pos) with
    | none => rw [hf] at h; simp at h
    | some j =>
      rw [hf] at h; simp at h
      obtain ⟨x, y, e, hl, hr⟩ := findAt_some hf
      exact ⟨x, y, e, by omega, by assumption, hr⟩
  · simp at h

theorem findFrom_none {s p : Text} {pos : Nat} (h : findFrom s p pos = none)
    (hpos : pos ≤ s.length) (r : Text) : replaced p r (s.drop pos) = s.drop pos := by
  unfold findFrom at h
  rw [if_pos hpos] at h
  exact findAt_none (by simpa using h) r

/-! ### in-place replacement steps -/

theorem buf_eq {v : Str} {cap : Nat} {l : Text} (h : v.Holds cap l) :
    ∃ z, v.buf = l ++ z ∧ l.length + z.length = cap ∧ v.size = l.length := by
  refine ⟨v.buf.drop v.size, ?_, ?_, h.2.1⟩
  · conv => lhs; rw [← List.take_append_drop v.size v.buf]
    rw [h.2.2]
  · have := h.le
    rw [List.length_drop, h.1, h.2.1]; omega

theorem holds_mk {l z : Text} {cap : Nat} (h : l.length + z.length = cap) :
    ({ buf := l ++ z, size := l.length } : Str).Holds cap l :=
  ⟨by simpa using h, rfl, by simp⟩

/-- Overwriting a middle part. -/
theorem memWrite_mid {cap : Nat} {a p b z : Text} (q : Text) (hq : q.length = p.length)
    {v : Str} (hv : v = { buf := a ++ p ++ b ++ z, size := (a ++ p ++ b).length })
    (hl : (a ++ p ++ b).length + z.length = cap) :
    ∃ v', v.memWrite a.length q = .ok v' ∧ v'.Holds cap (a ++ q ++ b) := by
  subst hv
  have e : ({ buf := a ++ p ++ b ++ z, size := (a ++ p ++ b).length } : Str).memWrite a.length q
      = .ok { buf := (a ++ q ++ b) ++ z, size := (a ++ q ++ b).length } := by
    simp only [SV.memWrite]
    rw [if_pos (by simp only [List.length_append]; omega)]
    congr 2
    · have h1 : (a ++ p ++ b ++ z).take a.length = a := by simp
      have h2 : (a ++ p ++ b ++ z).drop (a.length + q.length) = b ++ z := by
        have : a ++ p ++ b ++ z = (a ++ p) ++ (b ++ z) := by simp
        rw [this, hq, List.drop_append_of_le_length (by simp), List.drop_of_length_le (by simp)]
        simp
      rw [h1, h2]; simp
    · simp only [List.length_append]; omega
  refine ⟨_, e, holds_mk ?_⟩
  simp only [List.length_append] at *; omega

theorem replaceSameSize_holds {v : Str} {cap : Nat} {a p b r : Text}
    (h : v.Holds cap (a ++ p ++ b)) (hr : r.length = p.length) :
    ∃ v', replaceSameSize v a.length r = .ok (v', a.length + r.length) ∧
      v'.Holds cap (a ++ r ++ b) := by
  obtain ⟨z, h1, h2, h3⟩ := buf_eq h
  obtain ⟨v', e, hh⟩ := memWrite_mid r hr (v := v) (by cases v; simp_all) h2
  exact ⟨v', by simp [replaceSameSize, e], hh⟩

theorem replaceSmaller_holds {v : Str} {cap : Nat} {a p b r : Text}
    (h : v.Holds cap (a ++ p ++ b)) (hr : r.length < p.length) :
    ∃ v', replaceSmaller v (p.length - r.length) a.length r = .ok (v', a.length + r.length) ∧
      v'.Holds cap (a ++ r ++ b) := by
  obtain ⟨z, h1, h2, h3⟩ := buf_eq h
  have hb : v = { buf := a ++ p ++ b ++ z, size := (a ++ p ++ b).length } := by cases v; simp_all
  subst hb
  generalize hd : p.length - r.length = d
  -- split p
  obtain ⟨p1, p2, rfl, hp1⟩ : ∃ p1 p2, p = p1 ++ p2 ∧ p1.length = d :=
    ⟨p.take d, p.drop d, by simp, by simp; omega⟩
  have hp2 : p2.length = r.length := by simp at hd hr; omega
  have er : rotate { buf := a ++ (p1 ++ p2) ++ b ++ z, size := (a ++ (p1 ++ p2) ++ b).length }
      a.length (a.length + d) (a ++ (p1 ++ p2) ++ b).length
      = .ok { buf := a ++ p2 ++ b ++ (p1 ++ z), size := (a ++ (p1 ++ p2) ++ b).length } := by
    unfold rotate
    rw [if_pos (by simp only [List.length_append]; omega)]
    congr 2
    have t1 : (a ++ (p1 ++ p2) ++ b ++ z).take a.length = a := by simp
    have t2 : (a ++ (p1 ++ p2) ++ b ++ z).take (a ++ (p1 ++ p2) ++ b).length
        = a ++ (p1 ++ p2) ++ b := List.take_left
    have t3 : (a ++ (p1 ++ p2) ++ b ++ z).take (a.length + d) = a ++ p1 := by
      have : a ++ (p1 ++ p2) ++ b ++ z = (a ++ p1) ++ (p2 ++ b ++ z) := by simp
      rw [this, List.take_append_of_le_length (by simp; omega), List.take_of_length_le (by simp; omega)]
    have t4 : (a ++ (p1 ++ p2) ++ b ++ z).drop (a ++ (p1 ++ p2) ++ b).length = z := List.drop_left
    rw [t1, t2, t3, t4]
    have d1 : (a ++ (p1 ++ p2) ++ b).drop (a.length + d) = p2 ++ b := by
      have : a ++ (p1 ++ p2) ++ b = (a ++ p1) ++ (p2 ++ b) := by simp
      rw [this, List.drop_append_of_le_length (by simp; omega),
        List.drop_of_length_le (by simp; omega)]; simp
    have d2 : (a ++ p1).drop a.length = p1 := by simp
    rw [d1, d2]; simp
  have es : ({ buf := a ++ p2 ++ b ++ (p1 ++ z), size := (a ++ (p1 ++ p2) ++ b).length } : Str).resize
      ((a ++ (p1 ++ p2) ++ b).length - d)
      = .ok { buf := a ++ p2 ++ b ++ (p1 ++ z), size := (a ++ p2 ++ b).length } := by
    have hsz : (a ++ (p1 ++ p2) ++ b).length - d = (a ++ p2 ++ b).length := by
      simp only [List.length_append]; omega
    simp only [SV.resize, hsz]
    rw [if_neg]
    simp only [SV.capacity, List.length_append]; omega
  obtain ⟨v', e, hh⟩ := memWrite_mid (cap := cap) (a := a) (p := p2) (b := b) (z := p1 ++ z) r
    (by omega) rfl (by simp only [List.length_append] at *; omega)
  refine ⟨v', ?_, hh⟩
  unfold replaceSmaller
  simp only [er, Outcome.bind_ok]
  rw [if_pos (by simp only [List.length_append]; omega), es]
  simp only [Outcome.bind_ok, e, Outcome.pure_eq]

theorem take_add_append {a b : Text} {n k : Nat} (h : n = a.length + k) :
    (a ++ b).take n = a ++ b.take k := by
  subst h; rw [List.take_append, List.take_of_length_le (by omega)]; simp

theorem drop_add_append {a b : Text} {n k : Nat} (h : n = a.length + k) :
    (a ++ b).drop n = b.drop k := by
  subst h; rw [List.drop_append, List.drop_of_length_le (by omega)]; simp

theorem replaceLarger_holds {v : Str} {cap : Nat} (hcap : cap < sizeT) {a p b r : Text}
    (h : v.Holds cap (a ++ p ++ b)) (hp : p ≠ []) (hr : p.length < r.length) :
    ∃ v', replaceLarger v (r.length - p.length) a.length r =
        .ok (v', min (a.length + r.length) cap) ∧
      v'.Holds cap ((a ++ r ++ b).take cap) := by
  have hle := h.le
  have hav := h.available
  have hg := fun n hn => h.grow (n := n) hn hcap
  obtain ⟨z, h1, h2, h3⟩ := buf_eq h
  have hb : v = { buf := a ++ p ++ b ++ z, size := (a ++ p ++ b).length } := by cases v; simp_all
  have hp0 : 0 < p.length := List.length_pos_iff.mpr hp
  generalize hd : r.length - p.length = d
  have hlen : (a ++ p ++ b).length = a.length + p.length + b.length := by simp; omega
  rw [hlen] at hle hav hg h2
  unfold replaceLarger
  rw [hav]
  dsimp only
  generalize hgr : min d (cap - (a.length + p.length + b.length)) = g
  rw [hg g (by omega)]
  simp only [Outcome.bind_ok]
  rw [show v.buf = a ++ p ++ b ++ z from h1]
  -- grown region
  obtain ⟨z1, z2, rfl, hz1⟩ : ∃ z1 z2, z = z1 ++ z2 ∧ z1.length = g :=
    ⟨z.take g, z.drop g, by simp, by simp; omega⟩
  simp only [List.length_append] at h2
  by_cases hrot : d ≤ a.length + p.length + b.length + g ∧
      a.length + p.length + b.length + g - d > a.length
  · rw [if_pos hrot]
    -- content (p ++ b ++ z1) is split at size' - d - pos = k
    generalize hk : p.length + b.length + g - d = k
    have erot : rotate { buf := a ++ p ++ b ++ (z1 ++ z2), size := a.length + p.length + b.length + g }
        a.length (a.length + p.length + b.length + g - d) (a.length + p.length + b.length + g)
        = .ok { buf := a ++ ((p ++ b ++ z1).drop k ++ (p ++ b ++ z1).take k) ++ z2,
                size := a.length + p.length + b.length + g } := by
      unfold rotate
      rw [if_pos (by simp only [List.length_append]; omega)]
      have e0 : a ++ p ++ b ++ (z1 ++ z2) = a ++ ((p ++ b ++ z1) ++ z2) := by simp
      simp only [e0]
      have t1 : (a ++ ((p ++ b ++ z1) ++ z2)).take a.length = a := by simp
      have t2 : (a ++ ((p ++ b ++ z1) ++ z2)).take (a.length + p.length + b.length + g)
          = a ++ (p ++ b ++ z1) := by
        rw [take_add_append (k := (p ++ b ++ z1).length) (by simp only [List.length_append]; omega)]
        rw [List.take_left]
      have t3 : (a ++ ((p ++ b ++ z1) ++ z2)).take (a.length + p.length + b.length + g - d)
          = a ++ (p ++ b ++ z1).take k := by
        rw [take_add_append (k := k) (by omega)]
        rw [List.take_append_of_le_length (by simp only [List.length_append]; omega)]
      have t4 : (a ++ ((p ++ b ++ z1) ++ z2)).drop (a.length + p.length + b.length + g) = z2 := by
        rw [drop_add_append (k := (p ++ b ++ z1).length) (by simp only [List.length_append]; omega)]
        rw [List.drop_left]
      rw [t1, t2, t3, t4]
      rw [drop_add_append (k := k) (by omega), drop_add_append (a := a) (k := 0) (by omega)]
      simp
    rw [erot]
    simp only [Outcome.bind_ok]
    rw [if_pos (by omega)]
    have hX : ((p ++ b ++ z1).drop k).length = d := by
      simp only [List.length_drop, List.length_append]; omega
    have hY : ((p ++ b ++ z1).take k).length = k := by
      simp only [List.length_take, List.length_append]; omega
    generalize hXe : (p ++ b ++ z1).drop k = X at *
    generalize hYe : (p ++ b ++ z1).take k = Y at *
    by_cases hfit : r.length ≤ a.length + p.length + b.length + g - a.length
    · rw [Nat.min_eq_left hfit]
      obtain ⟨Y1, Y2, hY12, hY1⟩ : ∃ Y1 Y2, Y = Y1 ++ Y2 ∧ Y1.length = p.length :=
        ⟨Y.take p.length, Y.drop p.length, by simp, by simp; omega⟩
      obtain ⟨v', e, hh⟩ := memWrite_mid (cap := cap) (a := a) (p := X ++ Y1) (b := Y2) (z := z2)
        (r.take r.length) (by simp only [List.length_append, List.take_length]; omega)
        (v := { buf := a ++ (X ++ Y) ++ z2, size := a.length + p.length + b.length + g })
        (by rw [hY12]
            have hYl := congrArg List.length hY12
            simp only [List.length_append] at hYl
            simp only [List.append_assoc, List.length_append]
            congr 1; omega)
        (by have hYl := congrArg List.length hY12
            simp only [List.length_append] at hYl ⊢; omega)
      rw [e]
      simp only [Outcome.bind_ok, Outcome.pure_eq]
      refine ⟨v', by congr 2; omega, ?_⟩
      have hY2 : Y2 = b.take (k - p.length) := by
        have : Y = p ++ b.take (k - p.length) := by
          rw [← hYe, List.append_assoc, take_add_append (k := k - p.length) (by omega)]
          rw [List.take_append_of_le_length (by omega)]
        rw [hY12] at this
        exact (List.append_inj this hY1).2
      rw [hY2, List.take_length] at hh
      have : (a ++ r ++ b).take cap = a ++ r ++ b.take (k - p.length) := by
        by_cases hgd : g = d
        · rw [List.take_of_length_le (by simp only [List.length_append]; omega)]
          rw [List.take_of_length_le (by omega)]
        · rw [take_add_append (k := k - p.length) (by simp only [List.length_append]; omega)]
      rw [this]; exact hh
    · rw [Nat.min_eq_right (by omega)]
      obtain ⟨v', e, hh⟩ := memWrite_mid (cap := cap) (a := a) (p := X ++ Y) (b := []) (z := z2)
        (r.take (a.length + p.length + b.length + g - a.length))
        (by simp only [List.length_append, List.length_take]; omega)
        (v := { buf := a ++ (X ++ Y) ++ z2, size := a.length + p.length + b.length + g })
        (by simp only [List.append_nil, List.length_append]; congr 1; omega)
        (by simp only [List.length_append, List.length_nil]; omega)
      rw [e]
      simp only [Outcome.bind_ok, Outcome.pure_eq]
      refine ⟨v', by congr 2; omega, ?_⟩
      rw [List.append_nil] at hh
      have : (a ++ r ++ b).take cap = a ++ r.take (a.length + p.length + b.length + g - a.length) := by
        rw [List.append_assoc,
          take_add_append (k := a.length + p.length + b.length + g - a.length) (by omega)]
        rw [List.take_append_of_le_length (by omega)]
      rw [this]; exact hh
  · rw [if_neg hrot]
    rw [if_pos (by omega), Nat.min_eq_right (by omega)]
    obtain ⟨v', e, hh⟩ := memWrite_mid (cap := cap) (a := a) (p := p ++ b ++ z1) (b := []) (z := z2)
        (r.take (a.length + p.length + b.length + g - a.length))
        (by simp only [List.length_append, List.length_take]; omega)
        (v := { buf := a ++ p ++ b ++ (z1 ++ z2), size := a.length + p.length + b.length + g })
        (by simp only [List.append_nil, List.length_append, List.append_assoc]; congr 1; omega)
        (by simp only [List.length_append, List.length_nil]; omega)
    rw [e]
    simp only [Outcome.bind_ok, Outcome.pure_eq]
    refine ⟨v', by congr 2; omega, ?_⟩
    rw [List.append_nil] at hh
    have : (a ++ r ++ b).take cap = a ++ r.take (a.length + p.length + b.length + g - a.length) := by
      rw [List.append_assoc,
        take_add_append (k := a.length + p.length + b.length + g - a.length) (by omega)]
      rw [List.take_append_of_le_length (by omega)]
    rw [this]; exact hh

/-! ### the replacement loop -/

theorem length_le_replaced {p r : Text} (hp : 0 < p.length) (hpr : p.length ≤ r.length) (s : Text) :
    s.length ≤ (replaced p r s).length := by
  induction hn : s.length using Nat.strongRecOn generalizing s with
  | _ n ih =>
    cases s with
    | nil => simp at hn; omega
    | cons c cs =>
      simp only [List.length_cons] at hn
      rw [replaced]
      split
      · have := ih (cs.drop (p.length - 1)).length (by simp; omega) _ rfl
        simp only [List.length_append, List.length_drop] at this ⊢
        omega
      · have := ih cs.length (by omega) _ rfl
        simp only [List.length_cons]; omega

theorem replaced_single (c : Char) (r s : Text) : replaced [c] r s = escaped c r s := by
  induction s with
  | nil => simp [replaced, escaped]
  | cons x xs ih =>
    rw [replaced]
    by_cases h : x = c
    · subst h
      rw [if_pos ⟨xs, rfl⟩]
      simp [escaped, ih]
    · rw [if_neg (by simp [List.cons_prefix_cons]; exact fun e => h e.symm), ih]
      simp [escaped, h]

theorem escaped_append (c : Char) (r s t : Text) :
    escaped c r (s ++ t) = escaped c r s ++ escaped c r t := by
  simp [escaped]

theorem escaped_of_notMem {c : Char} {r s : Text} (h : c ∉ s) : escaped c r s = s := by
  induction s with
  | nil => rfl
  | cons x xs ih =>
    simp only [List.mem_cons, not_or] at h
    have hx : x ≠ c := fun e => h.1 e.symm
    have := ih h.2
    simp only [escaped, List.flatMap_cons, hx, if_false] at *
    rw [this]; rfl

theorem length_le_escaped (c : Char) {r : Text} (hr : 1 ≤ r.length) (s : Text) :
    s.length ≤ (escaped c r s).length := by
  rw [← replaced_single]; exact length_le_replaced (by simp) (by simpa using hr) s

/-- A correct in-place replacement of an occurrence of `p` by `r`. -/
def RepOk (cap : Nat) (p r : Text) (rep : Str → Nat → Outcome (Str × Nat)) : Prop :=
  ∀ (v : Str) (a b : Text), v.Holds cap (a ++ p ++ b) →
    ∃ v', rep v a.length = .ok (v', min (a.length + r.length) cap) ∧
      v'.Holds cap ((a ++ r ++ b).take cap)

theorem replaceLoop_holds {cap : Nat} {p r : Text} (hp : p ≠ [])
    {rep : Str → Nat → Outcome (Str × Nat)} (hrep : RepOk cap p r rep) : ∀ (fuel : Nat) {v : Str}
    {S : Text} (pos : Nat) (ov : Bool), v.Holds cap S → pos ≤ S.length →
    (S.drop pos).length < fuel →
    ∃ v' S', replaceLoop rep (r.length - p.length) p fuel v (findFrom S p pos) ov =
        some (.ok (v', !(ov || decide (cap < (S.take pos ++ replaced p r (S.drop pos)).length)))) ∧
      v'.Holds cap S' ∧
      ((S.take pos ++ replaced p r (S.drop pos)).length ≤ cap →
        S' = S.take pos ++ replaced p r (S.drop pos)) ∧
      (cap < (S.take pos ++ replaced p r (S.drop pos)).length → S'.length = cap) ∧
      (p.length = 1 → S' = (S.take pos ++ replaced p r (S.drop pos)).take cap) := by
  intro fuel
  induction fuel with
  | zero => intro v S pos ov _ _ h; simp at h
  | succ fuel ih =>
    intro v S pos ov hv hpos hfuel
    have hle := hv.le
    have hp0 : 0 < p.length := List.length_pos_iff.mpr hp
    cases hf : findFrom S p pos with
    | none =>
      have hn := findFrom_none hf hpos r
      rw [hn, List.take_append_drop]
      refine ⟨v, S, ?_, hv, fun _ => rfl, fun h => by omega, fun _ => ?_⟩
      · have : decide (cap < S.length) = false := by simp; exact hle
        rw [this]; simp [replaceLoop]
      · rw [List.take_of_length_le hle]
    | some i =>
      obtain ⟨x, y, hxy, hi, _, hrpl⟩ := findFrom_some hf
      have hrpl := hrpl hp r
      rw [hrpl]
      have hS : S = (S.take pos ++ x) ++ p ++ y := by
        have : S = S.take pos ++ S.drop pos := by simp
        rw [hxy] at this; simpa using this
      generalize hA : S.take pos ++ x = A at hS
      have hAl : A.length = i := by
        rw [← hA]; simp only [List.length_append, List.length_take]; omega
      have hfull : S.take pos ++ (x ++ r ++ replaced p r y) = A ++ r ++ replaced p r y := by
        rw [← hA]; simp
      rw [hfull]
      rw [hS] at hv
      obtain ⟨v1, e1, hv1⟩ := hrep v A y hv
      have hlenS := congrArg List.length hS
      have hlenD := congrArg List.length hxy
      simp only [List.length_append] at hlenS hlenD
      have hav := hv.available
      simp only [List.length_append] at hav
      generalize hov : (ov || decide (r.length - p.length > v.available)) = ov1
      generalize hpos1 : min (A.length + r.length) cap = pos1 at *
      have hS1l : ((A ++ r ++ y).take cap).length = min cap (A.length + r.length + y.length) := by
        simp only [List.length_take, List.length_append]
      have hd1 : (((A ++ r ++ y).take cap).drop pos1).length ≤ y.length := by
        rw [List.length_drop, hS1l]; omega
      obtain ⟨v', S', e2, hv', c1, c2, c3⟩ := ih pos1 ov1 hv1 (by rw [hS1l]; omega) (by omega)
      have hstep : replaceLoop rep (r.length - p.length) p (fuel + 1) v (some i) ov =
          replaceLoop rep (r.length - p.length) p fuel v1
            (findFrom ((A ++ r ++ y).take cap) p pos1) ov1 := by
        rw [← hAl]
        simp only [replaceLoop, e1, hov, hv1.contents]
      rw [hstep, e2]
      have hyl := fun (h : p.length ≤ r.length) => length_le_replaced hp0 h y
      by_cases hfit : A.length + r.length + y.length ≤ cap
      · have hS1 : (A ++ r ++ y).take cap = A ++ r ++ y :=
          List.take_of_length_le (by simp only [List.length_append]; omega)
        have hp1 : pos1 = (A ++ r).length := by simp only [List.length_append]; omega
        rw [hS1, hp1, List.take_left, List.drop_left] at c1 c2 c3 ⊢
        have : ov1 = ov := by
          rw [← hov, hav]
          have : decide (r.length - p.length > cap - (A.length + p.length + y.length)) = false := by
            simp; omega
          rw [this]; simp
        rw [this]
        exact ⟨v', S', rfl, hv', c1, c2, c3⟩
      · have hgt : p.length < r.length := by omega
        have hov1 : ov1 = true := by
          rw [← hov, hav]
          have : decide (r.length - p.length > cap - (A.length + p.length + y.length)) = true := by
            simp; omega
          rw [this]; simp
        have hbig : cap < (A ++ r ++ replaced p r y).length := by
          have := hyl (by omega)
          simp only [List.length_append]; omega
        have hmono := length_le_replaced (p := p) (r := r) hp0 (by omega)
          (((A ++ r ++ y).take cap).drop pos1)
        refine ⟨v', S', ?_, hv', fun h => by omega, fun _ => ?_, fun h1 => ?_⟩
        · rw [hov1]; simp only [hbig, decide_true, Bool.true_or, Bool.or_true]
        · rcases Nat.lt_or_ge cap
            (((A ++ r ++ y).take cap).take pos1 ++
              replaced p r (((A ++ r ++ y).take cap).drop pos1)).length with h | h
          · exact c2 h
          · have := c1 h
            have hl := congrArg List.length this
            have hle' := hv'.le
            simp only [List.length_append, List.length_take, List.length_drop] at hl hmono h
            omega
        · rw [c3 h1]
          obtain ⟨c, rfl⟩ : ∃ c, p = [c] := List.length_eq_one_iff.mp h1
          rcases Nat.lt_or_ge (A.length + r.length) cap with hk | hk
          · have hp1 : pos1 = (A ++ r).length := by simp only [List.length_append]; omega
            have hT : (A ++ r ++ y).take cap = (A ++ r) ++ y.take (cap - (A.length + r.length)) :=
              take_add_append (by simp only [List.length_append]; omega)
            rw [hT, hp1, List.take_left, List.drop_left]
            rw [take_add_append (a := A ++ r) (k := cap - (A.length + r.length))
              (by simp only [List.length_append]; omega)]
            rw [take_add_append (a := A ++ r) (k := cap - (A.length + r.length))
              (by simp only [List.length_append]; omega)]
            congr 1
            obtain ⟨k, hkk⟩ : ∃ k, cap - (A.length + r.length) = k := ⟨_, rfl⟩
            rw [hkk]
            rw [replaced_single, replaced_single]
            conv => rhs; rw [← List.take_append_drop k y, escaped_append]
            rw [List.take_append_of_le_length]
            have := length_le_escaped c (r := r) (by omega) (y.take k)
            rw [List.length_take] at this
            omega
          · have hp1 : pos1 = cap := by omega
            have hk' : cap ≤ (A ++ r).length := by rw [List.length_append]; exact hk
            have hd0 : ((A ++ r ++ y).take cap).drop pos1 = [] :=
              List.drop_of_length_le (by rw [hS1l]; omega)
            rw [hd0, hp1]
            have : replaced [c] r [] = [] := by simp [replaced]
            rw [this, List.append_nil, List.take_take, List.take_take]
            simp only [Nat.min_self]
            rw [List.take_append_of_le_length hk', List.take_append_of_le_length hk']

theorem repOk_same {cap : Nat} {p r : Text} (h : r.length = p.length) :
    RepOk cap p r (fun ss pos => replaceSameSize ss pos r) := by
  intro v a b hv
  obtain ⟨v', e, hh⟩ := replaceSameSize_holds hv h
  have hle := hh.le
  refine ⟨v', ?_, ?_⟩
  · simp only [e]; simp only [List.length_append] at hle; congr 2; omega
  · rwa [List.take_of_length_le hle]

theorem repOk_smaller {cap : Nat} {p r : Text} (h : r.length < p.length) :
    RepOk cap p r (fun ss pos => replaceSmaller ss (p.length - r.length) pos r) := by
  intro v a b hv
  obtain ⟨v', e, hh⟩ := replaceSmaller_holds hv h
  have hle := hh.le
  refine ⟨v', ?_, ?_⟩
  · simp only [e]; simp only [List.length_append] at hle; congr 2; omega
  · rwa [List.take_of_length_le hle]

theorem repOk_larger {cap : Nat} (hcap : cap < sizeT) {p r : Text} (hp : p ≠ [])
    (h : p.length < r.length) :
    RepOk cap p r (fun ss pos => replaceLarger ss (r.length - p.length) pos r) := by
  intro v a b hv
  exact replaceLarger_holds hcap hv hp h

theorem replaceAll_holds {v : Str} {cap : Nat} (hcap : cap < sizeT) {s p r : Text} (hp : p ≠ [])
    (hv : v.Holds cap s) {fuel : Nat} (hfuel : s.length < fuel) :
    ∃ v' s', replaceAll fuel v p r =
        some (.ok (v', decide ((replaced p r s).length ≤ cap))) ∧ v'.Holds cap s' ∧
      ((replaced p r s).length ≤ cap → s' = replaced p r s) ∧
      (cap < (replaced p r s).length → s'.length = cap) ∧
      (p.length = 1 → s' = (replaced p r s).take cap) := by
  have key : ∀ rep, RepOk cap p r rep →
      ∃ v' s', replaceLoop rep (r.length - p.length) p fuel v (findFrom v.contents p 0) false =
        some (.ok (v', decide ((replaced p r s).length ≤ cap))) ∧ v'.Holds cap s' ∧
      ((replaced p r s).length ≤ cap → s' = replaced p r s) ∧
      (cap < (replaced p r s).length → s'.length = cap) ∧
      (p.length = 1 → s' = (replaced p r s).take cap) := by
    intro rep hrep
    obtain ⟨v', s', e, hh, c1, c2, c3⟩ := replaceLoop_holds hp hrep fuel 0 false hv (by omega)
      (by simpa using hfuel)
    simp only [List.take_zero, List.drop_zero, List.nil_append] at e c1 c2 c3
    refine ⟨v', s', ?_, hh, c1, c2, c3⟩
    rw [hv.contents, e]
    congr 3
    by_cases h : (replaced p r s).length ≤ cap
    · have : ¬ cap < (replaced p r s).length := by omega
      simp [h, this]
    · have : cap < (replaced p r s).length := by omega
      simp [h, this]
  unfold replaceAll
  by_cases h1 : r.length = p.length
  · rw [if_pos h1]
    have := key _ (repOk_same h1)
    rwa [show r.length - p.length = 0 by omega] at this
  · rw [if_neg h1]
    by_cases h2 : r.length < p.length
    · rw [if_pos h2]
      have := key _ (repOk_smaller h2)
      rwa [show r.length - p.length = 0 by omega] at this
    · rw [if_neg h2]
      exact key _ (repOk_larger hcap hp (by omega))

/-! ### escaping -/

theorem findAt_single {c : Char} : ∀ {s : Text},
    (findAt [c] s = none → c ∉ s) ∧
    ∀ i, findAt [c] s = some i → ∃ x y, s = x ++ [c] ++ y ∧ x.length = i ∧ c ∉ x := by
  intro s
  induction s with
  | nil => simp [findAt]
  | cons d ds ih =>
    simp only [findAt]
    by_cases h : d = c
    · subst h
      have : List.isPrefixOf [d] (d :: ds) = true := by simp [List.isPrefixOf]
      rw [if_pos this]
      refine ⟨by simp, ?_⟩
      intro i hi
      simp at hi; subst hi
      exact ⟨[], ds, by simp, rfl, by simp⟩
    · have : ¬ List.isPrefixOf [c] (d :: ds) = true := by
        simp [List.isPrefixOf]; exact fun e => h e.symm
      rw [if_neg this]
      refine ⟨?_, ?_⟩
      · intro hn
        simp only [Option.map_eq_none_iff] at hn
        simp only [List.mem_cons, not_or]
        exact ⟨fun e => h e.symm, ih.1 hn⟩
      · intro i hi
        cases hf : findAt [c] ds with
        | none => rw [hf] at hi; simp at hi
        | some j =>
          rw [hf] at hi; simp at hi; subst hi
          obtain ⟨x, y, e, hl, hx⟩ := ih.2 j hf
          refine ⟨d :: x, y, by simp [e], by simp [hl], ?_⟩
          simp only [List.mem_cons, not_or]
          exact ⟨fun e => h e.symm, hx⟩

theorem findFrom_single {c : Char} {s : Text} {pos : Nat} (hpos : pos ≤ s.length) :
    (findFrom s [c] pos = none → c ∉ s.drop pos) ∧
    ∀ i, findFrom s [c] pos = some i →
      ∃ x y, s.drop pos = x ++ [c] ++ y ∧ i = pos + x.length ∧ c ∉ x := by
  unfold findFrom
  rw [if_pos hpos]
  obtain ⟨h1, h2⟩ := findAt_single (c := c) (s := s.drop pos)
  refine ⟨fun h => h1 (by simpa using h), ?_⟩
  intro i hi
  cases hf : findAt [c] (s.drop pos) with
  | none => rw [hf] at hi; simp at hi
  | some j =>
    rw [hf] at hi; simp at hi
    obtain ⟨x, y, e, hl, hx⟩ := h2 j hf
    exact ⟨x, y, e, by omega, hx⟩

/-- What is known about `last_full_pos`. -/
def LastFull (cap : Nat) (c : Char) (r s0 : Text) (lf : Nat) : Prop :=
  (lf + 3 ≤ cap ∧ ∃ s1, s1 <+: s0 ∧ lf = (escaped c r s1).length) ∨
  (lf = s0.length ∧ ∃ x, x <+: s0 ∧ x ≠ s0 ∧ c ∉ x ∧ cap < x.length + 3)

theorem escapeLoop_holds {cap : Nat} (hcap : cap < sizeT) {c : Char} {r : Text}
    (hr : 2 ≤ r.length) (s0 : Text) : ∀ (fuel : Nat) {v : Str} (s1 s2 : Text) (lf : Nat),
    s0 = s1 ++ s2 → v.Holds cap ((escaped c r s1 ++ s2).take cap) →
    (LastFull cap c r s0 lf ∨ (lf = s0.length ∧ s1 = [] ∧ s0.length ≤ cap)) → s2.length < fuel →
    ∃ v' lf', escapeLoop (r.length - 1) [c] r fuel v
        (findFrom ((escaped c r s1 ++ s2).take cap) [c] (min (escaped c r s1).length cap)) lf
        (decide (cap < (escaped c r s1 ++ s2).length)) =
        some (.ok (v', lf', decide (cap < (escaped c r s0).length))) ∧
      v'.Holds cap ((escaped c r s0).take cap) ∧
      (cap < (escaped c r s0).length → LastFull cap c r s0 lf') := by
  intro fuel
  induction fuel with
  | zero => intro v s1 s2 lf _ _ _ h; simp at h
  | succ fuel ih =>
    intro v s1 s2 lf hs hv hlf hfuel
    generalize hE : escaped c r s1 = E at *
    have hposS : min E.length cap ≤ ((E ++ s2).take cap).length := by
      simp only [List.length_take, List.length_append]; omega
    have hs0 : escaped c r s0 = E ++ escaped c r s2 := by rw [hs, escaped_append, hE]
    have hE2 := length_le_escaped c (r := r) (by omega) s2
    -- what is left to be searched
    have hdrop : ((E ++ s2).take cap).drop (min E.length cap) = s2.take (cap - E.length) := by
      rcases Nat.lt_or_ge E.length cap with h | h
      · rw [take_add_append (k := cap - E.length) (by omega), Nat.min_eq_left (by omega),
          List.drop_left]
      · rw [List.drop_of_length_le (by rw [List.length_take]; omega)]
        have : cap - E.length = 0 := by omega
        rw [this]; rfl
    obtain ⟨hnone, hsome⟩ := findFrom_single (c := c) hposS
    rw [hdrop] at hnone hsome
    cases hf : findFrom ((E ++ s2).take cap) [c] (min E.length cap) with
    | none =>
      have hnm := hnone hf
      refine ⟨v, lf, ?_, ?_, ?_⟩
      · simp only [escapeLoop]
        congr 4
        rw [decide_eq_decide, hs0]
        simp only [List.length_append]
        constructor
        · intro h; omega
        · intro h
          rcases Nat.lt_or_ge cap (E.length + s2.length) with h' | h'
          · exact h'
          · rw [List.take_of_length_le (by omega)] at hnm
            rw [escaped_of_notMem hnm] at h
            omega
      · have : (escaped c r s0).take cap = (E ++ s2).take cap := by
          rw [hs0]
          rcases Nat.lt_or_ge E.length cap with h | h
          · rw [take_add_append (k := cap - E.length) (by omega)]
            rw [take_add_append (k := cap - E.length) (by omega)]
            congr 1
            conv => lhs; rw [← List.take_append_drop (cap - E.length) s2, escaped_append,
              escaped_of_notMem hnm]
            rcases Nat.lt_or_ge s2.length (cap - E.length) with h2 | h2
            · rw [List.take_of_length_le (l := s2) (by omega), List.drop_of_length_le (by omega)]
              simp only [escaped, List.flatMap_nil, List.append_nil]
              exact List.take_of_length_le (by omega)
            · rw [List.take_append_of_le_length (by rw [List.length_take]; omega)]
              rw [List.take_take, Nat.min_self]
          · rw [List.take_append_of_le_length h, List.take_append_of_le_length h]
        rw [this]; exact hv
      · intro hov
        rcases hlf with h | ⟨_, h2, h3⟩
        · exact h
        · exfalso
          subst h2
          simp only [escaped, List.flatMap_nil] at hE
          subst hE
          simp only [List.nil_append] at hs hs0
          subst hs
          simp only [List.length_nil, Nat.sub_zero] at hnm
          rw [List.take_of_length_le h3] at hnm
          rw [escaped_of_notMem hnm] at hov
          omega
    | some i =>
      obtain ⟨x, y, hxy, hi, hx⟩ := hsome i hf
      have hlen := congrArg List.length hxy
      simp only [List.length_take, List.length_append, List.length_singleton] at hlen
      have hElt : E.length < cap := by omega
      rw [Nat.min_eq_left (by omega)] at hi
      -- split s2 itself
      obtain ⟨y', hs2, hy⟩ : ∃ y', s2 = x ++ [c] ++ y' ∧ y = y'.take (cap - E.length - (x.length + 1)) := by
        refine ⟨y ++ s2.drop (cap - E.length), ?_, ?_⟩
        · conv => lhs; rw [← List.take_append_drop (cap - E.length) s2, hxy]
          simp
        · rcases Nat.lt_or_ge s2.length (cap - E.length) with h2 | h2
          · rw [List.drop_of_length_le (by omega), List.append_nil, List.take_of_length_le (by omega)]
          · rw [List.take_append_of_le_length (by omega), List.take_of_length_le (by omega)]
      have hl2 := congrArg List.length hs2
      simp only [List.length_append, List.length_singleton] at hl2
      have hyl := congrArg List.length hy
      rw [List.length_take] at hyl
      have hS : (E ++ s2).take cap = (E ++ x) ++ [c] ++ y := by
        rw [take_add_append (k := cap - E.length) (by omega), hxy]; simp
      rw [hS] at hv
      obtain ⟨v1, e1, hv1⟩ := replaceLarger_holds hcap (p := [c]) (r := r) hv (by simp)
        (by simp; omega)
      have hE' : escaped c r (s1 ++ x ++ [c]) = E ++ x ++ r := by
        rw [escaped_append, escaped_append, hE, escaped_of_notMem hx]
        simp [escaped]
      have hT : (E ++ x ++ r ++ y).take cap = (escaped c r (s1 ++ x ++ [c]) ++ y').take cap := by
        rw [hE', hy]
        rcases Nat.lt_or_ge (E ++ x ++ r).length cap with h | h
        · rw [take_add_append (k := cap - (E ++ x ++ r).length) (by omega)]
          rw [take_add_append (k := cap - (E ++ x ++ r).length) (by omega)]
          rw [List.take_take, Nat.min_eq_left]
          simp only [List.length_append]; omega
        · rw [List.take_append_of_le_length h, List.take_append_of_le_length h]
      have hv1' := hv1
      rw [hT] at hv1'
      have hcapv : v.capacity = cap := hv.capacity
      have hcapv1 : v1.capacity = cap := hv1.capacity
      have hav := hv.available
      simp only [List.length_append, List.length_singleton] at hav
      -- the two updates of last_full_pos
      generalize hlf1 : (if cap - i ≥ 3 then i else lf) = lf1
      generalize hlf2 : (if cap - min ((E ++ x).length + r.length) cap ≥ 3 then
        min ((E ++ x).length + r.length) cap else lf1) = lf2
      have hxs0 : s1 ++ x <+: s0 := by
        rw [hs, hs2]; exact ⟨[c] ++ y', by simp⟩
      have hLF1 : LastFull cap c r s0 lf1 := by
        by_cases hi3 : cap - i ≥ 3
        · rw [if_pos hi3] at hlf1
          left
          refine ⟨by omega, s1 ++ x, hxs0, ?_⟩
          rw [escaped_append, hE, escaped_of_notMem hx, List.length_append]; omega
        · rw [if_neg hi3] at hlf1
          subst hlf1
          rcases hlf with h | ⟨h1, h2, h3⟩
          · exact h
          · right
            subst h2
            simp only [escaped, List.flatMap_nil] at hE
            subst hE
            refine ⟨h1, x, by simpa using hxs0, ?_, hx, ?_⟩
            · intro e
              have := congrArg List.length e
              rw [hs] at this
              simp only [List.nil_append] at this; omega
            · simp only [List.length_nil] at hi; omega
      have hLF2 : LastFull cap c r s0 lf2 := by
        by_cases hi3 : cap - min ((E ++ x).length + r.length) cap ≥ 3
        · rw [if_pos hi3] at hlf2
          left
          refine ⟨by omega, s1 ++ x ++ [c], ⟨y', by rw [hs, hs2]; simp⟩, ?_⟩
          rw [hE', ← hlf2, List.length_append (as := E ++ x)]; omega
        · rw [if_neg hi3] at hlf2
          subst hlf2; exact hLF1
      obtain ⟨v', lf', e2, hv', hfin⟩ := ih (s1 ++ x ++ [c]) y' lf2 (by rw [hs, hs2]; simp) hv1'
        (Or.inl hLF2) (by omega)
      refine ⟨v', lf', ?_, hv', hfin⟩
      rw [← e2]
      have hpa : i = (E ++ x).length := by rw [List.length_append]; omega
      simp only [escapeLoop, hcapv]
      rw [if_neg (by rw [hpa, List.length_append]; omega)]
      have e1' : replaceLarger v (r.length - 1) i r =
          .ok (v1, min ((E ++ x).length + r.length) cap) := by rw [hpa]; exact e1
      rw [e1']
      simp only [hcapv1]
      rw [if_neg (by omega)]
      rw [hlf1, hlf2, hv1'.contents, hE', List.length_append (as := E ++ x)]
      congr 1
      rw [hav]
      rw [Bool.eq_iff_iff]
      simp only [Bool.or_eq_true, decide_eq_true_eq, List.length_append, hl2]
      omega

theorem escapeAllOrTruncate_holds {v : Str} {cap : Nat} (hcap : cap + 3 < sizeT) {c : Char}
    {r s : Text} (hr : 2 ≤ r.length) (hv : v.Holds cap s) {fuel : Nat} (hfuel : s.length < fuel) :
    ∃ v' s', escapeAllOrTruncate fuel v [c] r =
        some (.ok (v', decide ((escaped c r s).length ≤ cap))) ∧ v'.Holds cap s' ∧
      ((escaped c r s).length ≤ cap → s' = escaped c r s) ∧
      (cap < (escaped c r s).length → ∃ s1, s1 <+: s ∧ s' = escaped c r s1 ++ marker cap) := by
  have hle := hv.le
  unfold escapeAllOrTruncate
  rw [if_neg (by simp; omega)]
  have h0 : (escaped c r [] ++ s).take cap = s := by
    simp only [escaped, List.flatMap_nil, List.nil_append]; exact List.take_of_length_le hle
  obtain ⟨v1, lf, e, hv1, hfin⟩ := escapeLoop_holds (show cap < sizeT by omega) hr s fuel (v := v)
    (c := c) [] s s.length rfl (by rw [h0]; exact hv) (Or.inr ⟨rfl, rfl, hle⟩) hfuel
  rw [h0] at e
  have hd : decide (cap < (escaped c r [] ++ s).length) = false := by
    simp [escaped]; exact hle
  have hm : min (escaped c r []).length cap = 0 := by simp [escaped]
  rw [hd, hm] at e
  rw [hv.contents]
  simp only [List.length_singleton]
  rw [e]
  simp only [Option.map_some, Outcome.bind_ok]
  by_cases hov : cap < (escaped c r s).length
  · have hLF := hfin hov
    have hnle : ¬ (escaped c r s).length ≤ cap := by omega
    simp only [hov, decide_true, if_true, Bool.not_true, hnle, decide_false]
    have hl1 : ((escaped c r s).take cap).length = cap := by rw [List.length_take]; omega
    have hlf : lf ≤ cap := by
      rcases hLF with ⟨h, _⟩ | ⟨h, _⟩ <;> omega
    obtain ⟨r1, r2⟩ := hv1.resize (n := lf) hlf
    rw [r1]; simp only [Outcome.bind_ok]
    obtain ⟨v2, e2, hv2⟩ := truncateEnd_holds r2 hcap
    rw [e2]; simp only [Outcome.bind_ok, Outcome.pure_eq]
    have hbuf : v1.buf.take lf = (escaped c r s).take lf := by
      have h := hv1.2.2
      rw [hv1.2.1, hl1] at h
      have : (v1.buf.take cap).take lf = v1.buf.take lf := by
        rw [List.take_take, Nat.min_eq_left hlf]
      rw [← this, h, List.take_take, Nat.min_eq_left hlf]
    rw [hbuf] at hv2
    have hlenlf : ((escaped c r s).take lf).length = lf := by rw [List.length_take]; omega
    refine ⟨v2, _, rfl, hv2, fun h => h.elim, fun _ => ?_⟩
    rcases hLF with ⟨h3, s1, ⟨t, ht⟩, hs1⟩ | ⟨h3, x, ⟨t, ht⟩, hne, hx, hx3⟩
    · refine ⟨s1, ⟨t, ht⟩, ?_⟩
      rw [truncated, hlenlf]
      rw [List.take_take]
      have : min (min (lf + 3) cap - 3) lf = lf := by omega
      rw [this, ← ht, escaped_append, hs1, List.take_left]
    · have hxl : x.length < s.length := by
        have := congrArg List.length ht
        simp only [List.length_append] at this
        rcases Nat.eq_zero_or_pos t.length with h | h
        · rw [List.length_eq_zero_iff] at h; subst h; simp at ht; exact absurd ht hne
        · omega
      refine ⟨x.take (cap - 3), ⟨x.drop (cap - 3) ++ t, by
        rw [← ht, ← List.append_assoc, List.take_append_drop]⟩, ?_⟩
      have hx' : c ∉ x.take (cap - 3) := fun h => hx (List.mem_of_mem_take h)
      rw [escaped_of_notMem hx', truncated, hlenlf]
      congr 1
      rw [List.take_take]
      have : min (min (lf + 3) cap - 3) lf = cap - 3 := by omega
      rw [this, ← ht, escaped_append, escaped_of_notMem hx]
      rw [List.take_append_of_le_length (by omega)]
  · have hle' : (escaped c r s).length ≤ cap := by omega
    simp only [hov, decide_false, Bool.false_eq_true, if_false, Bool.not_false, hle', decide_true,
      Outcome.pure_eq]
    refine ⟨v1, _, rfl, hv1, fun _ => List.take_of_length_le hle', fun h => h.elim⟩

end Util
end Verif
