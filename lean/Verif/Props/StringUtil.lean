import Verif.Lemmas.StringUtil
import Verif.Lemmas.Match
import Verif.Spec.Append
/-!
# C07–C12: string utilities
-/
namespace Verif.Props
open Verif Verif.Spec SV

/-- **C07**. `truncate_end` leaves `min (size + 3) capacity` characters: a leading part of the old
content followed by the marker. -/
theorem C07_truncate_end (v : Str) (hv : v.size ≤ v.capacity) (hcap : v.capacity + 3 < 2 ^ 64) :
    ∃ v', Util.truncateEnd v = .ok v' ∧ v'.capacity = v.capacity ∧ v'.size ≤ v'.capacity ∧
      v'.contents.length = min (v.contents.length + 3) v.capacity ∧
      ∃ p, p <+: v.contents ∧ v'.contents = p ++ marker v.capacity := by
  obtain ⟨v', e, h⟩ := Util.truncateEnd_holds (holds_of_wf hv) hcap
  have hle := (holds_of_wf hv).le
  refine ⟨v', e, h.capacity, ?_, ?_, _, List.take_prefix _ _, h.contents⟩
  · rw [h.capacity, h.2.1]; exact h.le
  · rw [h.contents, Util.truncated, marker]
    simp only [List.length_append, List.length_take, List.length_replicate]; omega

/-- **C08**. `append_or_truncate` shows everything and returns `true`, or — exactly when it does
not fit — fills the destination with a leading part and the marker, and returns `false`. -/
theorem C08_append_or_truncate (ce : Bool) (v : Str) (hv : v.size ≤ v.capacity)
    (hcap : v.capacity + 3 < 2 ^ 64) (args : List Text) :
    ∃ v' ok, Util.appendOrTruncate ce v args = .ok (v', ok) ∧ v'.capacity = v.capacity ∧
      v'.size ≤ v'.capacity ∧
      (ok = true ↔ (v.contents ++ args.flatten).length ≤ v.capacity) ∧
      (ok = true → v'.contents = v.contents ++ args.flatten) ∧
      (ok = false → v'.contents.length = v.capacity ∧
        v'.contents = (v.contents ++ args.flatten).take (v.capacity - 3) ++ marker v.capacity) := by
  obtain ⟨v', e, h⟩ := Util.appendOrTruncate_holds ce (holds_of_wf hv) hcap args
  refine ⟨v', _, e, h.capacity, ?_, by simp, ?_, ?_⟩
  · rw [h.capacity, h.2.1]; exact h.le
  · intro hok
    rw [decide_eq_true_eq] at hok
    rw [h.contents, if_pos hok]
  · intro hok
    rw [decide_eq_false_iff_not] at hok
    rw [h.contents, if_neg hok]
    refine ⟨?_, rfl⟩
    simp only [List.length_append, List.length_take, marker, List.length_replicate]; omega

/-- **C09**. For a non-empty pattern, `replace_all` finishes within as many iterations as the text
has characters (plus one); it returns `true` exactly if the fully replaced text fits, and then the
content is that text; otherwise the destination is full, and for a one-character pattern holds the
leading part of the fully replaced text. -/
theorem C09_replace_all (v : Str) (hv : v.size ≤ v.capacity) (hcap : v.capacity < 2 ^ 64)
    (p r : Text) (hp : p ≠ []) (fuel : Nat) (hfuel : v.contents.length < fuel) :
    ∃ v' ok, Util.replaceAll fuel v p r = some (.ok (v', ok)) ∧ v'.capacity = v.capacity ∧
      v'.size ≤ v'.capacity ∧
      (ok = true ↔ (replaced p r v.contents).length ≤ v.capacity) ∧
      (ok = true → v'.contents = replaced p r v.contents) ∧
      (ok = false → v'.contents.length = v.capacity) ∧
      (p.length = 1 → v'.contents = (replaced p r v.contents).take v.capacity) := by
  obtain ⟨v', s', e, h, c1, c2, c3⟩ := Util.replaceAll_holds hcap (r := r) hp (holds_of_wf hv) hfuel
  refine ⟨v', _, e, h.capacity, ?_, by simp, ?_, ?_, ?_⟩
  · rw [h.capacity, h.2.1]; exact h.le
  · intro hok; rw [decide_eq_true_eq] at hok; rw [h.contents, c1 hok]
  · intro hok; rw [decide_eq_false_iff_not] at hok; rw [h.contents]; exact c2 (by omega)
  · intro hl; rw [h.contents, c3 hl]

/-- Sanity of the specification `replaced`: no occurrence means no change. -/
theorem C09_replaced_no_occurrence (p r s : Text) (h : ¬ p <:+: s) : replaced p r s = s := by
  induction s with
  | nil => simp [replaced]
  | cons c cs ih =>
    rw [replaced, if_neg (fun hp => h hp.isInfix), ih (fun hi => h (hi.trans (List.infix_cons (List.infix_refl cs))))]

/-- Sanity of the specification `replaced`: a first occurrence is replaced and the search goes on
behind it. -/
theorem C09_replaced_first (p r x y : Text) (hp : p ≠ [])
    (hfirst : ∀ i, i < x.length → ¬ p <+: (x ++ p ++ y).drop i) :
    replaced p r (x ++ p ++ y) = x ++ r ++ replaced p r y := by
  induction x with
  | nil =>
    cases p with
    | nil => exact absurd rfl hp
    | cons a p =>
      simp only [List.nil_append, List.cons_append]
      rw [replaced, if_pos ⟨y, by simp⟩]
      simp
  | cons c x ih =>
    have h0 := hfirst 0 (by simp)
    simp only [List.cons_append, List.drop_zero] at h0 ⊢
    rw [replaced, if_neg h0, ih (fun i hi => by
      have := hfirst (i + 1) (by simp; omega)
      simpa using this)]

/-- The code deviates for longer patterns when the text is cut: an occurrence that is pushed partly
past the end is lost ("abab" with "ab" → "xyz" in 4 characters gives "xyza", while the leading part
of the fully replaced text is "xyzx"). -/
theorem C09_cut_pattern_deviates :
    ∃ v', Util.replaceAll 5 ({ buf := "abab".toList, size := 4 } : Str) "ab".toList "xyz".toList
        = some (.ok (v', false)) ∧ v'.contents = "xyza".toList ∧
      (replaced "ab".toList "xyz".toList "abab".toList).take 4 = "xyzx".toList := by
  refine ⟨{ buf := "xyza".toList, size := 4 }, by decide, by decide, by simp [replaced]⟩

/-- With an empty pattern (and an empty replacement) the loop never ends. -/
theorem C09_empty_pattern_diverges (v : Str) (fuel : Nat) : Util.replaceAll fuel v [] [] = none := by
  have key : ∀ fuel (v : Str), Util.replaceLoop (fun ss pos => Util.replaceSameSize ss pos []) 0 []
      fuel v (some 0) false = none := by
    intro fuel
    induction fuel with
    | zero => intro v; rfl
    | succ n ih =>
      intro v
      have hw : Util.replaceSameSize v 0 [] = .ok (v, 0) := by
        simp [Util.replaceSameSize, SV.memWrite]
      have hf : ∀ s : Text, Util.findFrom s [] 0 = some 0 := by
        intro s; cases s <;> simp [Util.findFrom, Util.findAt]
      simp [Util.replaceLoop, hw, hf, ih]
  have hf : ∀ s : Text, Util.findFrom s [] 0 = some 0 := by
    intro s; cases s <;> simp [Util.findFrom, Util.findAt]
  simp [Util.replaceAll, hf, key]

/-- **C10**. Escaping a character by a longer text: `true` exactly if the escaped text fits, and
then the content is the escaped text; otherwise the content is the escaped form of a leading part of
the original (so no replacement is cut) followed by the marker, within the capacity. -/
theorem C10_escape_all_or_truncate (v : Str) (hv : v.size ≤ v.capacity)
    (hcap : v.capacity + 3 < 2 ^ 64) (c : Char) (r : Text) (hr : 2 ≤ r.length) (fuel : Nat)
    (hfuel : v.contents.length < fuel) :
    ∃ v' ok, Util.escapeAllOrTruncate fuel v [c] r = some (.ok (v', ok)) ∧
      v'.capacity = v.capacity ∧ v'.size ≤ v'.capacity ∧
      (ok = true ↔ (escaped c r v.contents).length ≤ v.capacity) ∧
      (ok = true → v'.contents = escaped c r v.contents) ∧
      (ok = false → ∃ s1, s1 <+: v.contents ∧
        v'.contents = escaped c r s1 ++ marker v.capacity) := by
  obtain ⟨v', s', e, h, c1, c2⟩ :=
    Util.escapeAllOrTruncate_holds hcap (c := c) hr (holds_of_wf hv) hfuel
  refine ⟨v', _, e, h.capacity, ?_, by simp, ?_, ?_⟩
  · rw [h.capacity, h.2.1]; exact h.le
  · intro hok; rw [decide_eq_true_eq] at hok; rw [h.contents, c1 hok]
  · intro hok; rw [decide_eq_false_iff_not] at hok; rw [h.contents]; exact c2 (by omega)

/-- **C10**. A replacement that is not longer than the pattern is rejected. -/
theorem C10_requirement (fuel : Nat) (v : Str) (p r : Text) (h : r.length ≤ p.length) :
    Util.escapeAllOrTruncate fuel v p r = some .abort := by
  simp [Util.escapeAllOrTruncate, h]

/-- **C11**. The index returned is the least position of an unescaped `c`. -/
theorem C11_find_first_not_escaped (s : Text) (c : Char) (i : Nat) :
    Util.findFirstNotEscaped s c = some i ↔
      PlainAt s i c ∧ ∀ j, j < i → ¬ PlainAt s j c := by
  obtain ⟨h1, h2⟩ := Util.findFirstNotEscapedFrom_spec c s.length s [] (Nat.le_refl _) rfl
  simp only [List.length_nil, List.nil_append] at h1 h2
  constructor
  · intro h
    obtain ⟨a, b⟩ := h1 i h
    exact ⟨a, fun j hj => b j (by omega) hj⟩
  · rintro ⟨a, b⟩
    unfold Util.findFirstNotEscaped
    cases hf : Util.findFirstNotEscapedFrom 0 c s with
    | none => exact absurd a (h2 hf i (by omega))
    | some k =>
      obtain ⟨a', b'⟩ := h1 k hf
      rcases Nat.lt_trichotomy i k with h | h | h
      · exact absurd a (b' i (by omega) h)
      · rw [h]
      · exact absurd a' (b k h)

/-- **C11**. `npos` is returned exactly if there is no unescaped `c`. -/
theorem C11_find_npos (s : Text) (c : Char) :
    Util.findFirstNotEscaped s c = none ↔ ∀ j, ¬ PlainAt s j c := by
  obtain ⟨h1, h2⟩ := Util.findFirstNotEscapedFrom_spec c s.length s [] (Nat.le_refl _) rfl
  simp only [List.length_nil, List.nil_append] at h1 h2
  constructor
  · intro h j; exact h2 h j (by omega)
  · intro h
    unfold Util.findFirstNotEscaped
    cases hf : Util.findFirstNotEscapedFrom 0 c s with
    | none => rfl
    | some k => exact absurd (h1 k hf).1 (h k)

/-- **C12**. For a non-empty pattern, `is_match` is true exactly if the pattern has a reading and
that reading matches the entire text. -/
theorem C12_is_match (s r : Text) (hr : r ≠ []) :
    Util.isMatch s r = true ↔ ∃ ts, Reads r ts ∧ Glob ts s := by
  have : r.isEmpty = false := by cases r <;> simp_all
  rw [Util.isMatch, this]
  simp only [Bool.false_eq_true, if_false]
  exact Util.isMatchLoop_iff r.length r s (Nat.le_refl _)

/-- **C12**. A reading is unique, so the pattern has one meaning. -/
theorem C12_reading_unique {r : Text} {ts us : List Tok} (h : Reads r ts) (h' : Reads r us) :
    ts = us := by
  induction h generalizing us with
  | nil => exact (Util.reads_nil h').symm
  | any _ ih =>
    rw [Util.reads_star] at h'
    obtain ⟨us', rfl, h'⟩ := h'
    rw [ih h']
  | esc _ ih =>
    rw [Util.reads_bs] at h'
    obtain ⟨c, r', us', h, rfl, h'⟩ := h'
    cases h
    rw [ih h']
  | lit h1 h2 _ ih =>
    rw [Util.reads_lit h1 h2] at h'
    obtain ⟨us', rfl, h'⟩ := h'
    rw [ih h']

/-- **C12**. A pattern without special characters matches exactly itself. -/
theorem C12_literal (s r : Text) (hr : r ≠ []) (h1 : '*' ∉ r) (h2 : '\\' ∉ r) :
    Util.isMatch s r = true ↔ s = r := by
  rw [C12_is_match s r hr]
  clear hr
  induction r generalizing s with
  | nil =>
    constructor
    · rintro ⟨ts, a, b⟩
      have := Util.reads_nil a; subst this
      exact Util.glob_nil b
    · rintro rfl; exact ⟨[], .nil, .nil⟩
  | cons c r ih =>
    simp only [List.mem_cons, not_or] at h1 h2
    have hc1 : c ≠ '*' := fun e => h1.1 e.symm
    have hc2 : c ≠ '\\' := fun e => h2.1 e.symm
    constructor
    · rintro ⟨ts, a, b⟩
      rw [Util.reads_lit hc1 hc2] at a
      obtain ⟨ts', rfl, a⟩ := a
      rw [Util.glob_lit_iff] at b
      obtain ⟨s', rfl, b⟩ := b
      rw [(ih s' h1.2 h2.2).mp ⟨ts', a, b⟩]
    · rintro rfl
      obtain ⟨ts, a, b⟩ := (ih r h1.2 h2.2).mpr rfl
      exact ⟨.lit c :: ts, .lit hc1 hc2 a, .lit b⟩

/-- **C12**. A pattern ending in an unpaired backslash matches nothing. -/
theorem C12_ill_formed (s r : Text) (h : ¬ ∃ ts, Reads r ts) (hr : r ≠ []) :
    Util.isMatch s r = false := by
  rw [Bool.eq_false_iff]
  intro hm
  obtain ⟨ts, a, _⟩ := (C12_is_match s r hr).mp hm
  exact h ⟨ts, a⟩

/-- The empty pattern matches everything, although its declarative meaning is the empty text. -/
theorem C12_empty_pattern (s : Text) : Util.isMatch s [] = true := rfl

/-! ### Non-vacuity -/

private def demo : Str := { buf := "a&b&zzzz".toList, size := 4 }

example : demo.size ≤ demo.capacity ∧ demo.capacity + 3 < 2 ^ 64 ∧ demo.contents = "a&b&".toList := by
  decide
-- "a&b&" escaped needs 12 characters but only 8 are available
example : Util.escapeAllOrTruncate 5 demo ['&'] "&amp;".toList =
    some (.ok ({ buf := "a...bpb&".toList, size := 4 }, false)) ∨
    ∃ v', Util.escapeAllOrTruncate 5 demo ['&'] "&amp;".toList = some (.ok (v', false)) ∧
      v'.contents = "a...".toList := by
  right; exact ⟨_, rfl, by decide⟩
example : ∃ v', Util.replaceAll 5 demo ['&'] "<>".toList = some (.ok (v', true)) ∧
    v'.contents = "a<>b<>".toList := ⟨_, rfl, by decide⟩
example : ∃ v', Util.truncateEnd demo = .ok v' ∧ v'.contents = "a&b&...".toList :=
  ⟨_, rfl, by decide⟩
example : Util.findFirstNotEscaped "a\\,b\\\\,c".toList ',' = some 6 := by decide
example : Util.isMatch "foo/bar baz".toList "f*\\/b*z".toList = true := by decide
example : ¬ ∃ ts, Reads "ab\\".toList ts := by
  rintro ⟨ts, h⟩
  have e : "ab\\".toList = ['a', 'b', '\\'] := rfl
  rw [e, Util.reads_lit (by decide) (by decide)] at h
  obtain ⟨_, rfl, h⟩ := h
  rw [Util.reads_lit (by decide) (by decide)] at h
  obtain ⟨_, rfl, h⟩ := h
  rw [Util.reads_bs] at h
  obtain ⟨_, _, _, h, _⟩ := h
  simp at h

end Verif.Props
