import Verif.Model.StringUtil
import Verif.Spec.StringUtil
/-! Helper lemmas for escape-aware search and wildcard matching. -/
namespace Verif
open Spec
namespace Util

/-! ### find_first_not_escaped -/

/-- Length of the run of backslashes at the end of `p`. -/
def trail (p : Text) : Nat := (p.reverse.takeWhile (· = '\\')).length

theorem trail_append_ne {p : Text} {c : Char} (h : c ≠ '\\') : trail (p ++ [c]) = 0 := by
  simp [trail, h]

theorem trail_append_bs {p : Text} : trail (p ++ ['\\']) = trail p + 1 := by
  simp [trail]

/-- `i` is the least unescaped position of `c` in `pre ++ s`, at or after `pre`. -/
theorem findFirstNotEscapedFrom_spec (c : Char) : ∀ (n : Nat) (s pre : Text), s.length ≤ n →
    trail pre % 2 = 0 →
    (∀ i, findFirstNotEscapedFrom pre.length c s = some i →
      PlainAt (pre ++ s) i c ∧ ∀ j, pre.length ≤ j → j < i → ¬ PlainAt (pre ++ s) j c) ∧
    (findFirstNotEscapedFrom pre.length c s = none →
      ∀ j, pre.length ≤ j → ¬ PlainAt (pre ++ s) j c) := by
  intro n
  induction n with
  | zero =>
    intro s pre hs ht
    have : s = [] := List.length_eq_zero_iff.mp (by omega)
    subst this
    refine ⟨by simp [findFirstNotEscapedFrom], ?_⟩
    intro _ j hj h
    obtain ⟨h1, _⟩ := h
    rw [List.append_nil, List.getElem?_eq_none hj] at h1
    simp at h1
  | succ n ih =>
    intro s pre hs ht
    have here : ∀ x rest, s = x :: rest → ∀ c, PlainAt (pre ++ s) pre.length c ↔ (x = c ∧ c ≠ '\\') := by
      intro x rest hx c
      subst hx
      have h1 : (pre ++ x :: rest)[pre.length]? = some x := by simp
      have h2 : (pre ++ x :: rest).take pre.length = pre := by simp
      unfold PlainAt
      rw [h1, h2]
      constructor
      · rintro ⟨a, b, _⟩; exact ⟨Option.some.inj a, b⟩
      · rintro ⟨a, b⟩; exact ⟨by rw [a], b, ht⟩
    cases s with
    | nil =>
      refine ⟨by simp [findFirstNotEscapedFrom], ?_⟩
      intro _ j hj h
      obtain ⟨h1, _⟩ := h
      rw [List.append_nil, List.getElem?_eq_none hj] at h1
      simp at h1
    | cons x rest =>
      have here := here x rest rfl
      by_cases hx : x = '\\'
      · subst hx
        cases rest with
        | nil =>
          refine ⟨by simp [findFirstNotEscapedFrom], ?_⟩
          intro _ j hj h
          rcases Nat.lt_or_ge pre.length j with h' | h'
          · obtain ⟨h1, _⟩ := h
            rw [List.getElem?_eq_none (by simp; omega)] at h1
            simp at h1
          · have : j = pre.length := by omega
            subst this
            have := (here c).mp h
            exact this.2 this.1.symm
        | cons y rest =>
          have e : pre ++ '\\' :: y :: rest = (pre ++ ['\\', y]) ++ rest := by simp
          have hl : (pre ++ ['\\', y]).length = pre.length + 2 := by simp
          have ht' : trail (pre ++ ['\\', y]) % 2 = 0 := by
            have e2 : pre ++ ['\\', y] = (pre ++ ['\\']) ++ [y] := by simp
            rw [e2]
            by_cases hy : y = '\\'
            · subst hy; rw [trail_append_bs, trail_append_bs]; omega
            · rw [trail_append_ne hy]
          obtain ⟨i1, i2⟩ := ih rest (pre ++ ['\\', y]) (by simp at hs; omega) ht'
          rw [hl, ← e] at i1 i2
          have hstep : findFirstNotEscapedFrom pre.length c ('\\' :: y :: rest)
              = findFirstNotEscapedFrom (pre.length + 2) c rest := by
            simp [findFirstNotEscapedFrom]
          rw [hstep]
          have h0 : ¬ PlainAt (pre ++ '\\' :: y :: rest) pre.length c := by
            intro h
            have := (here c).mp h
            exact this.2 this.1.symm
          have h1 : ¬ PlainAt (pre ++ '\\' :: y :: rest) (pre.length + 1) c := by
            rintro ⟨_, _, h⟩
            have e3 : (pre ++ '\\' :: y :: rest).take (pre.length + 1) = pre ++ ['\\'] := by
              simp [List.take_append, List.take_of_length_le]
            rw [e3] at h
            have : trail (pre ++ ['\\']) % 2 = 0 := h
            rw [trail_append_bs] at this
            omega
          have skip : ∀ j, pre.length ≤ j → j < pre.length + 2 →
              ¬ PlainAt (pre ++ '\\' :: y :: rest) j c := by
            intro j hj hj2
            rcases Nat.lt_or_ge pre.length j with h' | h'
            · have : j = pre.length + 1 := by omega
              subst this; exact h1
            · have : j = pre.length := by omega
              subst this; exact h0
          refine ⟨?_, ?_⟩
          · intro i hi
            obtain ⟨a, b⟩ := i1 i hi
            refine ⟨a, ?_⟩
            intro j hj hji
            rcases Nat.lt_or_ge j (pre.length + 2) with h' | h'
            · exact skip j hj h'
            · exact b j h' hji
          · intro hn j hj
            rcases Nat.lt_or_ge j (pre.length + 2) with h' | h'
            · exact skip j hj h'
            · exact i2 hn j h'
      · by_cases hc : x = c
        · subst hc
          have hstep : findFirstNotEscapedFrom pre.length x (x :: rest) = some pre.length := by
            cases rest <;> simp [findFirstNotEscapedFrom, hx]
          rw [hstep]
          refine ⟨?_, by simp⟩
          intro i hi
          simp at hi; subst hi
          exact ⟨(here x).mpr ⟨rfl, hx⟩, fun j h1 h2 => by omega⟩
        · have e : pre ++ x :: rest = (pre ++ [x]) ++ rest := by simp
          have hl : (pre ++ [x]).length = pre.length + 1 := by simp
          obtain ⟨i1, i2⟩ := ih rest (pre ++ [x]) (by simp at hs; omega)
            (by rw [trail_append_ne hx])
          rw [hl, ← e] at i1 i2
          have hstep : findFirstNotEscapedFrom pre.length c (x :: rest)
              = findFirstNotEscapedFrom (pre.length + 1) c rest := by
            cases rest <;> simp [findFirstNotEscapedFrom, hx, hc]
          rw [hstep]
          have h0 : ¬ PlainAt (pre ++ x :: rest) pre.length c := by
            intro h
            exact hc ((here c).mp h).1
          refine ⟨?_, ?_⟩
          · intro i hi
            obtain ⟨a, b⟩ := i1 i hi
            refine ⟨a, ?_⟩
            intro j hj hji
            rcases Nat.lt_or_ge pre.length j with h' | h'
            · exact b j h' hji
            · have : j = pre.length := by omega
              subst this; exact h0
          · intro hn j hj
            rcases Nat.lt_or_ge pre.length j with h' | h'
            · exact i2 hn j h'
            · have : j = pre.length := by omega
              subst this; exact h0

/-! ### is_match -/

theorem reads_nil {ts : List Tok} (h : Reads [] ts) : ts = [] := by cases h; rfl

theorem reads_ne_nil {r : Text} {ts : List Tok} (hr : r ≠ []) (h : Reads r ts) : ts ≠ [] := by
  cases h <;> simp at *

theorem glob_nil {s : Text} (h : Glob [] s) : s = [] := by cases h; rfl

theorem glob_any_iff {ts : List Tok} {s : Text} :
    Glob (.any :: ts) s ↔ ∃ o, o ≤ s.length ∧ Glob ts (s.drop o) := by
  constructor
  · intro h
    generalize ht : Tok.any :: ts = t at h
    cases h with
    | nil => cases ht
    | lit h => cases ht
    | any pre h =>
      cases ht
      exact ⟨pre.length, by simp, by simpa using h⟩
  · rintro ⟨o, _, h⟩
    have := Glob.any (s.take o) h
    rwa [List.take_append_drop] at this

theorem glob_lit_iff {c : Char} {ts : List Tok} {s : Text} :
    Glob (.lit c :: ts) s ↔ ∃ s', s = c :: s' ∧ Glob ts s' := by
  constructor
  · intro h
    generalize ht : Tok.lit c :: ts = t at h
    cases h with
    | nil => cases ht
    | any pre h => cases ht
    | lit h => cases ht; exact ⟨_, rfl, h⟩
  · rintro ⟨s', rfl, h⟩; exact .lit h

/-- Only wildcards match the empty text. -/
theorem glob_empty_iff {r : Text} :
    (∃ ts, Reads r ts ∧ Glob ts []) ↔ r.all (· == '*') = true := by
  constructor
  · rintro ⟨ts, hr, hg⟩
    induction hr with
    | nil => rfl
    | any h ih =>
      rw [glob_any_iff] at hg
      obtain ⟨o, _, hg⟩ := hg
      simp at hg
      simpa using ih hg
    | esc h ih =>
      rw [glob_lit_iff] at hg
      obtain ⟨s', h, _⟩ := hg
      simp at h
    | lit _ _ h ih =>
      rw [glob_lit_iff] at hg
      obtain ⟨s', h, _⟩ := hg
      simp at h
  · intro h
    induction r with
    | nil => exact ⟨[], .nil, .nil⟩
    | cons c r ih =>
      simp at h
      obtain ⟨ts, h1, h2⟩ := ih (by simpa using h.2)
      rw [h.1]
      exact ⟨.any :: ts, .any h1, by simpa using Glob.any [] h2⟩

/-- A non-empty pattern matching the empty text matches every text. -/
theorem glob_all {ts : List Tok} (hts : ts ≠ []) (h : Glob ts []) (s : Text) : Glob ts s := by
  induction ts with
  | nil => exact absurd rfl hts
  | cons t ts ih =>
    cases t with
    | lit c => rw [glob_lit_iff] at h; obtain ⟨_, h, _⟩ := h; simp at h
    | any =>
      rw [glob_any_iff] at h ⊢
      obtain ⟨_, _, h⟩ := h
      simp at h
      exact ⟨s.length, Nat.le_refl _, by simpa using h⟩

theorem reads_star {r : Text} {ts : List Tok} :
    Reads ('*' :: r) ts ↔ ∃ ts', ts = .any :: ts' ∧ Reads r ts' := by
  constructor
  · intro h
    cases h with
    | any h => exact ⟨_, rfl, h⟩
    | lit h1 _ _ => exact absurd rfl h1
  · rintro ⟨ts', rfl, h⟩; exact .any h

theorem reads_bs {r : Text} {ts : List Tok} :
    Reads ('\\' :: r) ts ↔ ∃ c r' ts', r = c :: r' ∧ ts = .lit c :: ts' ∧ Reads r' ts' := by
  constructor
  · intro h
    cases h with
    | esc h => exact ⟨_, _, _, rfl, rfl, h⟩
    | lit _ h1 _ => exact absurd rfl h1
  · rintro ⟨c, r', ts', rfl, rfl, h⟩; exact .esc h

theorem reads_lit {c : Char} {r : Text} {ts : List Tok} (h1 : c ≠ '*') (h2 : c ≠ '\\') :
    Reads (c :: r) ts ↔ ∃ ts', ts = .lit c :: ts' ∧ Reads r ts' := by
  constructor
  · intro h
    cases h with
    | any h => exact absurd rfl h1
    | esc h => exact absurd rfl h2
    | lit _ _ h => exact ⟨_, rfl, h⟩
  · rintro ⟨ts', rfl, h⟩; exact .lit h1 h2 h

theorem isMatchLoop_iff : ∀ (n : Nat) (r s : Text), r.length ≤ n →
    (isMatchLoop s r = true ↔ ∃ ts, Reads r ts ∧ Glob ts s) := by
  intro n
  induction n with
  | zero =>
    intro r s hr
    have : r = [] := List.length_eq_zero_iff.mp (by omega)
    subst this
    rw [isMatchLoop]
    constructor
    · intro h
      have : s = [] := by simpa using h
      subst this; exact ⟨[], .nil, .nil⟩
    · rintro ⟨ts, h1, h2⟩
      have := reads_nil h1; subst this
      have := glob_nil h2; subst this; rfl
  | succ n ih =>
    intro r s hr
    cases r with
    | nil =>
      rw [isMatchLoop]
      constructor
      · intro h
        have : s = [] := by simpa using h
        subst this; exact ⟨[], .nil, .nil⟩
      · rintro ⟨ts, h1, h2⟩
        have := reads_nil h1; subst this
        have := glob_nil h2; subst this; rfl
    | cons c r =>
      simp only [List.length_cons] at hr
      by_cases hbs : c = '\\'
      · subst hbs
        cases r with
        | nil =>
          have : isMatchLoop s ['\\'] = false := by cases s <;> simp [isMatchLoop]
          rw [this]
          constructor
          · intro h; simp at h
          · rintro ⟨ts, h1, _⟩
            rw [reads_bs] at h1
            obtain ⟨c, r', ts', h, _⟩ := h1
            simp at h
        | cons d r =>
          cases s with
          | nil =>
            have : isMatchLoop [] ('\\' :: d :: r) = false := by simp [isMatchLoop]
            rw [this]
            constructor
            · intro h; simp at h
            · rintro ⟨ts, h1, h2⟩
              rw [reads_bs] at h1
              obtain ⟨c, r', ts', _, rfl, _⟩ := h1
              rw [glob_lit_iff] at h2
              obtain ⟨_, h, _⟩ := h2
              simp at h
          | cons x s =>
            have : isMatchLoop (x :: s) ('\\' :: d :: r) = if d = x then isMatchLoop s r else false := by
              simp [isMatchLoop]
            rw [this]
            by_cases hd : d = x
            · subst hd
              rw [if_pos rfl, ih r s (by simp at hr; omega)]
              constructor
              · rintro ⟨ts, h1, h2⟩; exact ⟨.lit d :: ts, .esc h1, .lit h2⟩
              · rintro ⟨ts, h1, h2⟩
                rw [reads_bs] at h1
                obtain ⟨c, r', ts', h, rfl, h3⟩ := h1
                cases h
                rw [glob_lit_iff] at h2
                obtain ⟨_, h, h4⟩ := h2
                cases h
                exact ⟨ts', h3, h4⟩
            · rw [if_neg hd]
              constructor
              · intro h; simp at h
              · rintro ⟨ts, h1, h2⟩
                rw [reads_bs] at h1
                obtain ⟨c, r', ts', h, rfl, h3⟩ := h1
                cases h
                rw [glob_lit_iff] at h2
                obtain ⟨_, h, h4⟩ := h2
                cases h
                exact absurd rfl hd
      · by_cases hst : c = '*'
        · subst hst
          cases r with
          | nil =>
            have : isMatchLoop s ['*'] = true := by cases s <;> simp [isMatchLoop]
            rw [this]
            refine ⟨fun _ => ⟨[.any], .any .nil, ?_⟩, fun _ => rfl⟩
            have := Glob.any s Glob.nil
            simpa using this
          | cons d r =>
            have : isMatchLoop s ('*' :: d :: r) = if s.length = 0 then (d :: r).all (· == '*')
                else (List.range s.length).any fun o => isMatchLoop (s.drop o) (d :: r) := by
              cases s <;> simp [isMatchLoop]
            rw [this]
            by_cases hs : s.length = 0
            · rw [if_pos hs]
              have : s = [] := List.length_eq_zero_iff.mp hs
              subst this
              rw [glob_empty_iff]
              simp
            · rw [if_neg hs, List.any_eq_true]
              constructor
              · rintro ⟨o, ho, h⟩
                rw [List.mem_range] at ho
                rw [ih (d :: r) _ (by omega)] at h
                obtain ⟨ts, h1, h2⟩ := h
                exact ⟨.any :: ts, .any h1, glob_any_iff.mpr ⟨o, by omega, h2⟩⟩
              · rintro ⟨ts, h1, h2⟩
                rw [reads_star] at h1
                obtain ⟨ts', rfl, h1⟩ := h1
                rw [glob_any_iff] at h2
                obtain ⟨o, ho, h2⟩ := h2
                rcases Nat.lt_or_ge o s.length with h' | h'
                · refine ⟨o, List.mem_range.mpr h', ?_⟩
                  rw [ih (d :: r) _ (by omega)]
                  exact ⟨ts', h1, h2⟩
                · refine ⟨0, List.mem_range.mpr (by omega), ?_⟩
                  rw [ih (d :: r) _ (by omega)]
                  rw [List.drop_of_length_le h'] at h2
                  exact ⟨ts', h1, glob_all (reads_ne_nil (by simp) h1) h2 _⟩
        · cases s with
          | nil =>
            have : isMatchLoop [] (c :: r) = false := by
              rw [isMatchLoop.eq_def]
              split <;> simp_all
            rw [this]
            constructor
            · intro h; simp at h
            · rintro ⟨ts, h1, h2⟩
              rw [reads_lit hst hbs] at h1
              obtain ⟨ts', rfl, _⟩ := h1
              rw [glob_lit_iff] at h2
              obtain ⟨_, h, _⟩ := h2
              simp at h
          | cons x s =>
            have : isMatchLoop (x :: s) (c :: r) = if c = x then isMatchLoop s r else false := by
              rw [isMatchLoop.eq_def]
              split <;> simp_all
            rw [this]
            by_cases hd : c = x
            · subst hd
              rw [if_pos rfl, ih r s (by omega)]
              constructor
              · rintro ⟨ts, h1, h2⟩; exact ⟨.lit c :: ts, .lit hst hbs h1, .lit h2⟩
              · rintro ⟨ts, h1, h2⟩
                rw [reads_lit hst hbs] at h1
                obtain ⟨ts', rfl, h3⟩ := h1
                rw [glob_lit_iff] at h2
                obtain ⟨_, h, h4⟩ := h2
                cases h
                exact ⟨ts', h3, h4⟩
            · rw [if_neg hd]
              constructor
              · intro h; simp at h
              · rintro ⟨ts, h1, h2⟩
                rw [reads_lit hst hbs] at h1
                obtain ⟨ts', rfl, h3⟩ := h1
                rw [glob_lit_iff] at h2
                obtain ⟨_, h, h4⟩ := h2
                cases h
                exact absurd rfl hd

end Util
end Verif
