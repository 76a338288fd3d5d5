import Verif.Lemmas.FloatText
/-!
# Printing a floating-point number
-/
namespace Verif.Float
open Verif Verif.Spec SV

/-- The formats of the program and those of the specification. -/
inductive Same : Format → Binary → Prop
  | single : Same binary32 single
  | double : Same binary64 double

theorem Same.good {fmt : Format} {b : Binary} (h : Same fmt b) : Good fmt := by
  cases h
  · exact good32
  · exact good64

theorem Same.bits {fmt : Format} {b : Binary} (h : Same fmt b) :
    fmt.sigBits = b.fractionBits ∧ fmt.expBits = b.exponentBits := by
  cases h <;> exact ⟨rfl, rfl⟩

theorem toBits_eq {fmt : Format} {b : Binary} (h : Same fmt b) (pattern : ℕ) :
    toBits fmt pattern = ⟨b.fraction pattern, b.biased pattern, b.negative pattern⟩ := by
  obtain ⟨h1, h2⟩ := h.bits
  unfold toBits Binary.fraction Binary.biased Binary.negative
  rw [h1, h2, Nat.testBit_eq_decide_div_mod_eq]

/-- The value of the bits. -/
theorem magnitude_eq {fmt : Format} {b : Binary} (h : Same fmt b) (pattern : ℕ) :
    (((toBits fmt pattern).significand + if (toBits fmt pattern).exponent = 0 then 0 else 2 ^ fmt.sigBits : ℕ) : ℚ) /
      2 ^ fmt.sigBits * 2 ^ binaryExponent fmt (toBits fmt pattern) = b.magnitude pattern := by
  have horig := h.good.origin
  obtain ⟨h1, h2⟩ := h.bits
  rw [toBits_eq h, Binary.magnitude]
  simp only [binaryExponent]
  rw [horig, h1, h2]
  by_cases he : b.biased pattern = 0
  · rw [if_pos he, if_pos he, if_pos he, Nat.add_zero]
    congr 2
    ring
  · rw [if_neg he, if_neg he, if_neg he]
    congr 1
    push_cast
    field_simp
    ring

theorem digits_error {D : ℕ} {E : ℤ} {v : ℚ} (hv : 0 ≤ v) (hD : D < 2 ^ 64)
    (h : |val ⟨D, E⟩ - v| ≤ 151 * 10 ^ E + relError * v) :
    |(D : ℚ) - v / 10 ^ E| ≤ if D < 10 ^ 19 then 447 else 697 := by
  have hE := ten_pow_pos E
  have hV : 0 ≤ v / 10 ^ E := by positivity
  obtain ⟨V, hVe⟩ : ∃ V, V = v / (10 : ℚ) ^ E := ⟨_, rfl⟩
  have hvV : v = V * 10 ^ E := by rw [hVe]; field_simp
  rw [← hVe] at hV ⊢
  unfold val at h
  rw [hvV, ← sub_mul, abs_mul, abs_of_pos hE, ← mul_assoc, ← add_mul] at h
  have h := le_of_mul_le_mul_right h hE
  have h' := abs_le.1 h
  unfold relError at h h'
  norm_num at h h'
  have hle : ∀ X : ℚ, (D : ℚ) ≤ X → |(D : ℚ) - V| ≤ 151 + 295 / 10 ^ 19 * ((X + 151) * (1 + 1 / 10 ^ 15)) := by
    intro X hX
    have : V ≤ (X + 151) * (1 + 1 / 10 ^ 15) := by
      norm_num
      nlinarith
    have h2 : (295 / 10 ^ 19 : ℚ) * V ≤ 295 / 10 ^ 19 * ((X + 151) * (1 + 1 / 10 ^ 15)) :=
      mul_le_mul_of_nonneg_left this (by norm_num)
    norm_num at h2 ⊢
    linarith
  split
  · rename_i hlt
    have := hle (10 ^ 19) (by exact_mod_cast hlt.le)
    norm_num at this ⊢
    linarith
  · have := hle (2 ^ 64) (by exact_mod_cast hD.le)
    norm_num at this ⊢
    linarith

/-- What is printed for a finite number that is not zero. -/
structure Printed (p : ℕ) (v : ℚ) (D : ℕ) (E : ℤ) (r j : ℕ) : Prop where
  large : cap ≤ D
  small : D < 2 ^ 64
  lo : -400 ≤ E
  hi : E ≤ 400
  error : |(D : ℚ) - v / 10 ^ E| ≤ if D < 10 ^ 19 then 447 else 697
  rounded : RoundedTo p D r j
  full : 10 ^ (p - 1) ≤ r
  half : 2 * distance (r * 10 ^ j) D ≤ 10 ^ j
  multiple : 10 ^ (Append.numDigits 8 D - p) ∣ r * 10 ^ j
  scale : Append.numDigits 8 D - p ≤ j
  same : D < 10 ^ p → r = D ∧ j = 0
  few : j ≤ 20

theorem digits_of_large {D : ℕ} (h1 : cap ≤ D) (h2 : D < 2 ^ 64) :
    (D < 10 ^ 19 ∧ Append.numDigits 8 D = 19) ∨ (10 ^ 19 ≤ D ∧ Append.numDigits 8 D = 20) := by
  have hcap := cap_eq
  rcases Nat.lt_or_ge D (10 ^ 19) with h | h
  · exact .inl ⟨h, numDigits_eq (n := 18) (by omega) h⟩
  · exact .inr ⟨h, numDigits_eq (n := 19) h (by omega)⟩

theorem appendFinite_all {fmt : Format} {b : Binary} (h : Same fmt b) {pattern p : ℕ} (hf : b.Finite pattern)
    (hz : ¬b.IsZero pattern) (hp : 1 ≤ p) (hp' : p ≤ 19) :
    ∃ D E r j, Printed p (b.magnitude pattern) D E r j ∧ ∀ w, Stores w → ∀ ss,
      appendFinite w fmt ss (toBits fmt pattern) p = some (appendFixed ss ⟨r, E + j, b.negative pattern⟩) := by
  have hb := toBits_eq h pattern
  obtain ⟨h1, h2⟩ := h.bits
  have hs : (toBits fmt pattern).significand < 2 ^ fmt.sigBits := Nat.mod_lt _ (Nat.pow_pos (by decide))
  have he : (toBits fmt pattern).exponent < 2 ^ fmt.expBits - 1 := by rw [hb, h2]; exact hf
  have hnz : (toBits fmt pattern).significand ≠ 0 ∨ (toBits fmt pattern).exponent ≠ 0 := by
    rw [hb]
    by_contra hc
    push Not at hc
    exact hz ⟨hc.2, hc.1⟩
  obtain ⟨x, f1, f2, f3⟩ := toFixed_all h.good hs he hnz
  obtain ⟨D, E⟩ := x
  rw [magnitude_eq h] at f3
  have hv : 0 ≤ b.magnitude pattern := by
    rw [← magnitude_eq h]; positivity
  have hsm := f2.small
  have hlo := f2.lo
  have hhi := f2.hi
  have hlg := f2.large
  dsimp only at hsm hlo hhi hlg f1 f3
  obtain ⟨r, j, s1, s2, s3, s4, s5, s6, s7, s8⟩ := setPrecision_spec (d := D) (e := E) (s := (toBits fmt pattern).sign) hp
    (by omega) (.inr hsm) (by omega) (by omega)
  have hfull : 10 ^ (p - 1) ≤ r := by
    rcases Nat.lt_or_ge D (10 ^ p) with hlt | hge
    · rw [(s3 hlt).1]
      have hcap := cap_eq
      have : 10 ^ (p - 1) ≤ 10 ^ 18 := Nat.pow_le_pow_right (by decide) (by omega)
      omega
    · exact s4 hge
  refine ⟨D, E, r, j, ⟨hlg, by omega, hlo, hhi, digits_error hv (by omega) f3, s2, hfull, s6, s7, s8, s3, s5⟩, ?_⟩
  intro w hw ss
  unfold appendFinite
  rw [f1 w hw]
  dsimp only
  rw [s1 w hw]
  rw [hb]
  rfl

/-- The distance from the exact value, in units of the last printed digit. -/
theorem Printed.accurate {p : ℕ} {v : ℚ} {D : ℕ} {E : ℤ} {r j : ℕ} (h : Printed p v D E r j) :
    |(r : ℚ) * 10 ^ (E + j) - v| ≤ (1 / 2 + 447 / 1000 * 10 ^ ((p : ℤ) - 16)) * 10 ^ (E + j) := by
  have hE := ten_pow_pos E
  obtain ⟨V, hV⟩ : ∃ V, V = v / (10 : ℚ) ^ E := ⟨_, rfl⟩
  have hvV : v = V * 10 ^ E := by rw [hV]; field_simp
  have herr := h.error
  rw [← hV] at herr
  rw [hvV, zpow_add₀ (by norm_num), zpow_natCast]
  have hj : (0 : ℚ) < 10 ^ j := by positivity
  have hhalf : |(r : ℚ) * 10 ^ j - D| ≤ 10 ^ j / 2 := by
    have := (Nat.cast_le (α := ℚ)).2 h.half
    push_cast [show distance = dist from rfl, dist_abs] at this
    linarith
  have key : |(D : ℚ) - V| ≤ 447 / 1000 * 10 ^ ((p : ℤ) - 16) * 10 ^ j := by
    have hpow : ∀ n : ℕ, Append.numDigits 8 D = n → (10 : ℚ) ^ ((n : ℤ) - 16) ≤ 10 ^ ((p : ℤ) - 16) * 10 ^ j := by
      intro n hn
      rw [← zpow_natCast, ← zpow_add₀ (by norm_num)]
      apply zpow_le_zpow_right₀ (by norm_num)
      have := h.scale
      omega
    rcases digits_of_large h.large h.small with ⟨h1, h2⟩ | ⟨h1, h2⟩
    · rw [if_pos h1] at herr
      have := hpow 19 h2
      norm_num at this
      nlinarith
    · rw [if_neg (by omega)] at herr
      have := hpow 20 h2
      norm_num at this
      nlinarith
  have e1 : (r : ℚ) * (10 ^ E * 10 ^ j) - V * 10 ^ E = ((r * 10 ^ j - D) + (D - V)) * 10 ^ E := by ring
  rw [e1, abs_mul, abs_of_pos hE]
  have := abs_add_le ((r : ℚ) * 10 ^ j - D) (D - V)
  have h2 : |(r : ℚ) * 10 ^ j - D + (D - V)| ≤ (1 / 2 + 447 / 1000 * 10 ^ ((p : ℤ) - 16)) * 10 ^ j := by linarith
  calc _ ≤ (1 / 2 + 447 / 1000 * 10 ^ ((p : ℤ) - 16)) * 10 ^ j * 10 ^ E := mul_le_mul_of_nonneg_right h2 hE.le
    _ = _ := by ring

/-- Decimal numbers of at most 16 digits are printed as they are. -/
theorem Printed.exact {p : ℕ} {v : ℚ} {D : ℕ} {E : ℤ} {r j : ℕ} (h : Printed p v D E r j) (hp' : p ≤ 16)
    {m : ℕ} {x : ℤ} (hm : m < 10 ^ p) (hv : v = m * 10 ^ x) : (r : ℚ) * 10 ^ (E + j) = v := by
  have hE := ten_pow_pos E
  have herr := h.error
  have hcap := cap_eq
  have hlg := h.large
  have hVe : v / (10 : ℚ) ^ E = m * 10 ^ (x - E) := by
    rw [hv, zpow_sub₀ (by norm_num), mul_div_assoc]
  rw [hVe] at herr
  have hmq : (m : ℚ) ≤ 10 ^ p - 1 := by
    have : m + 1 ≤ 10 ^ p := hm
    have := (Nat.cast_le (α := ℚ)).2 this
    push_cast at this
    linarith
  obtain ⟨N, hN⟩ : ∃ N, Append.numDigits 8 D = N := ⟨_, rfl⟩
  have hcase := digits_of_large h.large h.small
  rw [hN] at hcase
  have hNp : (N - p : ℕ) = (N : ℤ) - p := by omega
  -- numbers with a smaller exponent are too far away
  have hx : ((N - p : ℕ) : ℤ) ≤ x - E := by
    by_contra hlt
    have h1 : (10 : ℚ) ^ (x - E) ≤ 10 ^ ((N : ℤ) - p - 1) := zpow_le_zpow_right₀ (by norm_num) (by omega)
    have h2 : (m : ℚ) * 10 ^ (x - E) ≤ (10 ^ p - 1) * 10 ^ ((N : ℤ) - p - 1) :=
      mul_le_mul hmq h1 (zpow_pos (by norm_num) _).le (by
        have : (1 : ℚ) ≤ 10 ^ p := one_le_pow₀ (by norm_num)
        linarith)
    have h3 : ((10 : ℚ) ^ p - 1) * 10 ^ ((N : ℤ) - p - 1) = 10 ^ ((N : ℤ) - 1) - 10 ^ ((N : ℤ) - p - 1) := by
      rw [sub_mul, one_mul, ← zpow_natCast, ← zpow_add₀ (by norm_num)]
      congr 2
      ring
    have h4 : (10 : ℚ) ^ ((N : ℤ) - 17) ≤ 10 ^ ((N : ℤ) - p - 1) := zpow_le_zpow_right₀ (by norm_num) (by omega)
    rw [h3] at h2
    rcases hcase with ⟨c1, rfl⟩ | ⟨c1, rfl⟩
    · rw [if_pos c1] at herr
      have := (abs_le.1 herr).2
      have hD : (1844674407370955161 : ℚ) ≤ D := by exact_mod_cast (hcap ▸ hlg)
      norm_num at h2 h4
      linarith
    · rw [if_neg (by omega)] at herr
      have := (abs_le.1 herr).2
      have hD : ((10 ^ 19 : ℕ) : ℚ) ≤ D := Nat.cast_le.2 c1
      rw [show ((10 ^ 19 : ℕ) : ℚ) = 10000000000000000000 by norm_num] at hD
      norm_num at h2 h4
      linarith
  obtain ⟨i, hi⟩ : ∃ i : ℕ, x - E = (i : ℤ) := ⟨(x - E).toNat, by omega⟩
  rw [hi, zpow_natCast] at herr
  have hiN : N - p ≤ i := by omega
  -- both are multiples of the last digit
  have hnear := h.rounded.nearest m i hm
  obtain ⟨s, hs⟩ : 10 ^ (N - p) ∣ r * 10 ^ j := hN ▸ h.multiple
  obtain ⟨t, ht⟩ : 10 ^ (N - p) ∣ m * 10 ^ i := Dvd.dvd.mul_left (pow_dvd_pow 10 hiN) _
  have hdist : 2 * distance (m * 10 ^ i) D < 10 ^ (N - p) := by
    have h1 : ((distance (m * 10 ^ i) D : ℕ) : ℚ) = |(D : ℚ) - m * 10 ^ i| := by
      rw [abs_sub_comm, show distance = dist from rfl, dist_abs]; push_cast; rfl
    have h2 : (10 : ℚ) ^ (N - 16) ≤ 10 ^ (N - p) := pow_le_pow_right₀ (by norm_num) (by omega)
    have : (2 : ℚ) * (distance (m * 10 ^ i) D : ℕ) < 10 ^ (N - p) := by
      rw [h1]
      rcases hcase with ⟨c1, rfl⟩ | ⟨c1, rfl⟩
      · rw [if_pos c1] at herr
        norm_num at h2
        linarith
      · rw [if_neg (by omega)] at herr
        norm_num at h2
        linarith
    exact_mod_cast this
  have heq : r * 10 ^ j = m * 10 ^ i := by
    have c1 := distance_cases (r * 10 ^ j) D
    have c2 := distance_cases (m * 10 ^ i) D
    rw [hs] at c1 hnear ⊢
    rw [ht] at c2 hdist hnear ⊢
    rcases Nat.lt_trichotomy s t with hst | hst | hst
    · have := Nat.mul_le_mul_left (10 ^ (N - p)) hst
      rw [Nat.mul_succ] at this
      omega
    · rw [hst]
    · have := Nat.mul_le_mul_left (10 ^ (N - p)) hst
      rw [Nat.mul_succ] at this
      omega
  have hq : (r : ℚ) * 10 ^ j = m * 10 ^ i := by exact_mod_cast heq
  rw [hv, zpow_add₀ (by norm_num), show x = E + i by omega, zpow_add₀ (by norm_num), zpow_natCast, zpow_natCast]
  calc (r : ℚ) * (10 ^ E * 10 ^ j) = (r * 10 ^ j) * 10 ^ E := by ring
    _ = _ := by rw [hq]; ring

end Verif.Float
