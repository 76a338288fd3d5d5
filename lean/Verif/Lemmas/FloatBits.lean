import Verif.Model.FloatBits
import Verif.Lemmas.FloatPrint
/-!
# Both ways of taking a floating-point number apart
-/
namespace Verif.Float
open Verif Verif.Spec

theorem two_pow_pos (e : ℤ) : (0 : ℚ) < 2 ^ e := by positivity

theorem two_pow_mul (q : ℤ) (j : ℕ) : (2 : ℚ) ^ q * 2 ^ j = 2 ^ (q + j) := by
  rw [zpow_add₀ (by norm_num), zpow_natCast]

/-- A normal number. -/
theorem represented_normal {b : Binary} (n : ℕ) (hn : n < 2 ^ (b.fractionBits + 1))
    (hn' : 2 ^ b.fractionBits ≤ n) (k : ℕ) (hk : k + 2 < 2 ^ b.exponentBits) :
    ∃ p, b.Finite p ∧
      b.magnitude p = n * 2 ^ ((k : ℤ) + 2 - 2 ^ (b.exponentBits - 1) - b.fractionBits) := by
  have hpos : 0 < 2 ^ b.fractionBits := Nat.pow_pos (by decide)
  have hlt : n - 2 ^ b.fractionBits < 2 ^ b.fractionBits := by rw [Nat.pow_succ] at hn; omega
  have hb : b.biased ((n - 2 ^ b.fractionBits) + 2 ^ b.fractionBits * (k + 1)) = k + 1 := by
    unfold Binary.biased
    rw [Nat.add_mul_div_left _ _ hpos, Nat.div_eq_of_lt hlt, Nat.zero_add, Nat.mod_eq_of_lt (by omega)]
  have hf : b.fraction ((n - 2 ^ b.fractionBits) + 2 ^ b.fractionBits * (k + 1)) = n - 2 ^ b.fractionBits := by
    unfold Binary.fraction
    rw [Nat.add_mul_mod_self_left, Nat.mod_eq_of_lt hlt]
  refine ⟨(n - 2 ^ b.fractionBits) + 2 ^ b.fractionBits * (k + 1), ?_, ?_⟩
  · unfold Binary.Finite
    rw [hb]; omega
  · unfold Binary.magnitude
    rw [hb, hf]
    dsimp only
    rw [if_neg (by omega)]
    have h2 : ((k : ℤ) + 2 - 2 ^ (b.exponentBits - 1) - b.fractionBits) =
        ((k + 1 : ℕ) : ℤ) - (2 ^ (b.exponentBits - 1) - 1) - b.fractionBits := by push_cast; ring
    rw [h2, zpow_sub₀ (by norm_num) _ (b.fractionBits : ℤ), zpow_natCast, Nat.cast_sub hn']
    push_cast
    have : (2 : ℚ) ^ b.fractionBits ≠ 0 := by positivity
    field_simp
    ring

/-- Numbers that can be represented. -/
theorem represented {b : Binary} : ∀ (k n : ℕ), n < 2 ^ (b.fractionBits + 1) →
    k + 2 < 2 ^ b.exponentBits →
    ∃ p, b.Finite p ∧
      b.magnitude p = n * 2 ^ ((k : ℤ) + 2 - 2 ^ (b.exponentBits - 1) - b.fractionBits) := by
  intro k
  induction k with
  | zero =>
    intro n hn hk
    by_cases h : n < 2 ^ b.fractionBits
    · refine ⟨n, ?_, ?_⟩
      · unfold Binary.Finite Binary.biased
        rw [Nat.div_eq_of_lt h, Nat.zero_mod]; omega
      · unfold Binary.magnitude Binary.biased Binary.fraction
        rw [Nat.div_eq_of_lt h, Nat.zero_mod, Nat.mod_eq_of_lt h]
        dsimp only
        rw [if_pos rfl]
        have h2 : (((0 : ℕ) : ℤ) + 2 - 2 ^ (b.exponentBits - 1) - b.fractionBits) =
          (1 - (2 ^ (b.exponentBits - 1) - 1)) - b.fractionBits := by push_cast; ring
        rw [h2, zpow_sub₀ (by norm_num) _ (b.fractionBits : ℤ), zpow_natCast]
        ring
    · exact represented_normal n hn (by omega) 0 hk
  | succ k ih =>
    intro n hn hk
    by_cases h : n < 2 ^ b.fractionBits
    · obtain ⟨p, hp, hm⟩ := ih (2 * n) (by rw [Nat.pow_succ]; omega) (by omega)
      refine ⟨p, hp, hm.trans ?_⟩
      have h2 : (((k + 1 : ℕ) : ℤ) + 2 - 2 ^ (b.exponentBits - 1) - b.fractionBits) =
          ((k : ℤ) + 2 - 2 ^ (b.exponentBits - 1) - b.fractionBits) + 1 := by push_cast; ring
      rw [h2, zpow_add₀ (by norm_num)]
      push_cast
      ring
    · exact represented_normal n hn (by omega) _ hk

theorem halveLoop_eq {rnd : ℚ → ℚ} {values : ℕ} {m : ℚ} (h1 : 1 ≤ m) (h2 : m < 2) : ∀ (k n e : ℕ), k < n →
    e + k < values → (∀ j < k, rnd (m * 2 ^ j) = m * 2 ^ j) →
    halveLoop rnd values n (m * 2 ^ k) e = some (m, e + k) := by
  intro k
  induction k with
  | zero =>
    intro n e hn he _
    obtain ⟨n, rfl⟩ : ∃ i, n = i + 1 := ⟨n - 1, by omega⟩
    rw [halveLoop, if_neg (by simpa using h2)]
    simp
  | succ k ih =>
    intro n e hn he hr
    obtain ⟨n, rfl⟩ : ∃ i, n = i + 1 := ⟨n - 1, by omega⟩
    have hk : (1 : ℚ) ≤ 2 ^ k := one_le_pow₀ (by norm_num)
    rw [halveLoop, if_pos (by rw [pow_succ]; nlinarith), show m * 2 ^ (k + 1) / 2 = m * 2 ^ k by ring,
      hr k (by omega), Nat.mod_eq_of_lt (by omega), ih _ _ (by omega) (by omega) (fun j hj => hr j (by omega))]
    congr 2; omega

theorem doubleLoop_eq {rnd : ℚ → ℚ} {values : ℕ} : ∀ (k n e : ℕ) (f : ℚ), 0 < k → k ≤ n → k ≤ e → e < values →
    (∀ j, 0 < j → j < k → f * 2 ^ j < 1) → (1 ≤ f * 2 ^ k ∨ e = k) →
    (∀ j, 0 < j → j ≤ k → rnd (f * 2 ^ j) = f * 2 ^ j) →
    doubleLoop rnd values n f e = some (f * 2 ^ k, e - k) := by
  intro k
  induction k with
  | zero => intro n e f h; omega
  | succ k ih =>
    intro n e f _ hn hke he hlt hend hr
    obtain ⟨n, rfl⟩ : ∃ i, n = i + 1 := ⟨n - 1, by omega⟩
    have h1 := hr 1 (by omega) (by omega)
    rw [pow_one] at h1
    rw [doubleLoop, h1]
    have hmod : (e + values - 1) % values = e - 1 := by
      rw [show e + values - 1 = (e - 1) + values by omega, Nat.add_mod_right, Nat.mod_eq_of_lt (by omega)]
    rw [hmod]
    rcases Nat.eq_zero_or_pos k with rfl | hk
    · rw [if_neg]
      · simp
      · rintro ⟨a, b⟩
        rcases hend with h | h
        · simp at h; linarith
        · omega
    · have := hlt 1 (by omega) (by omega)
      rw [pow_one] at this
      have hs : ∀ j : ℕ, f * 2 * 2 ^ j = f * 2 ^ (j + 1) := fun j => by ring
      rw [if_pos ⟨this, by omega⟩, ih n (e - 1) (f * 2) hk (by omega) (by omega) (by omega)
        (fun j h1 h2 => by rw [hs]; exact hlt _ (by omega) (by omega))
        (by rw [hs]; rcases hend with h | h
            · exact .inl h
            · exact .inr (by omega))
        (fun j h1 h2 => by rw [hs]; exact hr _ (by omega) (by omega)), hs]
      congr 2; omega

/-- The numbers in the program. -/
theorem Same.numbers {fmt : Format} {b : Binary} (h : Same fmt b) : 2 ≤ b.exponentBits ∧ 1 ≤ b.fractionBits ∧
    fmt.origin.natAbs = 2 ^ (b.exponentBits - 1) - 1 ∧ 2 ^ b.exponentBits ≤ exponentValues fmt ∧
    2 ^ (b.exponentBits - 1) < 3000 ∧ b.fractionBits + 2 < 2 ^ (b.exponentBits - 1) ∧
    2 ^ b.exponentBits = 2 * 2 ^ (b.exponentBits - 1) := by
  cases h <;> decide

theorem _root_.Verif.Spec.Exact.eq {b : Binary} {rnd : ℚ → ℚ} (h : Exact b rnd) (hE : 2 ≤ b.exponentBits) {n : ℕ} {q : ℤ} {v : ℚ}
    (hv : v = n * 2 ^ q) (hn : n < 2 ^ (b.fractionBits + 1)) (h1 : 2 - 2 ^ (b.exponentBits - 1) - b.fractionBits ≤ q)
    (h2 : q < 2 ^ (b.exponentBits - 1) - b.fractionBits) : rnd v = v := by
  obtain ⟨k, hk⟩ : ∃ k : ℕ, q = (k : ℤ) + 2 - 2 ^ (b.exponentBits - 1) - b.fractionBits :=
    ⟨(q - (2 - 2 ^ (b.exponentBits - 1) - b.fractionBits)).toNat, by omega⟩
  have hpow : (2 : ℕ) ^ b.exponentBits = 2 * 2 ^ (b.exponentBits - 1) := by
    rw [← Nat.pow_succ']; congr 1; omega
  have hc : (((2 : ℕ) ^ (b.exponentBits - 1) : ℕ) : ℤ) = 2 ^ (b.exponentBits - 1) := by push_cast; rfl
  obtain ⟨p, hp, hm⟩ := represented k n hn (by omega)
  rw [hv, hk, ← hm]
  exact h p hp

theorem toSigBits_eq {fmt : Format} {n : ℕ} (h : n < 2 ^ (fmt.sigBits + fmt.expBits + 1)) :
    toSigBits fmt (n : ℚ) = .ok (n % 2 ^ fmt.sigBits) := by
  unfold toSigBits
  rw [if_pos ⟨by positivity, by exact_mod_cast h⟩]
  have : (n : ℚ).floor = (n : ℤ) := by
    have := Rat.floor_intCast (n : ℤ)
    simpa using this
  rw [this, Int.toNat_natCast]

theorem scaled_eq {fmt : Format} {b : Binary} (h : Same fmt b) {rnd : ℚ → ℚ} (hr : Exact b rnd) {n e : ℕ} {f : ℚ}
    (hn : n < 2 ^ (b.fractionBits + 1)) (hf : f * 2 ^ (if e = 0 then b.fractionBits - 1 else b.fractionBits) = n) :
    toSigBits fmt (scaled rnd fmt f e) = .ok (n % 2 ^ b.fractionBits) := by
  obtain ⟨h1, h2⟩ := h.bits
  obtain ⟨n1, n2, n3, n4, n5, n6, n7⟩ := h.numbers
  have hsc : scaled rnd fmt f e = n := by
    have hc : (((2 : ℕ) ^ (b.exponentBits - 1) : ℕ) : ℤ) = 2 ^ (b.exponentBits - 1) := by push_cast; rfl
    have := hr.eq n1 (n := n) (q := 0) (v := n) (by simp) hn (by omega) (by omega)
    unfold scaled
    rw [h1]
    split at hf <;> rename_i he
    · rw [if_pos he, hf, this]
    · rw [if_neg he, hf, this]
  have hle : 2 ^ (b.fractionBits + 1) ≤ 2 ^ (fmt.sigBits + fmt.expBits + 1) :=
    Nat.pow_le_pow_right (by decide) (by omega)
  rw [hsc, toSigBits_eq (by omega), h1]

/-- The absolute value of a finite number is taken apart into its bits. -/
theorem normalise_eq {fmt : Format} {b : Binary} (h : Same fmt b) {rnd : ℚ → ℚ} (hr : Exact b rnd) {pattern : ℕ}
    (hf : b.Finite pattern) :
    ∃ f, normalise rnd fmt (b.magnitude pattern) = some (f, b.biased pattern) ∧
      toSigBits fmt (scaled rnd fmt f (b.biased pattern)) = .ok (b.fraction pattern) := by
  obtain ⟨n1, n2, n3, n4, n5, n6, n7⟩ := h.numbers
  have hs : b.fraction pattern < 2 ^ b.fractionBits := Nat.mod_lt _ (Nat.pow_pos (by decide))
  have hc : (((2 : ℕ) ^ (b.exponentBits - 1) : ℕ) : ℤ) = 2 ^ (b.exponentBits - 1) := by push_cast; rfl
  have hP : (0 : ℚ) < 2 ^ b.fractionBits := by positivity
  have hsq : (b.fraction pattern : ℚ) < 2 ^ b.fractionBits := by exact_mod_cast hs
  unfold Binary.Finite at hf
  generalize hx : b.biased pattern = x at *
  generalize hsx : b.fraction pattern = s at *
  generalize hB : (2 : ℕ) ^ (b.exponentBits - 1) = B at *
  have hv : b.magnitude pattern = if x = 0 then (s : ℚ) / 2 ^ b.fractionBits * 2 ^ (2 - (B : ℤ))
      else (1 + (s : ℚ) / 2 ^ b.fractionBits) * 2 ^ ((x : ℤ) + 1 - B) := by
    unfold Binary.magnitude
    rw [hx, hsx, hc]
    dsimp only
    split
    · congr 2; ring
    · congr 2; ring
  rw [hv]
  unfold normalise
  rw [n3]
  dsimp only
  rw [Nat.mod_eq_of_lt (show B - 1 < exponentValues fmt by omega)]
  by_cases h0 : x = 0
  · subst h0
    rw [if_pos rfl]
    have hm : (s : ℚ) / 2 ^ b.fractionBits < 1 := by rw [div_lt_one hP]; exact hsq
    have hm0 : (0 : ℚ) ≤ (s : ℚ) / 2 ^ b.fractionBits := by positivity
    have hpow : ∀ j : ℕ, (s : ℚ) / 2 ^ b.fractionBits * 2 ^ (2 - (B : ℤ)) * 2 ^ j =
        s * 2 ^ ((j : ℤ) + 2 - B - b.fractionBits) := by
      intro j
      rw [show ((j : ℤ) + 2 - B - b.fractionBits) = (2 - (B : ℤ)) + j - b.fractionBits by ring,
        zpow_sub₀ (by norm_num) _ (b.fractionBits : ℤ), ← two_pow_mul, zpow_natCast]
      ring
    have hsmall : ∀ j : ℕ, j < B - 1 → (s : ℚ) / 2 ^ b.fractionBits * 2 ^ (2 - (B : ℤ)) * 2 ^ j < 1 := by
      intro j hj
      rw [mul_assoc, two_pow_mul]
      have h1 : (2 : ℚ) ^ (2 - (B : ℤ) + j) ≤ 1 := zpow_le_one_of_nonpos₀ (by norm_num) (by omega)
      have h2 := two_pow_pos (2 - (B : ℤ) + j)
      nlinarith
    have hlt := hsmall 0 (by omega)
    rw [pow_zero, mul_one] at hlt
    rw [if_neg (by linarith), if_pos hlt, doubleLoop_eq (B - 1) 3000 (B - 1) _ (by omega) (by omega) (by omega)
      (by omega) (fun j _ hj => hsmall j hj) (.inr rfl)
      (fun j hj hj' => hr.eq n1 (hpow j) (by rw [Nat.pow_succ]; omega) (by omega) (by omega))]
    refine ⟨_, by rw [Nat.sub_self], ?_⟩
    rw [scaled_eq h hr (n := s) (by rw [Nat.pow_succ]; omega), Nat.mod_eq_of_lt hs]
    rw [if_pos rfl, hpow, mul_assoc, two_pow_mul]
    rw [show (((B - 1 : ℕ) : ℤ) + 2 - B - b.fractionBits + ((b.fractionBits - 1 : ℕ) : ℤ)) = 0 by omega]
    simp
  · rw [if_neg h0]
    have hm : 1 + (s : ℚ) / 2 ^ b.fractionBits < 2 := by
      have : (s : ℚ) / 2 ^ b.fractionBits < 1 := by rw [div_lt_one hP]; exact hsq
      linarith
    have hm0 : (1 : ℚ) ≤ 1 + (s : ℚ) / 2 ^ b.fractionBits := by
      have : (0 : ℚ) ≤ (s : ℚ) / 2 ^ b.fractionBits := by positivity
      linarith
    have hval : ∀ q : ℤ, (1 + (s : ℚ) / 2 ^ b.fractionBits) * 2 ^ q =
        ((2 ^ b.fractionBits + s : ℕ) : ℚ) * 2 ^ (q - b.fractionBits) := by
      intro q
      rw [zpow_sub₀ (by norm_num), zpow_natCast]
      push_cast
      field_simp
    have hbits : toSigBits fmt (scaled rnd fmt (1 + (s : ℚ) / 2 ^ b.fractionBits) x) = .ok s := by
      rw [scaled_eq h hr (n := 2 ^ b.fractionBits + s) (by rw [Nat.pow_succ]; omega), Nat.add_mod_left,
        Nat.mod_eq_of_lt hs]
      rw [if_neg h0]
      push_cast
      field_simp
    rcases Nat.lt_trichotomy (x + 1) B with hlt | heq | hgt
    · -- less than 1
      have hsm : ∀ j : ℕ, j < B - 1 - x → (1 + (s : ℚ) / 2 ^ b.fractionBits) * 2 ^ ((x : ℤ) + 1 - B) * 2 ^ j < 1 := by
        intro j hj
        rw [mul_assoc, two_pow_mul]
        have h1 : (2 : ℚ) ^ ((x : ℤ) + 1 - B + j) ≤ 2 ^ (-1 : ℤ) := zpow_le_zpow_right₀ (by norm_num) (by omega)
        have h2 := two_pow_pos ((x : ℤ) + 1 - B + j)
        have h3 : (2 : ℚ) ^ (-1 : ℤ) = 1 / 2 := by norm_num
        rw [h3] at h1
        nlinarith
      have hl := hsm 0 (by omega)
      rw [pow_zero, mul_one] at hl
      have hend : (1 + (s : ℚ) / 2 ^ b.fractionBits) * 2 ^ ((x : ℤ) + 1 - B) * 2 ^ (B - 1 - x) =
          1 + (s : ℚ) / 2 ^ b.fractionBits := by
        rw [mul_assoc, two_pow_mul,
          show ((x : ℤ) + 1 - B + ((B - 1 - x : ℕ) : ℤ)) = 0 by omega]
        simp
      refine ⟨_, ?_, hbits⟩
      rw [if_neg (by linarith), if_pos hl, doubleLoop_eq (B - 1 - x) 3000 (B - 1) _ (by omega) (by omega) (by omega)
        (by omega) (fun j _ hj => hsm j hj) (.inl (by rw [hend]; exact hm0)) ?_, hend]
      · congr 2; omega
      · intro j _ hj'
        rw [mul_assoc, two_pow_mul]
        exact hr.eq n1 (hval _) (by rw [Nat.pow_succ]; omega) (by omega) (by omega)
    · -- between 1 and 2
      refine ⟨_, ?_, hbits⟩
      rw [show ((x : ℤ) + 1 - B) = 0 by omega, zpow_zero, mul_one, if_neg (by linarith), if_neg (by linarith)]
      congr 2; omega
    · -- 2 or more
      obtain ⟨k, hk⟩ : ∃ k, x + 1 = B + (k + 1) := ⟨x - B, by omega⟩
      refine ⟨_, ?_, hbits⟩
      rw [show ((x : ℤ) + 1 - B) = ((k + 1 : ℕ) : ℤ) by omega, zpow_natCast, if_pos, halveLoop_eq hm0 hm (k + 1) 3000
        (B - 1) (by omega) (by omega)]
      · congr 2; omega
      · intro j hj
        have hq := hval (j : ℤ)
        rw [zpow_natCast] at hq
        exact hr.eq n1 hq (by rw [Nat.pow_succ]; omega) (by omega) (by omega)
      · have hk1 : (1 : ℚ) ≤ 2 ^ k := one_le_pow₀ (by norm_num)
        rw [pow_succ]; nlinarith

theorem magnitude_zero {b : Binary} {pattern : ℕ} : b.magnitude pattern = 0 ↔ b.IsZero pattern := by
  unfold Binary.IsZero Binary.magnitude
  have hP : (0 : ℚ) < 2 ^ b.fractionBits := by positivity
  have h1 : (0 : ℚ) ≤ (b.fraction pattern : ℚ) / 2 ^ b.fractionBits := by positivity
  dsimp only
  split <;> rename_i h
  · rw [mul_eq_zero, div_eq_zero_iff]
    have := (two_pow_pos (1 - (2 ^ (b.exponentBits - 1) - 1))).ne'
    simp [h, this, hP.ne']
  · have := two_pow_pos (((b.biased pattern : ℕ) : ℤ) - (2 ^ (b.exponentBits - 1) - 1))
    constructor
    · intro h2
      have : 0 < (1 + (b.fraction pattern : ℚ) / 2 ^ b.fractionBits) *
        2 ^ (((b.biased pattern : ℕ) : ℤ) - (2 ^ (b.exponentBits - 1) - 1)) := by positivity
      linarith
    · rintro ⟨h2, _⟩; exact absurd h2 h

theorem magnitude_nonneg (b : Binary) (pattern : ℕ) : 0 ≤ b.magnitude pattern := by
  unfold Binary.magnitude
  dsimp only
  split <;> positivity

end Verif.Float
