import Verif.Lemmas.FloatFixed
import Verif.Lemmas.Numeral
/-!
# Rounding to a number of digits
-/
namespace Verif.Float
open Verif Verif.Spec

theorem numDigits_upper (d : ℕ) : d < 10 ^ Append.numDigits 8 d := by
  induction d using Nat.strongRecOn with
  | ind d ih =>
    rw [Append.numDigits]
    split
    · have h := ih (d / 10) (by omega)
      rw [Nat.pow_add, Nat.pow_one]
      change d < 10 * 10 ^ Append.numDigits 8 (d / 10)
      omega
    · omega

theorem numDigits_lower (d : ℕ) (h : 0 < d) : 10 ^ Append.numDigits 8 d ≤ 10 * d := by
  induction d using Nat.strongRecOn with
  | ind d ih =>
    rw [Append.numDigits]
    split
    · have h := ih (d / 10) (by omega) (by omega)
      rw [Nat.pow_add, Nat.pow_one]
      change 10 * 10 ^ Append.numDigits 8 (d / 10) ≤ _
      omega
    · omega

theorem numDigits_eq {d n : ℕ} (h1 : 10 ^ n ≤ d) (h2 : d < 10 ^ (n + 1)) : Append.numDigits 8 d = n + 1 := by
  have hp : 0 < 10 ^ n := Nat.pow_pos (by decide)
  have l := numDigits_lower d (by omega)
  have u := numDigits_upper d
  generalize Append.numDigits 8 d = m at *
  rcases Nat.lt_trichotomy m (n + 1) with h | h | h
  · have : 10 ^ m ≤ 10 ^ n := Nat.pow_le_pow_right (by decide) (by omega)
    omega
  · exact h
  · have : 10 ^ (n + 2) ≤ 10 ^ m := Nat.pow_le_pow_right (by decide) (by omega)
    rw [Nat.pow_succ] at this
    omega

/-- `d / 10 ^ k`, rounded to the nearest, ties to even. -/
def roundEven (d : ℕ) (k : ℕ) : ℕ :=
  let q := d / 10 ^ k
  let r := d % 10 ^ k
  if 2 * r < 10 ^ k then q else if 10 ^ k < 2 * r then q + 1 else q + q % 2

/-- One digit is removed, with rounding. -/
theorem roundHalfToEven_spec {w : ℕ → ℕ} (hw : Stores w) (d k : ℕ) (h : d / 10 ^ k + 5 < 2 ^ 64) :
    roundHalfToEven w (d / 10 ^ k) (decide (d % 10 ^ k = 0)) = roundEven d (k + 1) := by
  unfold roundHalfToEven roundEven
  rw [hw _ h]
  have hk : 0 < 10 ^ k := Nat.pow_pos (by decide)
  have e1 : d / 10 ^ (k + 1) = d / 10 ^ k / 10 := by rw [Nat.pow_succ, Nat.div_div_eq_div_mul]
  have e2 : d % 10 ^ (k + 1) = d % 10 ^ k + 10 ^ k * (d / 10 ^ k % 10) := Nat.mod_pow_succ
  have e3 := Nat.mod_lt d hk
  dsimp only
  rw [e1, e2, Nat.pow_succ]
  generalize d / 10 ^ k = x at *
  generalize d % 10 ^ k = z at *
  have hx : x % 10 < 10 := Nat.mod_lt _ (by decide)
  generalize 10 ^ k = t at *
  have hm : ∀ n, x % 10 = n → t * (x % 10) = n * t := by intro n hn; rw [hn, Nat.mul_comm]
  simp only [decide_eq_true_eq]
  unfold sub64
  have hcases : x % 10 = 0 ∨ x % 10 = 1 ∨ x % 10 = 2 ∨ x % 10 = 3 ∨ x % 10 = 4 ∨ x % 10 = 5 ∨ x % 10 = 6 ∨
    x % 10 = 7 ∨ x % 10 = 8 ∨ x % 10 = 9 := by omega
  rcases hcases with hc | hc | hc | hc | hc | hc | hc | hc | hc | hc <;> rw [hm _ hc, hc]
  · rw [if_neg (by omega), if_pos (by omega)]; omega
  · rw [if_neg (by omega), if_pos (by omega)]; omega
  · rw [if_neg (by omega), if_pos (by omega)]; omega
  · rw [if_neg (by omega), if_pos (by omega)]; omega
  · rw [if_neg (by omega), if_pos (by omega)]; omega
  · by_cases hz : z = 0
    · rw [if_pos ⟨hz, rfl⟩, if_neg (by omega), if_neg (by omega)]; omega
    · rw [if_neg (fun h => hz h.1), if_neg (by omega), if_pos (by omega)]; omega
  · rw [if_neg (by omega), if_neg (by omega), if_pos (by omega)]; omega
  · rw [if_neg (by omega), if_neg (by omega), if_pos (by omega)]; omega
  · rw [if_neg (by omega), if_neg (by omega), if_pos (by omega)]; omega
  · rw [if_neg (by omega), if_neg (by omega), if_pos (by omega)]; omega

theorem roundEven_distance (d k : ℕ) :
    2 * distance (roundEven d k * 10 ^ k) d ≤ 10 ^ k ∧
    (2 * distance (roundEven d k * 10 ^ k) d = 10 ^ k → roundEven d k % 2 = 0) := by
  unfold roundEven distance
  dsimp only
  have h1 := Nat.div_add_mod d (10 ^ k)
  have h2 := Nat.mod_lt d (Nat.pow_pos (n := k) (show 0 < 10 by decide))
  generalize 10 ^ k = t at *
  generalize d / t = q at *
  generalize d % t = r at *
  rw [Nat.mul_comm] at h1
  have hq : (q + 1) * t = q * t + t := by rw [Nat.add_mul, Nat.one_mul]
  split
  · omega
  · split
    · rw [hq]; omega
    · rcases Nat.mod_two_eq_zero_or_one q with h | h <;> rw [h]
      · rw [Nat.add_zero]; omega
      · rw [hq]; omega

/-- The loop while more than one digit is to be removed. -/
theorem precisionLoop_drop {w : ℕ → ℕ} (p d n : ℕ) (e : ℤ) (s : Bool) : ∀ m j : ℕ,
    -2 ^ 31 ≤ e → e + j + m < 2 ^ 31 →
    precisionLoop w p (n + m) ⟨d / 10 ^ j, e + j, s⟩ (p + 1 + m) (decide (d % 10 ^ j = 0)) =
      precisionLoop w p n ⟨d / 10 ^ (j + m), e + j + m, s⟩ (p + 1) (decide (d % 10 ^ (j + m) = 0)) := by
  intro m
  induction m with
  | zero => intro j _ _; simp
  | succ m ih =>
    intro j he he'
    have hi : int32 (e + j + 1) = .ok (e + j + 1) := int32_ok (by omega) (by omega)
    have hj : 0 < 10 ^ j := Nat.pow_pos (by decide)
    have e2 : d % 10 ^ (j + 1) = d % 10 ^ j + 10 ^ j * (d / 10 ^ j % 10) := Nat.mod_pow_succ
    have := ih (j + 1) he (by push_cast; omega)
    have a1 : e + ((j + 1 : ℕ) : ℤ) = e + j + 1 := by push_cast; ring
    have a2 : e + ((j + 1 : ℕ) : ℤ) + m = e + j + ((m + 1 : ℕ) : ℤ) := by push_cast; ring
    have a3 : j + 1 + m = j + (m + 1) := by omega
    rw [a2, a3, a1] at this
    rw [← this, ← Nat.add_assoc n, ← Nat.add_assoc (p + 1), precisionLoop, if_pos (by omega)]
    dsimp only
    rw [hi, if_pos (by omega), if_pos (by omega)]
    dsimp only
    rw [Nat.pow_succ 10 j, Nat.div_div_eq_div_mul, ← Nat.pow_succ, Nat.add_sub_cancel]
    congr 1
    by_cases hc : d / 10 ^ j % 10 = 0
    · rw [if_neg (by omega), e2, hc, Nat.mul_zero, Nat.add_zero]
    · rw [if_pos ⟨by omega, by omega⟩, e2]
      symm
      apply decide_eq_false
      have : 0 < 10 ^ j * (d / 10 ^ j % 10) := Nat.mul_pos hj (by omega)
      omega

/-- The round in which the last digit is removed. -/
theorem precisionLoop_round {w : ℕ → ℕ} (p x n : ℕ) (e : ℤ) (s z : Bool) (h1 : -2 ^ 31 ≤ e) (h2 : e + 1 < 2 ^ 31) :
    precisionLoop w p (n + 1) ⟨x, e, s⟩ (p + 1) z =
      precisionLoop w p n ⟨roundHalfToEven w x z, e + 1, s⟩ (Append.numDigits 8 (roundHalfToEven w x z)) z := by
  rw [precisionLoop, if_pos (by omega)]
  dsimp only
  rw [int32_ok (by omega) (by omega), if_neg (by omega), if_neg (by omega), if_neg (by omega)]

theorem distance_cases (a b : ℕ) : distance a b = a - b ∧ b ≤ a ∨ distance a b = b - a ∧ a ≤ b := by
  unfold distance; omega

/-- The multiple of `10 ^ k` that is nearest, ties to even, is the nearest number of `p` digits. -/
theorem roundedTo_of {p d k r j : ℕ} (hp : 1 ≤ p) (hl : 10 ^ (p + k) ≤ 10 * d) (hu : d < 10 ^ (p + k))
    (hr : r < 10 ^ p) (hv : r * 10 ^ j = roundEven d k * 10 ^ k) : RoundedTo p d r j := by
  obtain ⟨h1, h2⟩ := roundEven_distance d k
  have hk : 0 < 10 ^ k := Nat.pow_pos (by decide)
  have hfar : ∀ t, t ≠ roundEven d k →
      10 ^ k ≤ distance (t * 10 ^ k) d + distance (roundEven d k * 10 ^ k) d := by
    intro t ht
    rcases Nat.lt_or_gt_of_ne ht with h | h
    · have : (t + 1) * 10 ^ k ≤ roundEven d k * 10 ^ k := Nat.mul_le_mul_right _ h
      rw [Nat.add_mul, Nat.one_mul] at this
      have := distance_cases (t * 10 ^ k) d
      have := distance_cases (roundEven d k * 10 ^ k) d
      omega
    · have : (roundEven d k + 1) * 10 ^ k ≤ t * 10 ^ k := Nat.mul_le_mul_right _ h
      rw [Nat.add_mul, Nat.one_mul] at this
      have := distance_cases (t * 10 ^ k) d
      have := distance_cases (roundEven d k * 10 ^ k) d
      omega
  have hlow : ∀ s i, s < 10 ^ p → i < k →
      distance (roundEven d k * 10 ^ k) d < distance (s * 10 ^ i) d := by
    intro s i hs hi
    obtain ⟨k, rfl⟩ : ∃ k', k = k' + 1 := ⟨k - 1, by omega⟩
    obtain ⟨p, rfl⟩ : ∃ p', p = p' + 1 := ⟨p - 1, by omega⟩
    have b1 : 10 ^ p * 10 ^ (k + 1) ≤ d := by
      rw [show p + 1 + (k + 1) = p + (k + 1) + 1 by omega, Nat.pow_succ, Nat.pow_add 10 p] at hl
      omega
    have b2 : s * 10 ^ i < 10 ^ p * 10 ^ (k + 1) := by
      have : s * 10 ^ i ≤ s * 10 ^ k := Nat.mul_le_mul_left _ (Nat.pow_le_pow_right (by decide) (by omega))
      have h' : s * 10 ^ k < 10 ^ (p + 1) * 10 ^ k := Nat.mul_lt_mul_of_pos_right hs (Nat.pow_pos (by decide))
      have : 10 ^ (p + 1) * 10 ^ k = 10 ^ p * 10 ^ (k + 1) := by rw [Nat.pow_succ, Nat.pow_succ, Nat.mul_assoc, Nat.mul_comm 10]
      omega
    by_cases h : 10 ^ p = roundEven d (k + 1)
    · rw [← h]
      have := distance_cases (s * 10 ^ i) d
      have := distance_cases (10 ^ p * 10 ^ (k + 1)) d
      omega
    · have := hfar _ h
      have := distance_cases (s * 10 ^ i) d
      have := distance_cases (10 ^ p * 10 ^ (k + 1)) d
      omega
  have hmul : ∀ s i, k ≤ i → s * 10 ^ i = s * 10 ^ (i - k) * 10 ^ k := by
    intro s i hi
    rw [Nat.mul_assoc, ← Nat.pow_add, Nat.sub_add_cancel hi]
  refine ⟨hr, ?_, ?_⟩
  · intro s i hs
    rw [hv]
    rcases Nat.lt_or_ge i k with hi | hi
    · exact (hlow s i hs hi).le
    · rw [hmul s i hi]
      by_cases h : s * 10 ^ (i - k) = roundEven d k
      · rw [h]
      · have := hfar _ h
        omega
  · intro s i hs hne heq
    rw [hv] at hne heq ⊢
    rcases Nat.lt_or_ge i k with hi | hi
    · have := hlow s i hs hi
      omega
    · rw [hmul s i hi] at hne heq
      have := hfar (s * 10 ^ (i - k)) (fun h => hne (by rw [h]))
      have heven := h2 (by omega)
      refine ⟨k, roundEven d k / 2, hl, hu, ?_⟩
      congr 1
      omega

theorem roundedTo_self {p d : ℕ} (h : d < 10 ^ p) : RoundedTo p d d 0 := by
  refine ⟨h, ?_, ?_⟩
  · intro s i _
    rw [Nat.pow_zero, Nat.mul_one]
    unfold distance; omega
  · intro s i _ hne heq
    rw [Nat.pow_zero, Nat.mul_one] at hne heq
    unfold distance at heq; omega

/-- `set_precision`. -/
theorem setPrecision_spec {d p : ℕ} {e : ℤ} {s : Bool} (hp : 1 ≤ p) (hd : d < 2 ^ 64) (hr : p < 19 ∨ d + 5 < 2 ^ 64)
    (he : -2 ^ 31 ≤ e) (he' : e + 21 < 2 ^ 31) :
    ∃ r j : ℕ, (∀ w, Stores w → setPrecision w ⟨d, e, s⟩ p = some (.ok ⟨r, e + j, s⟩)) ∧
      RoundedTo p d r j ∧ (d < 10 ^ p → r = d ∧ j = 0) ∧ (10 ^ p ≤ d → 10 ^ (p - 1) ≤ r) ∧ j ≤ 20 ∧
      2 * distance (r * 10 ^ j) d ≤ 10 ^ j ∧ 10 ^ (Append.numDigits 8 d - p) ∣ r * 10 ^ j ∧
      Append.numDigits 8 d - p ≤ j := by
  have hu := numDigits_upper d
  rcases Nat.lt_or_ge d (10 ^ p) with hsmall | hbig
  · have hN : ¬ Append.numDigits 8 d > p := by
      intro h
      rcases Nat.eq_zero_or_pos d with rfl | h0
      · have : Append.numDigits 8 0 = 1 := by rw [Append.numDigits]; rfl
        omega
      · have := numDigits_lower d h0
        have h' : 10 ^ (p + 1) ≤ 10 ^ Append.numDigits 8 d := Nat.pow_le_pow_right (by decide) h
        rw [Nat.pow_succ] at h'
        omega
    refine ⟨d, 0, ?_, roundedTo_self hsmall, fun _ => ⟨rfl, rfl⟩, fun h => by omega, by omega, ?_, ?_, by omega⟩
    rotate_left
    · rw [Nat.pow_zero, Nat.mul_one, distance]; omega
    · rw [show Append.numDigits 8 d - p = 0 by omega, Nat.pow_zero]; exact Nat.one_dvd _
    intro w _
    unfold setPrecision
    rw [precisionLoop, if_neg hN, Int.natCast_zero, Int.add_zero]
  · have h0 : 0 < d := lt_of_lt_of_le (Nat.pow_pos (by decide)) hbig
    have hl := numDigits_lower d h0
    have hN20 : Append.numDigits 8 d ≤ 20 := Append.numDigits_le (b := 8) (k := 19) (by
      have : (8 + 2) ^ (19 + 1) = 100000000000000000000 := by decide
      omega)
    have hNp : p < Append.numDigits 8 d := by
      by_contra h
      have : 10 ^ Append.numDigits 8 d ≤ 10 ^ p := Nat.pow_le_pow_right (by decide) (by omega)
      omega
    obtain ⟨m, hm⟩ : ∃ m, Append.numDigits 8 d = p + 1 + m := ⟨Append.numDigits 8 d - p - 1, by omega⟩
    rw [hm, Nat.add_assoc, Nat.add_comm 1 m] at hl hu
    have hx : d / 10 ^ m < 10 ^ (p + 1) := by
      rw [Nat.div_lt_iff_lt_mul (Nat.pow_pos (by decide)), ← Nat.pow_add]
      rw [show p + 1 + m = p + (m + 1) by omega]; exact hu
    have hx5 : d / 10 ^ m + 5 < 2 ^ 64 := by
      rcases hr with h | h
      · have : 10 ^ (p + 1) ≤ 10 ^ 19 := Nat.pow_le_pow_right (by decide) (by omega)
        omega
      · have := Nat.div_le_self d (10 ^ m)
        omega
    -- the rounded number
    generalize hR : roundEven d (m + 1) = R at *
    have hq1 : 10 ^ (p - 1) ≤ d / 10 ^ (m + 1) := by
      rw [Nat.le_div_iff_mul_le (Nat.pow_pos (by decide)), ← Nat.pow_add]
      rw [show p + (m + 1) = p - 1 + (m + 1) + 1 by omega, Nat.pow_succ] at hl
      omega
    have hq2 : d / 10 ^ (m + 1) < 10 ^ p := by
      rw [Nat.div_lt_iff_lt_mul (Nat.pow_pos (by decide)), ← Nat.pow_add]
      exact hu
    have hRb : 10 ^ (p - 1) ≤ R ∧ R ≤ 10 ^ p := by
      rw [← hR]
      unfold roundEven
      dsimp only
      split
      · omega
      · split
        · omega
        · omega
    have hstart : ∀ w, Stores w → setPrecision w ⟨d, e, s⟩ p =
        precisionLoop w p (24 - m) ⟨R, e + ((m + 1 : ℕ) : ℤ), s⟩ (Append.numDigits 8 R) (decide (d % 10 ^ m = 0)) := by
      intro w hw
      have h1 := precisionLoop_drop (w := w) p d (24 - m + 1) e s m 0 he (by push_cast; omega)
      rw [Nat.pow_zero, Nat.div_one, Nat.mod_one, Nat.zero_add, Int.natCast_zero, Int.add_zero] at h1
      have h2 := precisionLoop_round (w := w) p (d / 10 ^ m) (24 - m) (e + m) s (decide (d % 10 ^ m = 0))
        (by omega) (by omega)
      rw [roundHalfToEven_spec hw d m hx5, hR] at h2
      unfold setPrecision
      rw [hm, show (25 : ℕ) = 24 - m + 1 + m by omega, show (true = decide (0 = 0)) by rfl, h1, h2,
        show e + ((m + 1 : ℕ) : ℤ) = e + m + 1 by push_cast; ring]
    rcases Nat.lt_or_ge R (10 ^ p) with hlt | hge
    · refine ⟨R, m + 1, ?_, ?_, fun h => by omega, fun _ => hRb.1, by omega, ?_, ?_, by omega⟩
      · intro w hw
        have : Append.numDigits 8 R = p := by
          have := numDigits_eq (n := p - 1) hRb.1 (by rw [Nat.sub_add_cancel hp]; exact hlt)
          omega
        rw [hstart w hw, this, show 24 - m = 23 - m + 1 by omega, precisionLoop, if_neg (by omega)]
      · exact roundedTo_of hp hl hu hlt (by rw [hR])
      · rw [← hR]; exact (roundEven_distance d (m + 1)).1
      · rw [hm, show p + 1 + m - p = m + 1 by omega]; exact Nat.dvd_mul_left ..
    · have hRe : R = 10 ^ p := by omega
      have hpe : 10 ^ p = 10 ^ (p - 1) * 10 := by rw [← Nat.pow_succ]; congr 1; omega
      have hp19 : p ≤ 19 := by omega
      refine ⟨10 ^ (p - 1), m + 2, ?_, ?_, fun h => by omega, fun _ => by omega, by omega, ?_, ?_, by omega⟩
      · intro w hw
        have hn : Append.numDigits 8 R = p + 1 :=
          numDigits_eq (by omega) (by rw [hRe, Nat.pow_succ]; have := Nat.pow_pos (n := p) (show 0 < 10 by decide); omega)
        have hRR : roundHalfToEven w R (decide (d % 10 ^ m = 0)) = 10 ^ (p - 1) := by
          have : 10 ^ p ≤ 10 ^ 19 := Nat.pow_le_pow_right (by decide) hp19
          unfold roundHalfToEven
          dsimp only
          rw [hw _ (by omega), if_neg (by omega)]
          omega
        have hn' : Append.numDigits 8 (10 ^ (p - 1)) = p := by
          have := numDigits_eq (n := p - 1) (le_refl (10 ^ (p - 1)))
            (Nat.pow_lt_pow_right (by decide) (by omega))
          omega
        rw [hstart w hw, hn, show 24 - m = 22 - m + 1 + 1 by omega,
          precisionLoop_round _ _ _ _ _ _ (by push_cast; omega) (by push_cast; omega), hRR, hn', precisionLoop,
          if_neg (by omega), show e + ((m + 1 : ℕ) : ℤ) + 1 = e + ((m + 2 : ℕ) : ℤ) by push_cast; ring]
      · refine roundedTo_of (k := m + 1) hp hl hu (Nat.pow_lt_pow_right (by decide) (by omega)) ?_
        rw [hR, hRe, hpe, Nat.pow_succ 10 (m + 1), Nat.mul_assoc, Nat.mul_comm 10]
      · have h1 := (roundEven_distance d (m + 1)).1
        have h2 : 10 ^ (p - 1) * 10 ^ (m + 2) = roundEven d (m + 1) * 10 ^ (m + 1) := by
          rw [hR, hRe, hpe, Nat.pow_succ 10 (m + 1), Nat.mul_assoc, Nat.mul_comm 10]
        rw [h2]
        have : 10 ^ (m + 1) ≤ 10 ^ (m + 2) := Nat.pow_le_pow_right (by decide) (by omega)
        omega
      · rw [hm, show p + 1 + m - p = m + 1 by omega, Nat.pow_succ 10 (m + 1)]
        exact Dvd.dvd.mul_left (Nat.dvd_mul_right ..) _

end Verif.Float
