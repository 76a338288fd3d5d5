import Mathlib.Tactic.Linarith
import Mathlib.Tactic.Positivity
import Mathlib.Tactic.FieldSimp
import Mathlib.Tactic.Ring
import Mathlib.Algebra.Order.Floor.Ring
import Verif.Spec.Rounding
/-! # Rounding to the nearest `float` is a rounding -/
namespace Verif.Spec

theorem nearestInt_floor (x : ℚ) : ⌊x⌋ ≤ nearestInt x ∧ nearestInt x ≤ ⌊x⌋ + 1 := by
  unfold nearestInt
  split
  · omega
  · split
    · omega
    · split <;> omega

theorem nearestInt_near (x : ℚ) : |(nearestInt x : ℚ) - x| ≤ 1 / 2 := by
  have h1 : (⌊x⌋ : ℚ) ≤ x := Int.floor_le x
  have h2 : x < ⌊x⌋ + 1 := Int.lt_floor_add_one x
  unfold nearestInt
  rw [abs_le]
  split
  · constructor <;> linarith
  · split
    · push_cast; constructor <;> linarith
    · split
      · constructor <;> linarith
      · push_cast; constructor <;> linarith

theorem nearestInt_int (n : ℤ) : nearestInt n = n := by
  unfold nearestInt
  simp

theorem nearestInt_mono {x y : ℚ} (h : x ≤ y) : nearestInt x ≤ nearestInt y := by
  have hf : ⌊x⌋ ≤ ⌊y⌋ := Int.floor_le_floor h
  rcases Int.lt_or_eq_of_le hf with hlt | heq
  · have := (nearestInt_floor x).2
    have := (nearestInt_floor y).1
    omega
  · unfold nearestInt
    rw [heq]
    split
    · split
      · exact le_refl _
      · split
        · omega
        · split <;> omega
    · rename_i h1
      rw [if_neg (show ¬ y - (⌊y⌋ : ℚ) < 1 / 2 by linarith)]
      split
      · rename_i h2
        rw [if_pos (show 1 / 2 < y - (⌊y⌋ : ℚ) by linarith)]
      · split
        · split
          · omega
          · exact le_refl _
        · split
          · omega
          · exact le_refl _

theorem pow_log {q : ℚ} (h : 0 < q) : (2 : ℚ) ^ Int.log 2 q ≤ q ∧ q < 2 ^ (Int.log 2 q + 1) := by
  have h1 := Int.zpow_log_le_self (b := 2) (by norm_num) h
  have h2 := Int.lt_zpow_succ_log_self (b := 2) (by norm_num) q
  push_cast at h1 h2
  exact ⟨h1, h2⟩

theorem toSingle_pos {q : ℚ} (h : 0 < q) :
    toSingle q = nearestInt (q / 2 ^ (Int.log 2 q - 23)) * 2 ^ (Int.log 2 q - 23) := by
  unfold toSingle
  rw [if_neg (by linarith)]

/-- A number with at most 24 binary digits is not changed. -/
theorem toSingle_exact {m : ℕ} {e : ℤ} (hm : m ≤ 2 ^ 24) : toSingle (m * 2 ^ e) = m * 2 ^ e := by
  rcases Nat.eq_zero_or_pos m with rfl | hm0
  · simp [toSingle]
  have hp : (0 : ℚ) < 2 ^ e := by positivity
  have hq : (0 : ℚ) < m * 2 ^ e := by positivity
  rw [toSingle_pos hq]
  generalize hl : Int.log 2 ((m : ℚ) * 2 ^ e) = l
  obtain ⟨h1, h2⟩ := pow_log hq
  rw [hl] at h1 h2
  have hle : l ≤ 24 + e := by
    have : (2 : ℚ) ^ l ≤ 2 ^ (24 + e) := by
      refine h1.trans ?_
      rw [zpow_add₀ (by norm_num)]
      have : (m : ℚ) ≤ 2 ^ (24 : ℤ) := by exact_mod_cast hm
      exact mul_le_mul_of_nonneg_right this hp.le
    exact (zpow_le_zpow_iff_right₀ (by norm_num)).mp this
  rcases Int.lt_or_eq_of_le hle with hlt | heq
  · obtain ⟨k, hk⟩ : ∃ k : ℕ, e - (l - 23) = k := ⟨(e - (l - 23)).toNat, by omega⟩
    have hd : (m : ℚ) * 2 ^ e / 2 ^ (l - 23) = ((m * 2 ^ k : ℕ) : ℤ) := by
      rw [mul_div_assoc, ← zpow_sub₀ (by norm_num), hk]
      push_cast
      simp
    rw [hd, nearestInt_int, ← hd]
    field_simp
  · have hme : (m : ℚ) = 2 ^ (24 : ℤ) := by
      have hm2 : (m : ℚ) ≤ 2 ^ (24 : ℤ) := by exact_mod_cast hm
      rw [heq, zpow_add₀ (by norm_num)] at h1
      have := le_of_mul_le_mul_right h1 hp
      linarith
    have hd : (m : ℚ) * 2 ^ e / 2 ^ (l - 23) = ((2 ^ 23 : ℕ) : ℤ) := by
      rw [hme, heq, ← zpow_add₀ (by norm_num), ← zpow_sub₀ (by norm_num)]
      rw [show (24 + e - (24 + e - 23) : ℤ) = 23 by ring]
      norm_num
    rw [hd, nearestInt_int, ← hd]
    field_simp

theorem toSingle_near {q : ℚ} (h : 0 < q) : |toSingle q - q| ≤ q / 2 ^ 24 := by
  rw [toSingle_pos h]
  obtain ⟨h1, -⟩ := pow_log h
  generalize Int.log 2 q = l at h1
  have hp : (0 : ℚ) < 2 ^ (l - 23) := by positivity
  have hn := nearestInt_near (q / 2 ^ (l - 23))
  have he : (nearestInt (q / 2 ^ (l - 23)) : ℚ) * 2 ^ (l - 23) - q =
      (nearestInt (q / 2 ^ (l - 23)) - q / 2 ^ (l - 23)) * 2 ^ (l - 23) := by field_simp
  rw [he, abs_mul, abs_of_pos hp]
  have h2 := mul_le_mul_of_nonneg_right hn hp.le
  refine h2.trans ?_
  rw [zpow_sub₀ (by norm_num)]
  have : (2 : ℚ) ^ (23 : ℤ) = 2 ^ 23 := by norm_num
  rw [this]
  rw [le_div_iff₀ (by norm_num)]
  calc (1 : ℚ) / 2 * (2 ^ l / 2 ^ 23) * 2 ^ 24 = 2 ^ l := by ring
    _ ≤ q := h1

theorem toSingle_bounds {q : ℚ} (h : 0 < q) :
    (2 : ℚ) ^ Int.log 2 q ≤ toSingle q ∧ toSingle q ≤ 2 ^ (Int.log 2 q + 1) := by
  rw [toSingle_pos h]
  obtain ⟨h1, h2⟩ := pow_log h
  generalize Int.log 2 q = l at h1 h2
  have hp : (0 : ℚ) < 2 ^ (l - 23) := by positivity
  have hl : (2 : ℚ) ^ l = ((2 ^ 23 : ℤ) : ℚ) * 2 ^ (l - 23) := by
    rw [zpow_sub₀ (by norm_num)]
    have : (2 : ℚ) ^ (23 : ℤ) = 2 ^ 23 := by norm_num
    rw [this]; push_cast; field_simp; norm_num
  have hl1 : (2 : ℚ) ^ (l + 1) = ((2 ^ 24 : ℤ) : ℚ) * 2 ^ (l - 23) := by
    rw [zpow_add₀ (by norm_num), hl]; push_cast; ring
  constructor
  · rw [hl]
    refine mul_le_mul_of_nonneg_right ?_ hp.le
    have := nearestInt_mono (x := ((2 ^ 23 : ℤ) : ℚ)) (y := q / 2 ^ (l - 23)) (by rw [le_div_iff₀ hp, ← hl]; exact h1)
    rw [nearestInt_int] at this
    exact_mod_cast this
  · rw [hl1]
    refine mul_le_mul_of_nonneg_right ?_ hp.le
    have := nearestInt_mono (x := q / 2 ^ (l - 23)) (y := ((2 ^ 24 : ℤ) : ℚ)) (by rw [div_le_iff₀ hp, ← hl1]; exact h2.le)
    rw [nearestInt_int] at this
    exact_mod_cast this

theorem toSingle_mono {a b : ℚ} (ha : 0 ≤ a) (h : a ≤ b) : toSingle a ≤ toSingle b := by
  rcases ha.eq_or_lt with rfl | ha
  · have h0 : toSingle 0 = 0 := by simp [toSingle]
    rw [h0]
    rcases h.eq_or_lt with rfl | hb
    · rw [h0]
    · have := (toSingle_bounds hb).1
      have : (0 : ℚ) < 2 ^ Int.log 2 b := by positivity
      linarith
  · have hb : 0 < b := by linarith
    have hlog : Int.log 2 a ≤ Int.log 2 b := Int.log_mono_right ha h
    rcases Int.lt_or_eq_of_le hlog with hlt | heq
    · have h1 := (toSingle_bounds ha).2
      have h2 := (toSingle_bounds hb).1
      have h3 : (2 : ℚ) ^ (Int.log 2 a + 1) ≤ 2 ^ Int.log 2 b := zpow_le_zpow_right₀ (by norm_num) (by omega)
      linarith
    · rw [toSingle_pos ha, toSingle_pos hb, heq]
      have hp : (0 : ℚ) < 2 ^ (Int.log 2 b - 23) := by positivity
      refine mul_le_mul_of_nonneg_right ?_ hp.le
      exact_mod_cast nearestInt_mono (div_le_div_of_nonneg_right h hp.le)

theorem magnitude_single (p : ℕ) : ∃ (m : ℕ) (e : ℤ), m ≤ 2 ^ 24 ∧ single.magnitude p = m * 2 ^ e := by
  unfold Binary.magnitude
  have hf : single.fraction p < 2 ^ 23 := Nat.mod_lt _ (by norm_num)
  dsimp only
  split
  · refine ⟨single.fraction p, 1 - (2 ^ (single.exponentBits - 1) - 1) - 23, by omega, ?_⟩
    rw [zpow_sub₀ (a := (2 : ℚ)) (by norm_num) _ 23]
    have : (2 : ℚ) ^ (23 : ℤ) = 2 ^ 23 := by norm_num
    rw [this, show single.fractionBits = 23 from rfl]
    ring
  · refine ⟨2 ^ 23 + single.fraction p, (single.biased p : ℤ) - (2 ^ (single.exponentBits - 1) - 1) - 23, by omega, ?_⟩
    rw [zpow_sub₀ (a := (2 : ℚ)) (by norm_num) _ 23]
    have : (2 : ℚ) ^ (23 : ℤ) = 2 ^ 23 := by norm_num
    rw [this, show single.fractionBits = 23 from rfl]
    push_cast
    field_simp
    norm_num

/-- Rounding to 24 binary digits, to the nearest, ties to even, is a rounding. -/
theorem toSingle_rounds : Rounds toSingle where
  exact p _ := by
    obtain ⟨m, e, hm, h⟩ := magnitude_single p
    rw [h]
    exact toSingle_exact hm
  mono _ _ := toSingle_mono
  near a ha _ := toSingle_near (lt_of_lt_of_le (by norm_num) ha)

end Verif.Spec
