import Verif.Lemmas.FloatWord
import Mathlib.Algebra.Order.Field.Power
import Mathlib.Tactic.Linarith
import Mathlib.Tactic.NormNum
import Mathlib.Tactic.Positivity
import Mathlib.Tactic.FieldSimp
import Mathlib.Tactic.Ring
/-!
# How accurate the operations on decimal numbers are
-/
namespace Verif.Float
open Verif

/-- The value of a decimal number. -/
def val (x : Fixed) : ℚ := (x.digits : ℚ) * 10 ^ x.exponent

theorem ten_pow_pos (e : ℤ) : (0 : ℚ) < 10 ^ e := zpow_pos (by norm_num) e

theorem val_scaled (d : ℕ) (e : ℤ) (k : ℕ) : val ⟨d * 10 ^ k, e - k⟩ = (d : ℚ) * 10 ^ e := by
  unfold val
  push_cast
  rw [zpow_sub₀ (by norm_num : (10 : ℚ) ≠ 0), zpow_natCast]
  field_simp

theorem roundDiv_error (d k : ℕ) (hk : 1 ≤ k) : |(roundDiv d k : ℚ) - d / 10 ^ k| ≤ 1 / 2 := by
  obtain ⟨k, rfl⟩ : ∃ j, k = j + 1 := ⟨k - 1, by omega⟩
  have hp : 0 < 10 ^ (k + 1) := Nat.pow_pos (by decide)
  have h1 : roundDiv d (k + 1) * 10 ^ (k + 1) ≤ d + 5 * 10 ^ k := Nat.div_mul_le_self ..
  have h2 : d + 5 * 10 ^ k < (roundDiv d (k + 1) + 1) * 10 ^ (k + 1) := by
    have := Nat.lt_div_mul_add (a := d + 5 * 10 ^ k) hp
    rw [Nat.add_mul, Nat.one_mul]; exact this
  have e1 : ((roundDiv d (k + 1) : ℕ) : ℚ) * 10 ^ (k + 1) ≤ d + 5 * 10 ^ k := by exact_mod_cast h1
  have e2 : (d : ℚ) + 5 * 10 ^ k < ((roundDiv d (k + 1) : ℕ) + 1) * 10 ^ (k + 1) := by exact_mod_cast h2
  have hq : (0 : ℚ) < 10 ^ (k + 1) := by positivity
  have h5 : (5 : ℚ) * 10 ^ k = 10 ^ (k + 1) / 2 := by rw [pow_succ]; ring
  rw [h5] at e1 e2
  rw [abs_le]
  constructor
  · have : (d : ℚ) / 10 ^ (k + 1) ≤ (roundDiv d (k + 1) : ℕ) + 1 / 2 := by
      rw [div_le_iff₀ hq]; nlinarith
    linarith
  · have : ((roundDiv d (k + 1) : ℕ) : ℚ) - 1 / 2 ≤ (d : ℚ) / 10 ^ (k + 1) := by
      rw [le_div_iff₀ hq]; nlinarith
    linarith

/-- The constructor, for all ways of storing numbers at once. -/
theorem make_all {d : ℕ} {e : ℤ} (h0 : 0 < d) (hd : d < 2 ^ 64) (he : -1000000 ≤ e) (he' : e ≤ 1000000) :
    ∃ (r : Fixed) (k : ℕ), (∀ w, Stores w → make w d e = .ok r) ∧ cap ≤ r.digits ∧ r.digits < 2 ^ 64 ∧
      r.digits = d * 10 ^ k ∧ r.exponent = e - k ∧ (k = 0 ∨ r.digits ≤ 10 * (cap - 1)) ∧
      val r = (d : ℚ) * 10 ^ e := by
  obtain ⟨k, _, h1, h2, h3, h4⟩ := make_spec stores_id h0 hd he he'
  exact ⟨⟨d * 10 ^ k, e - k⟩, k, fun w hw => by rw [make_stores hw stores_id hd, h1], h2, h3, rfl, rfl, h4,
    val_scaled ..⟩

/-- Numbers as the constructor leaves them, of moderate size. -/
structure Normal (lo hi : ℤ) (x : Fixed) : Prop where
  large : cap ≤ x.digits
  small : x.digits + 5 < 2 ^ 64
  lo : lo ≤ x.exponent
  hi : x.exponent ≤ hi

theorem scale_le_two {d k : ℕ} (hd : 34028236420153600 ≤ d) (h : d * 10 ^ k < 2 ^ 64) : k ≤ 2 := by
  rcases Nat.lt_or_ge 2 k with hk | hk
  · have : 10 ^ 3 ≤ 10 ^ k := Nat.pow_le_pow_right (by decide) hk
    have := Nat.mul_le_mul hd this
    omega
  · exact hk

/-- The sum of two numbers of which the second has a higher (or the same) exponent. -/
theorem add_all {a b : Fixed} (ha : a.digits + 5 < 2 ^ 64) (hb : b.digits + 5 < 2 ^ 64) (hbl : cap ≤ b.digits)
    (hea : -1000 ≤ a.exponent) (h : a.exponent ≤ b.exponent) (heb : b.exponent ≤ 1000)
    (hk : b.exponent ≤ a.exponent + 24) :
    ∃ r, (∀ w, Stores w → add w a b = .ok r) ∧ Normal (b.exponent - 1) (b.exponent + 1) r ∧
      |val r - (val a + val b)| ≤ 10 ^ (b.exponent + 1) := by
  obtain ⟨k, hk', hk1, hs, _⟩ := add_spec stores_id ha hb hea h heb hk
  have hcap := cap_eq
  have hbr : 184467440737095516 ≤ roundDiv b.digits 1 := by
    show _ ≤ (b.digits + 5 * 10 ^ 0) / 10 ^ 1
    omega
  obtain ⟨r, j, h1, h2, h3, h4, h5, h6, h7⟩ := make_all (d := roundDiv a.digits k + roundDiv b.digits 1)
    (e := b.exponent + 1) (by omega) (by omega) (by omega) (by omega)
  have hj : j ≤ 2 := scale_le_two (d := roundDiv a.digits k + roundDiv b.digits 1) (by omega) (by omega)
  refine ⟨r, ?_, ⟨h2, ?_, by omega, by omega⟩, ?_⟩
  · intro w hw
    obtain ⟨k', hk'', _, _, e⟩ := add_spec hw ha hb hea h heb hk
    obtain rfl : k' = k := by omega
    rw [e, h1 w hw]
  · rcases h6 with rfl | h6
    · rw [h4]; omega
    · omega
  · rw [h7]
    have hu := ten_pow_pos (b.exponent + 1)
    have ea : val a = (a.digits : ℚ) / 10 ^ k * 10 ^ (b.exponent + 1) := by
      unfold val
      rw [show b.exponent + 1 = a.exponent + (k : ℤ) by omega, zpow_add₀ (by norm_num), zpow_natCast]
      field_simp
    have eb : val b = (b.digits : ℚ) / 10 ^ 1 * 10 ^ (b.exponent + 1) := by
      unfold val
      rw [zpow_add₀ (by norm_num), zpow_one, pow_one]
      ring
    have r1 := roundDiv_error a.digits k hk1
    have r2 := roundDiv_error b.digits 1 (by omega)
    rw [ea, eb, ← add_mul, ← sub_mul, abs_mul, abs_of_pos hu]
    push_cast
    have : |(roundDiv a.digits k : ℚ) + roundDiv b.digits 1 - (a.digits / 10 ^ k + b.digits / 10 ^ 1)| ≤ 1 := by
      rw [abs_le] at r1 r2 ⊢
      constructor <;> linarith
    nlinarith

/-- The sum with zero. -/
theorem add_zero_all {b : Fixed} (hb : b.digits + 5 < 2 ^ 64) (hbl : cap ≤ b.digits)
    (heb : -1000 ≤ b.exponent) (heb' : b.exponent ≤ 1000) :
    ∃ r, (∀ w, Stores w → add w ⟨0, -2 ^ 31⟩ b = .ok r) ∧ Normal (b.exponent - 1) (b.exponent + 1) r ∧
      |val r - val b| ≤ 10 ^ (b.exponent + 1) := by
  have hcap := cap_eq
  have hbr : 184467440737095516 ≤ roundDiv b.digits 1 ∧ roundDiv b.digits 1 < 2 ^ 62 := by
    show _ ≤ (b.digits + 5 * 10 ^ 0) / 10 ^ 1 ∧ (b.digits + 5 * 10 ^ 0) / 10 ^ 1 < _
    omega
  obtain ⟨r, j, h1, h2, h3, h4, h5, h6, h7⟩ := make_all (d := roundDiv b.digits 1)
    (e := b.exponent + 1) (by omega) (by omega) (by omega) (by omega)
  have hj : j ≤ 2 := scale_le_two (d := roundDiv b.digits 1) (by omega) (by omega)
  refine ⟨r, ?_, ⟨h2, ?_, by omega, by omega⟩, ?_⟩
  · intro w hw
    rw [add_zero_spec hw hb heb heb', h1 w hw]
  · rcases h6 with rfl | h6
    · rw [h4]; omega
    · omega
  · rw [h7]
    have hu := ten_pow_pos (b.exponent + 1)
    have eb : val b = (b.digits : ℚ) / 10 ^ 1 * 10 ^ (b.exponent + 1) := by
      unfold val
      rw [zpow_add₀ (by norm_num), zpow_one, pow_one]
      ring
    have r2 := roundDiv_error b.digits 1 (by omega)
    rw [eb, ← sub_mul, abs_mul, abs_of_pos hu]
    nlinarith

/-- The product of two numbers. -/
theorem mul_all {a b : Fixed} {lo hi lo' hi' : ℤ} (ha : Normal lo hi a) (hb : Normal lo' hi' b)
    (h1 : -1000 ≤ lo) (h2 : hi ≤ 1000) (h3 : -1000 ≤ lo') (h4 : hi' ≤ 1000) :
    ∃ r, (∀ w, Stores w → mul w a b = .ok r) ∧ Normal (lo + lo' + 18) (hi + hi' + 20) r ∧
      |val r - val a * val b| ≤ 151 * 10 ^ r.exponent := by
  have a1 := ha.large; have a2 := ha.small; have a3 := ha.lo; have a4 := ha.hi
  have b1 := hb.large; have b2 := hb.small; have b3 := hb.lo; have b4 := hb.hi
  have hp := product_large a1 b1
  have hp2 := (mulDigits_spec stores_id (a := a.digits) (b := b.digits) (by omega) (by omega)).2
  obtain ⟨r, j, m1, m2, m3, m4, m5, m6, m7⟩ := make_all (d := product a.digits b.digits)
    (e := a.exponent + b.exponent + 20) (by omega) (by omega) (by omega) (by omega)
  have hj : j ≤ 2 := scale_le_two hp (by omega)
  have hcap := cap_eq
  refine ⟨r, ?_, ⟨m2, ?_, by omega, by omega⟩, ?_⟩
  · intro w hw
    rw [mul_spec hw (by omega) (by omega) (by omega) (by omega) (by omega) (by omega), m1 w hw]
  · rcases m6 with rfl | m6
    · rw [m4]; omega
    · omega
  · obtain ⟨p1, p2⟩ := product_bounds a.digits b.digits
    have q1 : (1000000000 : ℚ) * (a.digits * b.digits) ≤
        1000000000 * (100000000000000000000 * product a.digits b.digits) + 150000000200000000000000000000 := by
      exact_mod_cast p1
    have q2 : (1000000000 : ℚ) * (100000000000000000000 * product a.digits b.digits) ≤
        1000000000 * (a.digits * b.digits) + 50000000100000000000000000000 := by
      exact_mod_cast p2
    rw [m7]
    have e1 : val a * val b = (a.digits * b.digits : ℚ) / 10 ^ 20 * 10 ^ (a.exponent + b.exponent + 20) := by
      unfold val
      rw [zpow_add₀ (by norm_num), zpow_add₀ (by norm_num)]
      have : (10 : ℚ) ^ (20 : ℤ) = 10 ^ 20 := by norm_num
      rw [this]
      field_simp
    have hu := ten_pow_pos (a.exponent + b.exponent + 20)
    rw [e1, ← sub_mul, abs_mul, abs_of_pos hu]
    have h5 : |(product a.digits b.digits : ℚ) - (a.digits * b.digits : ℚ) / 10 ^ 20| ≤ 151 / 100 := by
      rw [abs_le]
      norm_num
      constructor <;> linarith
    have h6 : (10 : ℚ) ^ (a.exponent + b.exponent + 20) ≤ 100 * 10 ^ r.exponent := by
      rw [m5, zpow_sub₀ (by norm_num), zpow_natCast]
      have hj' : (10 : ℚ) ^ j ≤ 10 ^ 2 := pow_le_pow_right₀ (by norm_num) hj
      have hjp : (0 : ℚ) < 10 ^ j := by positivity
      rw [← mul_div_assoc, le_div_iff₀ hjp]
      nlinarith
    nlinarith [abs_nonneg ((product a.digits b.digits : ℚ) - (a.digits * b.digits : ℚ) / 10 ^ 20)]

end Verif.Float
