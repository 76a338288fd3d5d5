import Verif.Model.Float
/-!
# Lemmas about the operations on decimal numbers

The operations are described exactly, for every way `w` of storing numbers that is right below `2 ^ 64`.
-/
namespace Verif.Float
open Verif

/-- Storing is right for numbers below `2 ^ 64`. -/
def Stores (w : Nat → Nat) : Prop := ∀ n < 2 ^ 64, w n = n

theorem stores_word64 : Stores word64 := fun _ h => Nat.mod_eq_of_lt h
theorem stores_id : Stores id := fun _ _ => rfl

theorem cap_eq : cap = 1844674407370955161 := by decide

theorem int32_ok {e : Int} (h1 : -2147483648 ≤ e) (h2 : e < 2147483648) : int32 e = .ok e :=
  if_pos ⟨h1, h2⟩

/-- Scaling up. -/
theorem scaleUp_spec {w : Nat → Nat} (hw : Stores w) : ∀ (n d : Nat) (e : Int), 0 < d → d < 2 ^ 64 →
    cap ≤ d * 10 ^ n → -2000000000 + n ≤ e → e < 2147483648 →
    ∃ k : Nat, k ≤ n ∧ scaleUp w (n + 1) d e = .ok ⟨d * 10 ^ k, e - k⟩ ∧ cap ≤ d * 10 ^ k ∧
      d * 10 ^ k < 2 ^ 64 ∧ (k = 0 ∨ d * 10 ^ k ≤ 10 * (cap - 1)) := by
  intro n
  induction n with
  | zero =>
    intro d e h0 hd hc he he'
    refine ⟨0, Nat.le_refl _, ?_, by simpa using hc, by simpa using hd, .inl rfl⟩
    rw [scaleUp, if_neg (by simpa using hc)]
    simp
  | succ n ih =>
    intro d e h0 hd hc he he'
    rw [scaleUp]
    by_cases hlt : d < cap
    · rw [if_pos hlt]
      have hcap := cap_eq
      have hd10 : d * 10 < 2 ^ 64 := by omega
      rw [int32_ok (by omega) (by omega), Outcome.bind_ok, hw _ hd10]
      obtain ⟨k, hk, e1, h1, h2, h3⟩ := ih (d * 10) (e - 1) (by omega) hd10 (by
        rw [Nat.mul_assoc, ← Nat.pow_succ']; exact hc) (by omega) (by omega)
      refine ⟨k + 1, by omega, ?_, ?_, ?_, ?_⟩
      · rw [e1, Nat.pow_succ', ← Nat.mul_assoc]
        congr 2; omega
      · rw [Nat.pow_succ', ← Nat.mul_assoc]; exact h1
      · rw [Nat.pow_succ', ← Nat.mul_assoc]; exact h2
      · right
        rw [Nat.pow_succ', ← Nat.mul_assoc]
        rcases h3 with rfl | h3
        · rw [Nat.pow_zero, Nat.mul_one]; omega
        · exact h3
    · rw [if_neg hlt]
      exact ⟨0, by omega, by simp, by simpa using Nat.le_of_not_lt hlt, by simpa using hd, .inl rfl⟩

/-- The constructor. -/
theorem make_spec {w : Nat → Nat} (hw : Stores w) {d : Nat} {e : Int} (h0 : 0 < d) (hd : d < 2 ^ 64)
    (he : -1000000 ≤ e) (he' : e ≤ 1000000) :
    ∃ k : Nat, k ≤ 19 ∧ make w d e = .ok ⟨d * 10 ^ k, e - k⟩ ∧ cap ≤ d * 10 ^ k ∧
      d * 10 ^ k < 2 ^ 64 ∧ (k = 0 ∨ d * 10 ^ k ≤ 10 * (cap - 1)) := by
  rw [make, if_pos h0]
  refine scaleUp_spec hw 19 d e h0 hd ?_ (by omega) (by omega)
  have : cap ≤ 1 * 10 ^ 19 := by decide
  exact Nat.le_trans this (Nat.mul_le_mul_right _ h0)

theorem make_stores {w w' : Nat → Nat} (hw : Stores w) (hw' : Stores w') {d : Nat} (hd : d < 2 ^ 64)
    (e : Int) : make w d e = make w' d e := by
  have h : ∀ (n d : Nat) (e : Int), d < 2 ^ 64 → scaleUp w n d e = scaleUp w' n d e := by
    intro n
    induction n with
    | zero => intro d e _; rfl
    | succ n ih =>
      intro d e hd
      rw [scaleUp, scaleUp]
      by_cases hlt : d < cap
      · rw [if_pos hlt, if_pos hlt]
        have hcap := cap_eq
        have hd10 : d * 10 < 2 ^ 64 := by omega
        rw [hw _ hd10, hw' _ hd10]
        congr 1; funext e; exact ih _ _ hd10
      · rw [if_neg hlt, if_neg hlt]
  rw [make, make, h _ _ _ hd]

/-! ## Raising the exponent -/

/-- Division by a power of ten, rounded half up. -/
def roundDiv (d : Nat) : Nat → Nat
  | 0 => d
  | k + 1 => (d + 5 * 10 ^ k) / 10 ^ (k + 1)

theorem roundDiv_div (d k : Nat) : roundDiv (d / 10) (k + 1) = roundDiv d (k + 2) := by
  show (d / 10 + 5 * 10 ^ k) / 10 ^ (k + 1) = (d + 5 * 10 ^ (k + 1)) / 10 ^ (k + 1 + 1)
  rw [Nat.pow_succ' (n := k + 1), ← Nat.div_div_eq_div_mul]
  congr 1
  rw [Nat.pow_succ]
  omega

theorem roundDiv_zero (k : Nat) : roundDiv 0 k = 0 := by
  cases k with
  | zero => rfl
  | succ k =>
    show (0 + 5 * 10 ^ k) / 10 ^ (k + 1) = 0
    apply Nat.div_eq_of_lt
    rw [Nat.pow_succ]
    have : 0 < 10 ^ k := Nat.pow_pos (by decide)
    omega

theorem raise_spec {w : Nat → Nat} (hw : Stores w) {x : Fixed} (hd : x.digits + 5 < 2 ^ 64)
    (he : -1000000 ≤ x.exponent) (he' : x.exponent ≤ 1000000) :
    raise w x = .ok ⟨roundDiv x.digits 1, x.exponent + 1⟩ := by
  rw [raise, int32_ok (by omega) (by omega), Outcome.bind_ok, hw _ hd]
  simp [roundDiv, pure]

/-- Raising the exponent to `x.exponent + k`. -/
theorem raiseTo_spec {w : Nat → Nat} (hw : Stores w) : ∀ (k n : Nat) (x : Fixed), 1 ≤ k → k ≤ n →
    x.digits + 5 < 2 ^ 64 → -1000000 ≤ x.exponent → x.exponent + k ≤ 1000000 → k ≤ 1000 →
    raiseTo w (x.exponent + k) n x = .ok ⟨roundDiv x.digits k, x.exponent + k⟩ := by
  intro k
  induction k with
  | zero => intro n x h; omega
  | succ k ih =>
    intro n x _ hn hd he he' hk
    obtain ⟨n, rfl⟩ : ∃ m, n = m + 1 := ⟨n - 1, by omega⟩
    rw [raiseTo, raiseStep]
    by_cases h0 : x.digits = 0
    · simp only [h0, if_true, pure, Outcome.bind_ok]
      rw [if_neg (by omega), roundDiv_zero]
    · rw [if_neg h0, int32_ok (by omega) (by omega), Outcome.bind_ok]
      by_cases hlast : k = 0
      · subst hlast
        rw [if_neg (by omega), int32_ok (by omega) (by omega), Outcome.bind_ok, hw _ hd]
        simp only [pure, Outcome.bind_ok]
        rw [if_neg (by omega)]
        simp [roundDiv]
      · rw [if_pos (by omega), int32_ok (by omega) (by omega), Outcome.bind_ok]
        simp only [pure, Outcome.bind_ok]
        rw [if_pos (by omega)]
        have := ih n ⟨x.digits / 10, x.exponent + 1⟩ (by omega) (by omega) (by dsimp only; omega)
          (by dsimp only; omega) (by dsimp only; omega) (by omega)
        dsimp only at this
        rw [show x.exponent + ((k + 1 : Nat) : Int) = x.exponent + 1 + (k : Int) by omega, this]
        obtain ⟨j, rfl⟩ : ∃ j, k = j + 1 := ⟨k - 1, by omega⟩
        rw [roundDiv_div]

theorem raiseTo_zero {w : Nat → Nat} (new : Int) (n : Nat) (e : Int) :
    raiseTo w new (n + 1) ⟨0, e⟩ = .ok ⟨0, new⟩ := by
  rw [raiseTo, raiseStep]
  simp [pure]

/-- Adding a number with a higher (or the same) exponent. -/
theorem add_spec {w : Nat → Nat} (hw : Stores w) {a b : Fixed} (ha : a.digits + 5 < 2 ^ 64)
    (hb : b.digits + 5 < 2 ^ 64) (hea : -1000 ≤ a.exponent) (h : a.exponent ≤ b.exponent)
    (heb : b.exponent ≤ 1000) (hk : b.exponent ≤ a.exponent + 24) :
    ∃ k : Nat, (k : Int) = b.exponent + 1 - a.exponent ∧ 1 ≤ k ∧
      roundDiv a.digits k + roundDiv b.digits 1 < 2 ^ 63 ∧
      add w a b = make w (roundDiv a.digits k + roundDiv b.digits 1) (b.exponent + 1) := by
  obtain ⟨k, hk'⟩ : ∃ k : Nat, (k : Int) = b.exponent + 1 - a.exponent := ⟨(b.exponent + 1 - a.exponent).toNat, by omega⟩
  have hr : ∀ (d j : Nat), 1 ≤ j → d + 5 < 2 ^ 64 → roundDiv d j < 2 ^ 62 := by
    intro d j hj hd
    obtain ⟨j, rfl⟩ : ∃ i, j = i + 1 := ⟨j - 1, by omega⟩
    show (d + 5 * 10 ^ j) / 10 ^ (j + 1) < _
    have hp : 0 < 10 ^ j := Nat.pow_pos (by decide)
    rw [Nat.div_lt_iff_lt_mul (Nat.pow_pos (by decide)), Nat.pow_succ]
    have : d + 5 < 2 ^ 64 * 10 ^ j := by
      refine Nat.lt_of_lt_of_le hd (Nat.le_mul_of_pos_right _ hp)
    omega
  have h1 := hr a.digits k (by omega) ha
  have h2 := hr b.digits 1 (by omega) hb
  refine ⟨k, hk', by omega, by omega, ?_⟩
  have hal : align w a b = .ok (⟨roundDiv a.digits k, b.exponent + 1⟩, ⟨roundDiv b.digits 1, b.exponent + 1⟩) := by
    rw [align, if_neg (by omega)]
    by_cases hlt : a.exponent < b.exponent
    · rw [if_pos hlt, int32_ok (by omega) (by omega), Outcome.bind_ok,
        show b.exponent + 1 = a.exponent + (k : Int) by omega,
        raiseTo_spec hw k 25 a (by omega) (by omega) ha (by omega) (by omega) (by omega), Outcome.bind_ok,
        raise_spec hw hb (by omega) (by omega), Outcome.bind_ok,
        show a.exponent + (k : Int) = b.exponent + 1 by omega]
      rfl
    · obtain rfl : k = 1 := by omega
      rw [if_neg hlt, raise_spec hw ha (by omega) (by omega), Outcome.bind_ok,
        raise_spec hw hb (by omega) (by omega), Outcome.bind_ok,
        show a.exponent = b.exponent by omega]
      rfl
  rw [add, hal, Outcome.bind_ok]
  show make w (w (roundDiv a.digits k + roundDiv b.digits 1)) (b.exponent + 1) = _
  rw [hw _ (by omega)]

/-- Adding to zero. -/
theorem add_zero_spec {w : Nat → Nat} (hw : Stores w) {b : Fixed} (hb : b.digits + 5 < 2 ^ 64)
    (heb : -1000 ≤ b.exponent) (heb' : b.exponent ≤ 1000) :
    add w ⟨0, -2 ^ 31⟩ b = make w (roundDiv b.digits 1) (b.exponent + 1) := by
  rw [add, align]
  dsimp only
  rw [if_neg (by omega), if_pos (by omega), int32_ok (by omega) (by omega), Outcome.bind_ok,
    raiseTo_zero, Outcome.bind_ok, raise_spec hw hb (by omega) (by omega), Outcome.bind_ok]
  show make w (w (0 + roundDiv b.digits 1)) (b.exponent + 1) = _
  rw [Nat.zero_add, hw]
  show (b.digits + 5 * 10 ^ 0) / 10 ^ 1 < 2 ^ 64
  omega

/-! ## Multiplication -/

/-- The digits of a product, without storing anything. -/
def product (a b : Nat) : Nat :=
  upper a * upper b +
    ((lower a * upper b + 5) / 10 + (lower b * upper a + 5) / 10 + 500000000) / 1000000000

theorem mulDigits_spec {w : Nat → Nat} (hw : Stores w) {a b : Nat} (ha : a < 2 ^ 64) (hb : b < 2 ^ 64) :
    mulDigits w a b = product a b ∧ product a b < 2 ^ 62 := by
  have la : lower a ≤ 9999999999 := by unfold lower; omega
  have lb : lower b ≤ 9999999999 := by unfold lower; omega
  have ua : upper a ≤ 1844674407 := by unfold upper; omega
  have ub : upper b ≤ 1844674407 := by unfold upper; omega
  have h1 : lower a * upper b ≤ 9999999999 * 1844674407 := Nat.mul_le_mul la ub
  have h2 : lower b * upper a ≤ 9999999999 * 1844674407 := Nat.mul_le_mul lb ua
  have h3 : upper a * upper b ≤ 1844674407 * 1844674407 := Nat.mul_le_mul ua ub
  unfold mulDigits product
  dsimp only
  rw [hw (lower a * upper b) (by omega), hw (lower a * upper b + 5) (by omega),
    hw (lower b * upper a) (by omega), hw (lower b * upper a + 5) (by omega),
    hw ((lower a * upper b + 5) / 10 + (lower b * upper a + 5) / 10) (by omega), hw (_ + 500000000) (by omega),
    hw (upper a * upper b) (by omega), hw _ (by omega)]
  exact ⟨rfl, by omega⟩

/-- How far the product of the digits is from the exact one. -/
theorem product_bounds (a b : Nat) :
    1000000000 * (a * b) ≤ 1000000000 * (100000000000000000000 * product a b) + 150000000200000000000000000000 ∧
    1000000000 * (100000000000000000000 * product a b) ≤ 1000000000 * (a * b) + 50000000100000000000000000000 := by
  have ha : a = 10000000000 * upper a + lower a := by unfold upper lower; omega
  have hb : b = 10000000000 * upper b + lower b := by unfold upper lower; omega
  have la : lower a ≤ 9999999999 := by unfold lower; omega
  have lb : lower b ≤ 9999999999 := by unfold lower; omega
  have hab : a * b = 100000000000000000000 * (upper a * upper b) +
      10000000000 * (lower a * upper b + lower b * upper a) + lower a * lower b := by
    conv => lhs; rw [ha, hb]
    simp only [Nat.mul_add, Nat.add_mul]
    have e1 : 10000000000 * upper a * (10000000000 * upper b) = 100000000000000000000 * (upper a * upper b) := by
      rw [Nat.mul_mul_mul_comm]
    have e2 : lower a * (10000000000 * upper b) = 10000000000 * (lower a * upper b) := Nat.mul_left_comm ..
    have e3 : 10000000000 * upper a * lower b = 10000000000 * (lower b * upper a) := by
      rw [Nat.mul_assoc, Nat.mul_comm (upper a)]
    rw [e1, e2, e3]
    omega
  have hll : lower a * lower b ≤ 9999999999 * 9999999999 := Nat.mul_le_mul la lb
  rw [hab]
  unfold product
  generalize lower a * upper b = p
  generalize lower b * upper a = q
  generalize upper a * upper b = r
  generalize lower a * lower b = s at hll ⊢
  omega

theorem product_large {a b : Nat} (ha : cap ≤ a) (hb : cap ≤ b) : 34028236420153600 ≤ product a b := by
  have hcap := cap_eq
  have ua : 184467440 ≤ upper a := by unfold upper; omega
  have ub : 184467440 ≤ upper b := by unfold upper; omega
  have := Nat.mul_le_mul ua ub
  unfold product
  omega

theorem mul_spec {w : Nat → Nat} (hw : Stores w) {a b : Fixed} (ha : a.digits < 2 ^ 64)
    (hb : b.digits < 2 ^ 64) (hea : -1000 ≤ a.exponent) (hea' : a.exponent ≤ 1000)
    (heb : -1000 ≤ b.exponent) (heb' : b.exponent ≤ 1000) :
    mul w a b = make w (product a.digits b.digits) (a.exponent + b.exponent + 20) := by
  rw [mul, int32_ok (by omega) (by omega), Outcome.bind_ok, int32_ok (by omega) (by omega), Outcome.bind_ok,
    (mulDigits_spec hw ha hb).1]

end Verif.Float
