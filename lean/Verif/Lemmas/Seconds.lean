import Mathlib.Tactic.Linarith
import Mathlib.Tactic.Positivity
import Mathlib.Tactic.FieldSimp
import Mathlib.Tactic.NormNum
import Mathlib.Tactic.Ring
import Verif.Model.Timing
import Verif.Spec.Rounding
import Verif.Lemmas.FloatBits
/-! # Seconds and microseconds of spans of time -/
namespace Verif.Timing
open Verif.Spec

theorem ticks_eq {start stop : ℕ} (h : start ≤ stop) (hb : stop < 2 ^ 63) : ticks start stop = ((stop - start : ℕ) : ℤ) := by
  unfold ticks
  dsimp only
  have h1 : (stop + 2 ^ 64 - start) % 2 ^ 64 = stop - start := by
    rw [show stop + 2 ^ 64 - start = (stop - start) + 2 ^ 64 by omega, Nat.add_mod_right]
    exact Nat.mod_eq_of_lt (by omega)
  rw [h1, if_pos (by omega)]

theorem magnitude_normal {p e f : ℕ} (hp : p = e * 2 ^ 23 + f) (he : 0 < e) (he' : e < 255) (hf : f < 2 ^ 23) :
    single.Finite p ∧ single.magnitude p = (1 + (f : ℚ) / 2 ^ 23) * 2 ^ ((e : ℤ) - 127) := by
  have h1 : single.biased p = e := by
    show p / 2 ^ 23 % 2 ^ 8 = e
    rw [hp, Nat.mul_comm, Nat.mul_add_div (by norm_num), Nat.div_eq_of_lt hf, Nat.add_zero]
    exact Nat.mod_eq_of_lt (by omega)
  have h2 : single.fraction p = f := by
    show p % 2 ^ 23 = f
    rw [hp, Nat.mul_comm, Nat.mul_add_mod, Nat.mod_eq_of_lt hf]
  constructor
  · unfold Binary.Finite
    rw [h1]
    exact he'
  · unfold Binary.magnitude
    dsimp only
    rw [h1, h2, if_neg (by omega)]
    rfl

variable {rnd : ℚ → ℚ}

theorem rnd_zero (hr : Rounds rnd) : rnd 0 = 0 := by
  have := hr.exact 0 (by unfold Binary.Finite; decide)
  have h0 : single.magnitude 0 = 0 := by
    unfold Binary.magnitude
    rw [if_pos (by decide)]
    simp [Binary.fraction]
  rw [h0] at this
  exact this

theorem rnd_one (hr : Rounds rnd) : rnd 1 = 1 := by
  obtain ⟨h1, h2⟩ := magnitude_normal (p := 127 * 2 ^ 23) (e := 127) (f := 0) rfl (by norm_num) (by norm_num) (by norm_num)
  have := hr.exact _ h1
  rw [h2] at this
  norm_num at this
  exact this

theorem rnd_billion (hr : Rounds rnd) : rnd 1000000000 = 1000000000 := by
  obtain ⟨h1, h2⟩ := magnitude_normal (p := 156 * 2 ^ 23 + 7236392) (e := 156) (f := 7236392) rfl (by norm_num) (by norm_num)
    (by norm_num)
  have := hr.exact _ h1
  rw [h2] at this
  norm_num at this
  exact this

theorem rnd_million (hr : Rounds rnd) : rnd 1000000 = 1000000 := by
  obtain ⟨h1, h2⟩ := magnitude_normal (p := 146 * 2 ^ 23 + 7611392) (e := 146) (f := 7611392) rfl (by norm_num) (by norm_num)
    (by norm_num)
  have := hr.exact _ h1
  rw [h2] at this
  norm_num at this
  exact this

theorem rnd_nonneg (hr : Rounds rnd) {a : ℚ} (h : 0 ≤ a) : 0 ≤ rnd a := by
  have := hr.mono 0 a (le_refl _) h
  rw [rnd_zero hr] at this
  exact this

theorem seconds_eq (hr : Rounds rnd) {start stop : ℕ} (h : start ≤ stop) (hb : stop < 2 ^ 63) :
    seconds rnd start stop = rnd (rnd ((stop - start : ℕ) : ℚ) / 1000000000) := by
  unfold seconds
  rw [ticks_eq h hb, rnd_billion hr]
  norm_cast

theorem seconds_nonneg (hr : Rounds rnd) {start stop : ℕ} (h : start ≤ stop) (hb : stop < 2 ^ 63) :
    0 ≤ seconds rnd start stop := by
  rw [seconds_eq hr h hb]
  have : 0 ≤ rnd ((stop - start : ℕ) : ℚ) := rnd_nonneg hr (by positivity)
  exact rnd_nonneg hr (by positivity)

/-- A longer time is not told as a shorter one. -/
theorem seconds_mono (hr : Rounds rnd) {start stop start' stop' : ℕ} (h : start ≤ stop) (hb : stop < 2 ^ 63)
    (h' : start' ≤ stop') (hb' : stop' < 2 ^ 63) (hle : stop - start ≤ stop' - start') :
    seconds rnd start stop ≤ seconds rnd start' stop' := by
  rw [seconds_eq hr h hb, seconds_eq hr h' hb']
  have h0 : 0 ≤ rnd ((stop - start : ℕ) : ℚ) := rnd_nonneg hr (by positivity)
  refine hr.mono _ _ (by positivity) (div_le_div_of_nonneg_right ?_ (by norm_num))
  exact hr.mono _ _ (by positivity) (by exact_mod_cast hle)

/-- The seconds told are the seconds passed, to seven digits. -/
theorem seconds_near (hr : Rounds rnd) {start stop : ℕ} (h : start ≤ stop) (hb : stop < 2 ^ 63) :
    |seconds rnd start stop - ((stop : ℚ) - start) / 10 ^ 9| ≤ ((stop : ℚ) - start) / 10 ^ 9 / 8388607 := by
  rw [seconds_eq hr h hb]
  have hn : ((stop - start : ℕ) : ℚ) = (stop : ℚ) - start := by push_cast [Nat.cast_sub h]; ring
  rw [← hn]
  generalize hk : stop - start = k
  rcases Nat.eq_zero_or_pos k with rfl | hpos
  · simp [rnd_zero hr]
  have hk1 : (1 : ℚ) ≤ k := by exact_mod_cast hpos
  have hkb : (k : ℚ) < 2 ^ 63 := by exact_mod_cast (by omega : k < 2 ^ 63)
  have e1 := hr.near k (le_trans (by norm_num) hk1) (lt_of_lt_of_le hkb (by norm_num))
  rw [abs_le] at e1
  obtain ⟨a1, a2⟩ := e1
  generalize rnd k = x at a1 a2 ⊢
  have hx : (k : ℚ) / 2 ≤ x := by
    have : (k : ℚ) / 2 ^ 24 ≤ k / 2 := div_le_div_of_nonneg_left (by positivity) (by norm_num) (by norm_num)
    linarith
  have hx2 : x ≤ 2 * k := by
    have : (k : ℚ) / 2 ^ 24 ≤ k := div_le_self (by positivity) (by norm_num)
    linarith
  have e2 := hr.near (x / 1000000000) (by rw [le_div_iff₀ (by norm_num)]; norm_num; linarith)
    (by rw [div_lt_iff₀ (by norm_num)]; norm_num; linarith)
  rw [abs_le] at e2 ⊢
  obtain ⟨b1, b2⟩ := e2
  generalize rnd (x / 1000000000) = y at b1 b2 ⊢
  constructor
  · norm_num at *
    linarith
  · norm_num at *
    linarith

/-- The number of microseconds the TeamCity reporter makes of the seconds. -/
theorem micros_near (hr : Rounds rnd) {start stop : ℕ} (h : start ≤ stop) (hb : stop < 2 ^ 63) :
    ∃ m, micros rnd (seconds rnd start stop) = .ok m ∧
      |(m : ℚ) - ((stop : ℚ) - start) / 10 ^ 3| ≤ 1 + ((stop : ℚ) - start) / 10 ^ 3 / 5000000 := by
  have hs := seconds_near hr h hb
  have h0 := seconds_nonneg hr h hb
  have hd0 : (0 : ℚ) ≤ (stop : ℚ) - start := by
    have : (start : ℚ) ≤ stop := by exact_mod_cast h
    linarith
  have hdb : (stop : ℚ) - start < 2 ^ 63 := by
    have h1 : (stop : ℚ) < 2 ^ 63 := by exact_mod_cast hb
    have h2 : (0 : ℚ) ≤ start := by positivity
    linarith
  have hz : stop = start → seconds rnd start stop = 0 := by
    intro e
    rw [seconds_eq hr h hb, e, Nat.sub_self]
    norm_num [rnd_zero hr]
  have hpos : stop ≠ start → (1 : ℚ) ≤ (stop : ℚ) - start := by
    intro e
    have : start + 1 ≤ stop := by omega
    have : (start : ℚ) + 1 ≤ stop := by exact_mod_cast this
    linarith
  generalize (stop : ℚ) - start = d at *
  generalize seconds rnd start stop = s at *
  have key : ∃ x, rnd (s * 1000000) = x ∧ 0 ≤ x ∧ |x - d / 10 ^ 3| ≤ d / 10 ^ 3 / 5000000 := by
    refine ⟨_, rfl, rnd_nonneg hr (by positivity), ?_⟩
    by_cases e : stop = start
    · rw [hz e] at hs ⊢
      rw [zero_mul, rnd_zero hr]
      rw [abs_le] at hs ⊢
      norm_num at *
      constructor <;> linarith
    · have hd1 := hpos e
      rw [abs_le] at hs
      obtain ⟨b1, b2⟩ := hs
      have e2 := hr.near (s * 1000000) (by norm_num at *; linarith) (by norm_num at *; linarith)
      rw [abs_le] at e2 ⊢
      obtain ⟨c1, c2⟩ := e2
      generalize rnd (s * 1000000) = y at c1 c2 ⊢
      constructor
      · norm_num at *
        linarith
      · norm_num at *
        linarith
  obtain ⟨x, hx, hx0, hxn⟩ := key
  unfold micros
  dsimp only
  rw [rnd_million hr, hx]
  rw [abs_le] at hxn
  obtain ⟨f1, f2⟩ := hxn
  have hxb : x < 2 ^ 64 := by norm_num at *; linarith
  rw [if_pos ⟨by linarith, hxb⟩]
  refine ⟨_, rfl, ?_⟩
  have hfl0 : 0 ≤ x.floor := Rat.le_floor_iff.2 (by exact_mod_cast hx0)
  have hcast : ((x.floor.toNat : ℕ) : ℚ) = (x.floor : ℚ) := by
    have : ((x.floor.toNat : ℕ) : ℤ) = x.floor := Int.toNat_of_nonneg hfl0
    exact_mod_cast congrArg (Int.cast : ℤ → ℚ) this
  have g1 : (x.floor : ℚ) ≤ x := Rat.floor_le x
  have g2 : x < (x.floor : ℚ) + 1 := by
    have := Rat.lt_floor_add_one x
    exact_mod_cast this
  rw [hcast, abs_le]
  constructor <;> linarith

/-- One second. -/
theorem micros_second (hr : Rounds rnd) {start : ℕ} (hb : start + 10 ^ 9 < 2 ^ 63) :
    seconds rnd start (start + 10 ^ 9) = 1 ∧ micros rnd (seconds rnd start (start + 10 ^ 9)) = .ok 1000000 := by
  have h1 : seconds rnd start (start + 10 ^ 9) = 1 := by
    rw [seconds_eq hr (by omega) hb, Nat.add_sub_cancel_left]
    push_cast
    rw [rnd_billion hr, div_self (by norm_num), rnd_one hr]
  refine ⟨h1, ?_⟩
  rw [h1]
  unfold micros
  dsimp only
  rw [rnd_million hr, one_mul, rnd_million hr, if_pos (by norm_num)]
  congr 1

end Verif.Timing
