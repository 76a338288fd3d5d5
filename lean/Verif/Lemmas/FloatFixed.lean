import Verif.Lemmas.FloatPower
import Verif.Spec.Float
/-!
# Conversion of a floating-point number to a decimal number
-/
namespace Verif.Float
open Verif

/-- What is needed of a format. -/
structure Good (fmt : Format) : Prop where
  length : fmt.elems.length = fmt.sigBits
  elems : goodElems fmt.sigBits 0 fmt.elems = true
  one : goodElem fmt.sigBits fmt.sigBits (1, 0) = true
  exp : 2 ≤ fmt.expBits ∧ fmt.expBits ≤ 11
  origin : fmt.origin = -(2 ^ (fmt.expBits - 1) - 1)
  powers : treeOk false (mulTable.take (fmt.expBits - 1)) 0 1 ⟨10 ^ 19, -19⟩ = true
  inverses : treeOk true (divTable.take (fmt.expBits - 1)) 0 1 ⟨10 ^ 19, -19⟩ = true

theorem good32 : Good binary32 :=
  ⟨by decide, goodElems_binary32, goodElem_one32, by decide, by decide, powers32, powers32_inverse⟩
theorem good64 : Good binary64 :=
  ⟨by decide, goodElems_binary64, goodElem_one64, by decide, by decide, powers64, powers64_inverse⟩

/-- The relative error of the conversion before the last multiplication. -/
abbrev relError : ℚ := 295 / 10 ^ 19

theorem mul_close {a b A B : ℚ} (hA : 0 ≤ A) (hB : 0 ≤ B) (ha : |a - A| ≤ sumError * A) (hb : |b - B| ≤ powerError * B) :
    |a * b - A * B| ≤ relError * (A * B) := by
  have e : a * b - A * B = (a - A) * (b - B) + ((a - A) * B + A * (b - B)) := by ring
  rw [e]
  have h1 := abs_add_le ((a - A) * (b - B)) ((a - A) * B + A * (b - B))
  have h2 := abs_add_le ((a - A) * B) (A * (b - B))
  rw [abs_mul] at h1
  rw [abs_mul, abs_mul, abs_of_nonneg hA, abs_of_nonneg hB] at h2
  have h3 : |a - A| * |b - B| ≤ (sumError * A) * (powerError * B) :=
    mul_le_mul ha hb (abs_nonneg _) (le_trans (abs_nonneg _) ha)
  have h4 : |a - A| * B ≤ sumError * A * B := mul_le_mul_of_nonneg_right ha hB
  have h5 : A * |b - B| ≤ A * (powerError * B) := mul_le_mul_of_nonneg_left hb hA
  have hAB : 0 ≤ A * B := mul_nonneg hA hB
  unfold relError sumError powerError at *
  norm_num at *
  nlinarith

/-- What `toFixed` computes: independent of how numbers are stored, and close to the exact value. -/
theorem toFixed_all {fmt : Format} (hf : Good fmt) {bits : Bits} (hs : bits.significand < 2 ^ fmt.sigBits)
    (he : bits.exponent < 2 ^ fmt.expBits - 1) (hz : bits.significand ≠ 0 ∨ bits.exponent ≠ 0) :
    ∃ r : Fixed, (∀ w, Stores w → toFixed w fmt bits = .ok ⟨r.digits, r.exponent, bits.sign⟩) ∧
      Normal (-400) 400 r ∧
      let v : ℚ := ((bits.significand + if bits.exponent = 0 then 0 else 2 ^ fmt.sigBits : ℕ) : ℚ) / 2 ^ fmt.sigBits *
        2 ^ binaryExponent fmt bits
      |val r - v| ≤ 151 * 10 ^ r.exponent + relError * v := by
  obtain ⟨a, h1, h2, h3⟩ := toSignificand_all hf.length hf.elems hf.one hs hz
  have hexp := hf.exp
  have hpow : 2 ^ fmt.expBits = 2 * 2 ^ (fmt.expBits - 1) := by
    rw [← Nat.pow_succ']; congr 1; omega
  have horig := hf.origin
  generalize hm : (((bits.significand + if bits.exponent = 0 then 0 else 2 ^ fmt.sigBits : ℕ) : ℚ) /
    2 ^ fmt.sigBits) = M at *
  have hM : 0 ≤ M := by rw [← hm]; positivity
  have key : ∀ (inverse : Bool) (table : List (ℕ × ℤ)) (x : ℕ), table.length = fmt.expBits - 1 →
      (∀ t ∈ table, t.1 < 2 ^ 64) → treeOk inverse table 0 1 ⟨10 ^ 19, -19⟩ = true → x < 2 ^ (fmt.expBits - 1) →
      ∃ r, (∀ w, Stores w → ∃ o p, make w 1 0 = .ok o ∧ powerLoop w x table 0 o = .ok p ∧ mul w a p = .ok r) ∧
        Normal (-400) 400 r ∧
        |val r - M * target inverse (2 ^ x)| ≤ 151 * 10 ^ r.exponent + relError * (M * target inverse (2 ^ x)) := by
    intro inverse table x hl ht hok hx
    obtain ⟨p, p1, p2, p3⟩ := power_all ht hok (x := x) (by rw [hl]; exact hx)
    obtain ⟨r, r1, r2, r3⟩ := mul_all h2 p2 (by decide) (by decide) (by decide) (by decide)
    refine ⟨r, ?_, ⟨r2.large, r2.small, by have := r2.lo; omega, by have := r2.hi; omega⟩, ?_⟩
    · intro w hw
      obtain ⟨one, ho, hp⟩ := bind_eq_ok (p1 w hw)
      exact ⟨one, p, ho, hp, r1 w hw⟩
    · have hT : 0 ≤ target inverse (2 ^ x) := by
        unfold target; split <;> positivity
      have := mul_close hM hT h3 p3
      have t := abs_sub_le (val r) (val a * val p) (M * target inverse (2 ^ x))
      linarith
  have hneg : ∀ t ∈ divTable.take (fmt.expBits - 1), t.1 < 2 ^ 64 := fun t ht =>
    (by decide : ∀ t ∈ divTable, t.1 < 2 ^ 64) t (List.mem_of_mem_take ht)
  have hposi : ∀ t ∈ mulTable.take (fmt.expBits - 1), t.1 < 2 ^ 64 := fun t ht =>
    (by decide : ∀ t ∈ mulTable, t.1 < 2 ^ 64) t (List.mem_of_mem_take ht)
  have hl1 : (mulTable.take (fmt.expBits - 1)).length = fmt.expBits - 1 := by
    rw [List.length_take, show mulTable.length = 10 by decide]; omega
  have hl2 : (divTable.take (fmt.expBits - 1)).length = fmt.expBits - 1 := by
    rw [List.length_take, show divTable.length = 10 by decide]; omega
  have hp1 : 2 ≤ 2 ^ (fmt.expBits - 1) := by
    have : 2 ^ 1 ≤ 2 ^ (fmt.expBits - 1) := Nat.pow_le_pow_right (by decide) (by omega)
    omega
  have horig' : fmt.origin = 1 - ((2 ^ (fmt.expBits - 1) : ℕ) : ℤ) := by rw [horig]; push_cast; ring
  generalize hN : 2 ^ (fmt.expBits - 1) = N at *
  have hrange : binaryExponent fmt bits < N ∧ -(N : ℤ) < binaryExponent fmt bits := by
    unfold binaryExponent
    split <;> omega
  generalize hE : binaryExponent fmt bits = E at *
  rcases lt_trichotomy E 0 with hlt | heq | hgt
  · obtain ⟨r, k1, k2, k3⟩ := key true _ (-E).toNat hl2 hneg hf.inverses (by omega)
    refine ⟨r, ?_, k2, ?_⟩
    · intro w hw
      unfold toFixed
      rw [h1 w hw, Outcome.bind_ok, hE]
      dsimp only
      rw [if_neg (by omega), if_pos hlt]
      unfold applyExponent
      obtain ⟨o, p, e1, e2, e3⟩ := k1 w hw
      rw [e1, Outcome.bind_ok, e2, Outcome.bind_ok, e3]
      rfl
    · have : target true ((2 : ℚ) ^ (-E).toNat) = 2 ^ E := by
        rw [target, if_pos rfl, ← zpow_natCast, show ((-E).toNat : ℤ) = -E by omega, zpow_neg, one_div, inv_inv]
      rw [this] at k3
      exact k3
  · refine ⟨a, ?_, ⟨h2.large, h2.small, by have := h2.lo; omega, by have := h2.hi; omega⟩, ?_⟩
    · intro w hw
      unfold toFixed
      rw [h1 w hw, Outcome.bind_ok, hE]
      dsimp only
      rw [if_neg (by omega), if_neg (by omega)]
      rfl
    · subst heq
      have := ten_pow_pos a.exponent
      simp only [zpow_zero, mul_one]
      have : sumError * M ≤ relError * M := mul_le_mul_of_nonneg_right (by norm_num) hM
      linarith
  · obtain ⟨r, k1, k2, k3⟩ := key false _ E.toNat hl1 hposi hf.powers (by omega)
    refine ⟨r, ?_, k2, ?_⟩
    · intro w hw
      unfold toFixed
      rw [h1 w hw, Outcome.bind_ok, hE]
      dsimp only
      rw [if_pos hgt]
      unfold applyExponent
      obtain ⟨o, p, e1, e2, e3⟩ := k1 w hw
      rw [e1, Outcome.bind_ok, e2, Outcome.bind_ok, e3]
      rfl
    · have : target false ((2 : ℚ) ^ E.toNat) = 2 ^ E := by
        rw [target, if_neg (by decide), ← zpow_natCast, show (E.toNat : ℤ) = E by omega]
      rw [this] at k3
      exact k3

end Verif.Float
