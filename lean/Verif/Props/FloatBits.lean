import Verif.Lemmas.FloatBits
import Verif.Props.Float
/-!
# Taking a floating-point number apart without `std::bit_cast` (C56)
-/
namespace Verif.Props
open Verif Verif.Spec SV Verif.Float

/-- What a program can tell, by computing with it, about the number that a bit pattern stands for. -/
def Stands (b : Binary) (pattern : ℕ) : Number → Prop
  | .nan => b.IsNan pattern
  | .infinite negative => b.IsInfinite pattern ∧ negative = b.negative pattern
  | .finite value => b.Finite pattern ∧ value = b.value pattern

/-- Every pattern stands for a number. -/
theorem stands_exists (b : Binary) (pattern : ℕ) : ∃ x, Stands b pattern x := by
  have : b.biased pattern < 2 ^ b.exponentBits := Nat.mod_lt _ (Nat.pow_pos (by decide))
  by_cases h : b.Finite pattern
  · exact ⟨.finite _, h, rfl⟩
  · unfold Binary.Finite at h
    by_cases h0 : b.fraction pattern = 0
    · exact ⟨.infinite _, ⟨by omega, h0⟩, rfl⟩
    · exact ⟨.nan, by omega, h0⟩

theorem value_neg {b : Binary} {pattern : ℕ} (hz : ¬(b.IsZero pattern ∧ b.negative pattern = true)) :
    decide (b.value pattern < 0) = b.negative pattern := by
  have hn := magnitude_nonneg b pattern
  unfold Binary.value
  cases h : b.negative pattern
  · simpa using hn
  · have : b.magnitude pattern ≠ 0 := fun h0 => hz ⟨magnitude_zero.1 h0, h⟩
    have : 0 < b.magnitude pattern := lt_of_le_of_ne hn this.symm
    simpa using this

theorem value_abs (b : Binary) (pattern : ℕ) :
    (if b.value pattern < 0 then -b.value pattern else b.value pattern) = b.magnitude pattern := by
  have hn := magnitude_nonneg b pattern
  unfold Binary.value
  cases h : b.negative pattern
  · simp [not_lt.2 hn]
  · by_cases h0 : b.magnitude pattern = 0
    · simp [h0]
    · have : 0 < b.magnitude pattern := lt_of_le_of_ne hn (Ne.symm h0)
      simp [this]

/-- A finite number, taken apart. -/
theorem arithmetic_finite {fmt : Format} {b : Binary} (h : Same fmt b) {rnd : ℚ → ℚ} (hr : Exact b rnd) {pattern : ℕ}
    (hf : b.Finite pattern) :
    toBitsArithmetic rnd fmt (.finite (b.value pattern)) =
      some (.ok ⟨b.fraction pattern, b.biased pattern, decide (b.value pattern < 0)⟩) := by
  obtain ⟨f, h1, h2⟩ := normalise_eq h hr hf
  rw [toBitsArithmetic, value_abs, h1]
  simp only [Option.map_some, h2]
  rfl

/-- C56: both ways of taking a number apart give the same bits, for every number but negative zero. What is not
a number has many bit patterns, of which one is chosen. -/
theorem C56_same_bits {fmt : Format} {b : Binary} (h : Same fmt b) {rnd : ℚ → ℚ} (hr : Exact b rnd) {pattern : ℕ}
    {x : Number} (hx : Stands b pattern x) (hn : ¬b.IsNan pattern)
    (hz : ¬(b.IsZero pattern ∧ b.negative pattern = true)) :
    toBitsArithmetic rnd fmt x = some (.ok (toBits fmt pattern)) := by
  rw [toBits_eq h]
  obtain ⟨h1, h2⟩ := h.bits
  cases x with
  | nan => exact absurd hx hn
  | infinite negative =>
    obtain ⟨⟨h3, h4⟩, h5⟩ := hx
    rw [toBitsArithmetic, h3, h4, h5, h2]
  | finite value =>
    obtain ⟨hf, rfl⟩ := hx
    rw [arithmetic_finite h hr hf, value_neg hz]

/-- C56: the same text is written. -/
theorem C56_same_text {fmt : Format} {b : Binary} (h : Same fmt b) {rnd : ℚ → ℚ} (hr : Exact b rnd) {pattern : ℕ}
    {x : Number} (hx : Stands b pattern x) (hz : ¬(b.IsZero pattern ∧ b.negative pattern = true)) :
    ∃ bits, toBitsArithmetic rnd fmt x = some (.ok bits) ∧
      ∀ w ss precision, appendBits w fmt ss bits precision = appendFloat w fmt ss pattern precision := by
  by_cases hn : b.IsNan pattern
  · cases x with
    | infinite negative => exact absurd hx.1.2 hn.2
    | finite value =>
      have := hx.1
      unfold Binary.Finite at this
      have := hn.1
      omega
    | nan =>
      refine ⟨_, rfl, ?_⟩
      intro w ss precision
      obtain ⟨h1, h2⟩ := h.bits
      obtain ⟨n1, n2, _⟩ := h.numbers
      have h4 : (4 : ℕ) ≤ 2 ^ b.exponentBits := by
        calc 4 = 2 ^ 2 := rfl
          _ ≤ _ := Nat.pow_le_pow_right (by decide) n1
      have hne : (2 : ℕ) ^ (fmt.sigBits - 1) ≠ 0 := Nat.pow_pos (n := fmt.sigBits - 1) (by decide : 0 < 2) |>.ne'
      unfold appendFloat appendBits
      rw [toBits_eq h, hn.1, h2]
      dsimp only
      rw [if_neg (by omega), if_pos rfl, if_neg hne, if_neg (by omega), if_pos rfl, if_neg hn.2]
  · exact ⟨_, C56_same_bits h hr hx hn hz, fun _ _ _ => rfl⟩

/-- C56 asks for another number than negative zero: without `std::bit_cast` the sign is lost, and `0.` is written
instead of `-0.`. -/
theorem C56_not_negative_zero {fmt : Format} {b : Binary} (h : Same fmt b) {rnd : ℚ → ℚ} (hr : Exact b rnd)
    {pattern : ℕ} {x : Number} (hx : Stands b pattern x) (hz : b.IsZero pattern) (hneg : b.negative pattern = true) :
    toBitsArithmetic rnd fmt x = some (.ok ⟨0, 0, false⟩) ∧ toBits fmt pattern = ⟨0, 0, true⟩ := by
  obtain ⟨n1, n2, _⟩ := h.numbers
  have h4 : (4 : ℕ) ≤ 2 ^ b.exponentBits := by
    calc 4 = 2 ^ 2 := rfl
      _ ≤ _ := Nat.pow_le_pow_right (by decide) n1
  constructor
  · cases x with
    | nan => exact absurd hz.2 hx.2
    | infinite negative => have h1 := hx.1.1; have h2 := hz.1; omega
    | finite value =>
      obtain ⟨hf, rfl⟩ := hx
      rw [arithmetic_finite h hr hf, hz.1, hz.2]
      have : b.value pattern = 0 := by
        unfold Binary.value
        rw [magnitude_zero.2 hz]; simp
      simp [this]
  · rw [toBits_eq h, hz.1, hz.2, hneg]

/-- The text for a number taken apart without `std::bit_cast` and without rounding. -/
def shownArithmetic (fmt : Format) (x : Number) (precision : ℕ) : Option String :=
  match toBitsArithmetic id fmt x with
  | some (.ok bits) => (appendBits word64 fmt (SV.empty 40 ' ') bits precision).bind shown
  | _ => none

theorem C56_negative_zero_text :
    shownArithmetic binary64 (.finite 0) 3 = some "0.00e+00" ∧
      (appendFloat word64 binary64 (SV.empty 40 ' ') (2 ^ 63) 3).bind shown = some "-0.00e+00" := by
  constructor <;> decide +kernel

-- no rounding at all
example : Exact double id := fun _ _ => rfl
-- rounding that makes zero of everything that cannot be represented
open Classical in
example : Exact double fun q => if ∃ p, double.Finite p ∧ double.magnitude p = q then q else 0 :=
  fun p hp => if_pos ⟨p, hp, rfl⟩
example : Stands double 0xC029000000000000 (.finite (-25 / 2)) := by
  refine ⟨by unfold Binary.Finite; decide, ?_⟩
  norm_num [Binary.value, Binary.magnitude, Binary.negative, Binary.biased, Binary.fraction, double]
example : ¬double.IsNan 0xC029000000000000 ∧
    ¬(double.IsZero 0xC029000000000000 ∧ double.negative 0xC029000000000000 = true) := by
  constructor
  · rintro ⟨h, _⟩; exact absurd h (by decide)
  · rintro ⟨⟨h, _⟩, _⟩; exact absurd h (by decide)
example : shownArithmetic binary64 (.finite (-25 / 2)) 3 = some "-1.25e+01" := by decide +kernel
example : Stands double (2 ^ 63) (.finite 0) ∧ double.IsZero (2 ^ 63) ∧ double.negative (2 ^ 63) = true := by
  refine ⟨⟨by unfold Binary.Finite; decide, ?_⟩, ⟨by decide, by decide⟩, by decide⟩
  norm_num [Binary.value, Binary.magnitude, Binary.negative, Binary.biased, Binary.fraction, double]
example : Stands single 0x7fc00001 .nan := ⟨by decide, by decide⟩

end Verif.Props
