import Verif.Lemmas.FloatValue
/-!
# The significand: a sum over its bits
-/
namespace Verif.Float
open Verif

/-- The relative error of the sum, times `10 ^ 19`. -/
abbrev sumError : ℚ := 60 / 10 ^ 19

/-- The difference of two numbers. -/
def dist (a b : ℕ) : ℕ := (a - b) + (b - a)

theorem dist_abs (a b : ℕ) : ((dist a b : ℕ) : ℚ) = |(a : ℚ) - b| := by
  unfold dist
  rcases Nat.le_total a b with h | h
  · rw [Nat.sub_eq_zero_of_le h, Nat.zero_add, Nat.cast_sub h, abs_sub_comm, abs_of_nonneg]
    exact sub_nonneg.2 (by exact_mod_cast h)
  · rw [Nat.sub_eq_zero_of_le h, Nat.add_zero, Nat.cast_sub h, abs_of_nonneg]
    exact sub_nonneg.2 (by exact_mod_cast h)

/-- What has to hold of the element for bit `i` of a significand of `t` bits. -/
def goodElem (t i : ℕ) (p : ℕ × ℤ) : Bool :=
  decide (0 < p.1 ∧ p.1 < 2 ^ 64) &&
  match make id p.1 p.2 with
  | .ok ⟨d, e⟩ =>
    decide (cap ≤ d ∧ d + 5 < 2 ^ 64 ∧ -34 ≤ e ∧ e ≤ -19 ∧ i ≤ t ∧
      10 ^ 19 * (10 * 2 ^ (t - i) + dist (d * 2 ^ (t - i)) (10 ^ (-e).toNat)) ≤ 60 * 10 ^ (-e).toNat ∧
      (10 ^ 19 + 60) * 10 ^ (-e).toNat < 10 ^ 20 * cap * 2 ^ (t - i))
  | _ => false

/-- All elements, from bit `i` on. -/
def goodElems (t : ℕ) : ℕ → List (ℕ × ℤ) → Bool
  | _, [] => true
  | i, p :: ps => goodElem t i p && goodElems t (i + 1) ps

theorem goodElems_binary32 : goodElems 23 0 binary32.elems = true := by decide +kernel
theorem goodElems_binary64 : goodElems 52 0 binary64.elems = true := by decide +kernel
theorem goodElem_one32 : goodElem 23 23 (1, 0) = true := by decide +kernel
theorem goodElem_one64 : goodElem 52 52 (1, 0) = true := by decide +kernel

/-- An element as it is used. -/
structure Elem (t i : ℕ) (p : ℕ × ℤ) (x : Fixed) : Prop where
  made : ∀ w, Stores w → make w p.1 p.2 = .ok x
  normal : Normal (-34) (-19) x
  close : (10 : ℚ) ^ (x.exponent + 1) + |val x - 2 ^ i / 2 ^ t| ≤ sumError * (2 ^ i / 2 ^ t)
  order : (1 + sumError) * (2 ^ i / 2 ^ t) < cap * (10 : ℚ) ^ (x.exponent + 1)

theorem goodElem_spec {t i : ℕ} {p : ℕ × ℤ} (h : goodElem t i p = true) : ∃ x, Elem t i p x := by
  unfold goodElem at h
  rw [Bool.and_eq_true] at h
  obtain ⟨h0, h⟩ := h
  have h0 := of_decide_eq_true h0
  split at h
  rotate_left
  · cases h
  rename_i d e hm
  have h := of_decide_eq_true h
  obtain ⟨h1, h2, h3, h4, h5, h6, h7⟩ := h
  obtain ⟨n, hn⟩ : ∃ n : ℕ, e = -(n : ℤ) := ⟨(-e).toNat, by omega⟩
  rw [hn, neg_neg, Int.toNat_natCast] at h6 h7
  have ht : (2 : ℚ) ^ i / 2 ^ t = 1 / 2 ^ (t - i) := by
    have : (2 : ℚ) ^ t = 2 ^ i * 2 ^ (t - i) := by rw [← pow_add]; congr 1; omega
    rw [this]; field_simp
  have hv : (10 : ℚ) ^ (-(n : ℤ)) = 1 / 10 ^ n := by rw [zpow_neg, zpow_natCast, one_div]
  have hv' : (10 : ℚ) ^ (-(n : ℤ) + 1) = 10 / 10 ^ n := by
    rw [zpow_add₀ (by norm_num), hv, zpow_one]; ring
  have c6 : (10 : ℚ) ^ 19 * (10 * 2 ^ (t - i) + |(d : ℚ) * 2 ^ (t - i) - 10 ^ n|) ≤ 60 * 10 ^ n := by
    have := (Nat.cast_le (α := ℚ)).2 h6
    push_cast [dist_abs] at this
    exact this
  have c7 : ((10 : ℚ) ^ 19 + 60) * 10 ^ n < 10 ^ 20 * cap * 2 ^ (t - i) := by
    have := (Nat.cast_lt (α := ℚ)).2 h7
    push_cast at this
    norm_num at this ⊢
    exact this
  have hA : (0 : ℚ) < 10 ^ n := by positivity
  have hB : (0 : ℚ) < 2 ^ (t - i) := by positivity
  refine ⟨⟨d, e⟩, ?_, ⟨h1, h2, h3, h4⟩, ?_, ?_⟩
  · intro w hw
    rw [make_stores hw stores_id h0.2, hm]
  · rw [ht]
    unfold val
    simp only [hn, hv, hv']
    generalize (10 : ℚ) ^ n = A at *
    generalize (2 : ℚ) ^ (t - i) = B at *
    have e1 : (d : ℚ) * (1 / A) - 1 / B = (d * B - A) / (A * B) := by field_simp
    rw [e1, abs_div, abs_of_pos (mul_pos hA hB)]
    have e2 : 10 / A + |(d : ℚ) * B - A| / (A * B) = (10 * B + |(d : ℚ) * B - A|) / (A * B) := by field_simp
    have e3 : sumError * (1 / B) = (60 * A / 10 ^ 19) / (A * B) := by unfold sumError; field_simp
    rw [e2, e3]
    apply div_le_div_of_nonneg_right _ (mul_pos hA hB).le
    rw [le_div_iff₀ (by positivity)]
    linarith
  · rw [ht]
    simp only [hn, hv']
    generalize (10 : ℚ) ^ n = A at *
    generalize (2 : ℚ) ^ (t - i) = B at *
    have e1 : (1 + sumError) * (1 / B) = ((10 ^ 19 + 60) * A) / (10 ^ 19 * (A * B)) := by
      unfold sumError; field_simp
    have e2 : (cap : ℚ) * (10 / A) = (10 ^ 20 * cap * B) / (10 ^ 19 * (A * B)) := by field_simp
    rw [e1, e2]
    exact div_lt_div_of_pos_right c7 (by positivity)

/-- The partial sum `s` (times `2 ^ t`) of the significand, as it is represented. -/
def PartSum (t s : ℕ) (fix : Fixed) : Prop :=
  (s = 0 ∧ fix = ⟨0, -2 ^ 31⟩) ∨
  (0 < s ∧ Normal (-36) (-18) fix ∧ |val fix - s / 2 ^ t| ≤ sumError * (s / 2 ^ t))

/-- Adding an element. -/
theorem add_elem {t i s : ℕ} {p : ℕ × ℤ} {x fix : Fixed} (hx : Elem t i p x) (h : PartSum t s fix)
    (hs : s < 2 ^ i) :
    ∃ r, (∀ w, Stores w → (do add w fix (← make w p.1 p.2)) = .ok r) ∧ PartSum t (s + 2 ^ i) r := by
  have n := hx.normal
  have n1 := n.lo; have n2 := n.hi
  have hT : (0 : ℚ) < 2 ^ i / 2 ^ t := by positivity
  have hpos : 0 < s + 2 ^ i := by have := Nat.pow_pos (n := i) (show 0 < 2 by decide); omega
  have hc := hx.close
  have hle := abs_nonneg (val x - 2 ^ i / 2 ^ t)
  rcases h with ⟨rfl, rfl⟩ | ⟨h0, hn, he⟩
  · obtain ⟨r, h1, h2, h3⟩ := add_zero_all n.small n.large (by omega) (by omega)
    refine ⟨r, fun w hw => by rw [hx.made w hw]; exact h1 w hw, .inr ⟨hpos, ?_, ?_⟩⟩
    · exact ⟨h2.large, h2.small, by have := h2.lo; omega, by have := h2.hi; omega⟩
    · push_cast
      rw [zero_add]
      calc |val r - 2 ^ i / 2 ^ t| ≤ |val r - val x| + |val x - 2 ^ i / 2 ^ t| := abs_sub_le ..
        _ ≤ _ := by linarith
  · have m1 := hn.lo; have m2 := hn.hi
    have hsl : (s : ℚ) / 2 ^ t ≤ 2 ^ i / 2 ^ t := by
      apply div_le_div_of_nonneg_right _ (by positivity)
      exact_mod_cast hs.le
    have hord : fix.exponent ≤ x.exponent := by
      by_contra hlt
      have hlt : x.exponent + 1 ≤ fix.exponent := by omega
      have g1 : (10 : ℚ) ^ (x.exponent + 1) ≤ 10 ^ fix.exponent := zpow_le_zpow_right₀ (by norm_num) hlt
      have g2 : (cap : ℚ) ≤ fix.digits := by exact_mod_cast hn.large
      have g3 : (cap : ℚ) * 10 ^ (x.exponent + 1) ≤ val fix := by
        unfold val
        exact mul_le_mul g2 g1 (ten_pow_pos _).le (by positivity)
      have g4 := (abs_le.1 he).2
      have g5 := hx.order
      have : (1 + sumError) * ((s : ℚ) / 2 ^ t) ≤ (1 + sumError) * (2 ^ i / 2 ^ t) :=
        mul_le_mul_of_nonneg_left hsl (by unfold sumError; norm_num)
      linarith
    obtain ⟨r, h1, h2, h3⟩ := add_all hn.small n.small n.large (by omega) hord (by omega) (by omega)
    refine ⟨r, fun w hw => by rw [hx.made w hw]; exact h1 w hw, .inr ⟨hpos, ?_, ?_⟩⟩
    · exact ⟨h2.large, h2.small, by have := h2.lo; omega, by have := h2.hi; omega⟩
    · push_cast
      have e1 : ((s : ℚ) + 2 ^ i) / 2 ^ t = s / 2 ^ t + 2 ^ i / 2 ^ t := add_div ..
      rw [e1]
      have t1 : |val r - ((s : ℚ) / 2 ^ t + 2 ^ i / 2 ^ t)| ≤
          |val r - (val fix + val x)| + |(val fix - s / 2 ^ t) + (val x - 2 ^ i / 2 ^ t)| := by
        have := abs_add_le (val r - (val fix + val x)) ((val fix - s / 2 ^ t) + (val x - 2 ^ i / 2 ^ t))
        rwa [show val r - (val fix + val x) + ((val fix - s / 2 ^ t) + (val x - 2 ^ i / 2 ^ t)) =
          val r - ((s : ℚ) / 2 ^ t + 2 ^ i / 2 ^ t) by ring] at this
      have t2 := abs_add_le (val fix - s / 2 ^ t) (val x - 2 ^ i / 2 ^ t)
      linarith

/-- The loop. -/
theorem sumLoop_all {t sig : ℕ} : ∀ (ps : List (ℕ × ℤ)) (i : ℕ) (fix : Fixed),
    goodElems t i ps = true → PartSum t (sig % 2 ^ i) fix →
    ∃ r, (∀ w, Stores w → sumLoop w sig ps i fix = .ok r) ∧ PartSum t (sig % 2 ^ (i + ps.length)) r := by
  intro ps
  induction ps with
  | nil => intro i fix _ h; exact ⟨fix, fun _ _ => rfl, h⟩
  | cons p ps ih =>
    intro i fix hg h
    simp only [goodElems, Bool.and_eq_true] at hg
    obtain ⟨x, hx⟩ := goodElem_spec hg.1
    have hmod : sig % 2 ^ (i + 1) = sig % 2 ^ i + 2 ^ i * (sig / 2 ^ i % 2) := Nat.mod_pow_succ
    have hbit := Nat.testBit_eq_decide_div_mod_eq (x := sig) (i := i)
    have hlen : i + (p :: ps).length = i + 1 + ps.length := by simp; omega
    rw [hlen]
    by_cases hb : sig / 2 ^ i % 2 = 1
    · obtain ⟨r, h1, h2⟩ := add_elem hx h (Nat.mod_lt _ (Nat.pow_pos (by decide)))
      obtain ⟨r', h3, h4⟩ := ih (i + 1) r hg.2 (by rw [hmod, hb, Nat.mul_one]; exact h2)
      refine ⟨r', ?_, h4⟩
      intro w hw
      have h1 := h1 w hw
      have h3 := h3 w hw
      rw [hx.made w hw] at h1
      change add w fix x = .ok r at h1
      rw [sumLoop, hbit, hb]
      simp only [decide_true, if_true, hx.made w hw]
      change (add w fix x >>= fun a => sumLoop w sig ps (i + 1) a) = _
      rw [h1]
      exact h3
    · obtain ⟨r', h3, h4⟩ := ih (i + 1) fix hg.2 (by
        rw [hmod, show sig / 2 ^ i % 2 = 0 by omega, Nat.mul_zero, Nat.add_zero]; exact h)
      refine ⟨r', ?_, h4⟩
      intro w hw
      rw [sumLoop, hbit, decide_eq_false hb]
      exact h3 w hw

/-- The significand, with its hidden bit. -/
theorem toSignificand_all {fmt : Format} {bits : Bits} (hl : fmt.elems.length = fmt.sigBits)
    (hg : goodElems fmt.sigBits 0 fmt.elems = true)
    (hg1 : goodElem fmt.sigBits fmt.sigBits (1, 0) = true)
    (hs : bits.significand < 2 ^ fmt.sigBits) (hz : bits.significand ≠ 0 ∨ bits.exponent ≠ 0) :
    ∃ r, (∀ w, Stores w → toSignificand w fmt bits = .ok r) ∧ Normal (-36) (-18) r ∧
      |val r - ((bits.significand + if bits.exponent = 0 then 0 else 2 ^ fmt.sigBits : ℕ) : ℚ) / 2 ^ fmt.sigBits| ≤
        sumError * (((bits.significand + if bits.exponent = 0 then 0 else 2 ^ fmt.sigBits : ℕ) : ℚ) / 2 ^ fmt.sigBits) := by
  obtain ⟨r, h1, h2⟩ := sumLoop_all (t := fmt.sigBits) (sig := bits.significand) fmt.elems 0 ⟨0, -2 ^ 31⟩ hg
    (.inl ⟨by rw [Nat.pow_zero, Nat.mod_one], rfl⟩)
  rw [Nat.zero_add, hl, Nat.mod_eq_of_lt hs] at h2
  by_cases he : bits.exponent = 0
  · rcases h2 with ⟨h0, _⟩ | ⟨h0, h3, h4⟩
    · rcases hz with hz | hz <;> contradiction
    · refine ⟨r, ?_, h3, ?_⟩
      · intro w hw
        unfold toSignificand
        change (sumLoop w bits.significand fmt.elems 0 ⟨0, -2 ^ 31⟩ >>= fun fix =>
          if bits.exponent ≠ 0 then (do add w fix (← make w 1 0)) else return fix) = _
        rw [h1 w hw]
        change (if bits.exponent ≠ 0 then (do add w r (← make w 1 0)) else return r) = _
        rw [if_neg (by simp [he])]; rfl
      · rw [if_pos he, Nat.add_zero]
        exact h4
  · obtain ⟨x, hx⟩ := goodElem_spec hg1
    obtain ⟨r', h5, h6⟩ := add_elem hx h2 hs
    rcases h6 with ⟨h0, _⟩ | ⟨_, h7, h8⟩
    · have := Nat.pow_pos (n := fmt.sigBits) (show 0 < 2 by decide); omega
    · refine ⟨r', ?_, h7, ?_⟩
      · intro w hw
        unfold toSignificand
        change (sumLoop w bits.significand fmt.elems 0 ⟨0, -2 ^ 31⟩ >>= fun fix =>
          if bits.exponent ≠ 0 then (do add w fix (← make w 1 0)) else return fix) = _
        rw [h1 w hw]
        change (if bits.exponent ≠ 0 then (do add w r (← make w 1 0)) else return r) = _
        rw [if_pos he]
        exact h5 w hw
      · rw [if_neg he]
        exact h8

end Verif.Float
