import Verif.Lemmas.FloatPrint
import Verif.Props.Append
/-!
# Properties of printing floating-point numbers at compile time (C43, C44, C52, C53)
-/
namespace Verif.Props
open Verif Verif.Spec SV Verif.Float

/-- The text in the result, if there is one. -/
def shown : Outcome (Str × Bool) → Option String
  | .ok (ss, _) => some (String.ofList ss.contents)
  | _ => none

/-! ## C43 -/

/-- C43: a decimal number is rounded to `p` digits correctly: to the nearest, ties to even; the exponent is
raised by the number of digits that were removed; the sign stays. A number of at most `p` digits is unchanged; other
numbers keep `p` digits. For 19 digits the largest five numbers are excluded (see `C43_not_at_limit`). -/
theorem C43_rounds (d p : ℕ) (e : ℤ) (sign : Bool) (hp : 1 ≤ p) (hd : d < 2 ^ 64) (hlim : p < 19 ∨ d + 5 < 2 ^ 64)
    (he : -2 ^ 31 ≤ e) (he' : e + 21 < 2 ^ 31) :
    ∃ r j : ℕ, setPrecision word64 ⟨d, e, sign⟩ p = some (.ok ⟨r, e + j, sign⟩) ∧ RoundedTo p d r j ∧
      (d < 10 ^ p → r = d ∧ j = 0) ∧ (10 ^ p ≤ d → 10 ^ (p - 1) ≤ r) := by
  obtain ⟨r, j, h1, h2, h3, h4, _⟩ := setPrecision_spec (s := sign) hp hd hlim he he'
  exact ⟨r, j, h1 _ stores_word64, h2, h3, h4⟩

example : setPrecision word64 ⟨1234565, -3, true⟩ 6 = some (.ok ⟨123456, -2, true⟩) := by decide +kernel
example : setPrecision word64 ⟨9999995, 0, false⟩ 6 = some (.ok ⟨100000, 2, false⟩) := by decide +kernel
example : (1 : ℕ) ≤ 6 ∧ 9999995 < 2 ^ 64 ∧ 6 < 19 := by decide

/-- C43: the specification determines the result. -/
theorem C43_unique {p d r j r' j' : ℕ} (hp : 1 ≤ p) (h : RoundedTo p d r j) (h' : RoundedTo p d r' j') :
    r * 10 ^ j = r' * 10 ^ j' := by
  by_contra hne
  have n1 := h.nearest r' j' h'.digits
  have n2 := h'.nearest r j h.digits
  obtain ⟨u, m, a1, a2, a3⟩ := h.even r' j' h'.digits (fun e => hne e.symm) (by omega)
  obtain ⟨u', m', b1, b2, b3⟩ := h'.even r j h.digits hne (by omega)
  have hu : u = u' := by
    rcases Nat.lt_trichotomy u u' with hlt | heq | hgt
    · have : 10 ^ (p + u + 1) ≤ 10 ^ (p + u') := Nat.pow_le_pow_right (by decide) (by omega)
      rw [Nat.pow_succ] at this
      omega
    · exact heq
    · have : 10 ^ (p + u' + 1) ≤ 10 ^ (p + u) := Nat.pow_le_pow_right (by decide) (by omega)
      rw [Nat.pow_succ] at this
      omega
  subst hu
  -- a multiple of `10 ^ u` that is at most half of `10 ^ u` away
  have hk : 0 < 10 ^ u := Nat.pow_pos (by decide)
  have near : 2 * distance (r * 10 ^ j) d ≤ 10 ^ u := by
    have hq := roundEven_distance d u
    obtain ⟨s, i, hs, hv⟩ : ∃ s i, s < 10 ^ p ∧ s * 10 ^ i = roundEven d u * 10 ^ u := by
      have hq2 : d / 10 ^ u < 10 ^ p := by
        rw [Nat.div_lt_iff_lt_mul hk, ← Nat.pow_add]; exact a2
      have hle : roundEven d u ≤ 10 ^ p := by
        unfold roundEven; dsimp only; split
        · omega
        · split <;> omega
      rcases Nat.lt_or_ge (roundEven d u) (10 ^ p) with hlt | hge
      · exact ⟨_, _, hlt, rfl⟩
      · refine ⟨10 ^ (p - 1), u + 1, Nat.pow_lt_pow_right (by decide) (by omega), ?_⟩
        rw [show roundEven d u = 10 ^ p by omega, ← Nat.pow_add, ← Nat.pow_add]
        congr 1; omega
    have := h.nearest s i hs
    rw [hv] at this
    omega
  have c1 := distance_cases (r * 10 ^ j) d
  have c2 := distance_cases (r' * 10 ^ j') d
  rw [a3] at n1 n2 c1 near hne
  rw [b3] at n1 n2 c2 hne
  rcases Nat.lt_trichotomy m m' with hlt | heq | hgt
  · have := Nat.mul_le_mul_right (10 ^ u) (show 2 * m + 2 ≤ 2 * m' by omega)
    rw [Nat.add_mul] at this
    omega
  · exact hne (by rw [heq])
  · have := Nat.mul_le_mul_right (10 ^ u) (show 2 * m' + 2 ≤ 2 * m by omega)
    rw [Nat.add_mul] at this
    omega

example : RoundedTo 2 125 12 1 ∧ 1 ≤ 2 := by
  obtain ⟨r, j, h1, h2, _⟩ := C43_rounds 125 2 0 false (by decide) (by decide) (by decide) (by decide) (by decide)
  rw [show setPrecision word64 ⟨125, 0, false⟩ 2 = some (.ok ⟨12, 1, false⟩) by decide +kernel] at h1
  simp only [Option.some.injEq, Outcome.ok.injEq, SignedFixed.mk.injEq] at h1
  obtain ⟨rfl, h1, _⟩ := h1
  obtain rfl : j = 1 := by omega
  exact ⟨h2, by decide⟩

/-- C43 does not hold for 19 digits of the largest numbers: rounding up wraps around, and zero comes out. -/
theorem C43_not_at_limit :
    setPrecision word64 ⟨2 ^ 64 - 1, 0, false⟩ 19 = some (.ok ⟨0, 1, false⟩) ∧ ¬RoundedTo 19 (2 ^ 64 - 1) 0 1 := by
  refine ⟨by decide +kernel, ?_⟩
  intro h
  have := h.nearest 1 0 (by decide)
  simp [distance] at this

/-- C43 asks for a precision of at least 1: with 0 the loop goes on for as long as the exponent can be raised. -/
theorem C43_zero_precision (n : ℕ) : ∀ (fd : SignedFixed) (base : ℕ) (z : Bool), 1 ≤ base → -2 ^ 31 ≤ fd.exponent →
    fd.exponent + n < 2 ^ 31 → precisionLoop word64 0 n fd base z = none := by
  induction n with
  | zero => intro fd base z _ _ _; rfl
  | succ n ih =>
    intro fd base z hb h1 h2
    rw [precisionLoop, if_pos (by omega)]
    dsimp only
    rw [int32_ok (by omega) (by push_cast at h2; omega)]
    refine ih _ _ _ ?_ (by dsimp only; omega) (by dsimp only; push_cast at h2; omega)
    split
    · omega
    · exact Append.numDigits_pos ..

example : precisionLoop word64 0 1000 ⟨123, 0, false⟩ (Append.numDigits 8 123) true = none :=
  C43_zero_precision _ _ _ _ (Append.numDigits_pos ..) (by decide) (by decide)

/-! ## C44 -/

theorem numDigits_le_20 {d : ℕ} (h : d < 2 ^ 64) : Append.numDigits 8 d ≤ 20 :=
  Append.numDigits_le (b := 8) (k := 19) (by
    have : (8 + 2) ^ (19 + 1) = 100000000000000000000 := by decide
    omega)

/-- C44: what is written for a decimal number reads, in scientific notation, as this number: the digits and
the exponent are the same, not only the value. As much of it is appended as fits. -/
theorem C44_text (fd : SignedFixed) (h0 : 0 < fd.digits) (hd : fd.digits < 2 ^ 64) (he : -9999 ≤ fd.exponent)
    (he' : fd.exponent ≤ 9980) :
    ∃ text, readScientific text = some (fd.sign, fd.digits, fd.exponent) ∧
      ∀ ss : Str, ss.size ≤ ss.capacity → ss.capacity < 2 ^ 64 → Appended ss text (appendFixed ss fd) := by
  refine ⟨fixedText fd, read_fixedText fd, ?_⟩
  intro ss hs hc
  have := numDigits_le_20 hd
  have hpos := Append.numDigits_pos 8 fd.digits
  obtain ⟨ss', h1, h2⟩ := appendFixed_holds h0 hd (by omega) (by omega) (holds_of_wf hs) hc
  exact appended_of_holds ⟨ss', h1, h2⟩

example : shown (appendFixed (SV.empty 40 ' ') ⟨1234567, -3, true⟩) =
    some "-1.234567e+03" := by decide +kernel
example : shown (appendFixed (SV.empty 40 ' ') ⟨5, -324, false⟩) =
    some "5.e-324" := by decide +kernel
example : readScientific "-1.234567e+03".toList = some (true, 1234567, -3) := by decide +kernel
example : readScientific "5.e-324".toList = some (false, 5, -324) := by decide +kernel
example : readScientific "12.5e+03".toList = none ∧ readScientific "0.5e+03".toList = none ∧
    readScientific "1.5e+3".toList = none ∧ readScientific "1.5e+003".toList = none := by decide +kernel

/-- C44: two decimal numbers with the same text are the same. -/
theorem C44_injective (a b : SignedFixed) (ha : 0 < a.digits ∧ a.digits < 2 ^ 64 ∧ -9999 ≤ a.exponent ∧ a.exponent ≤ 9980)
    (hb : 0 < b.digits ∧ b.digits < 2 ^ 64 ∧ -9999 ≤ b.exponent ∧ b.exponent ≤ 9980)
    (ss sa sb : Str) (hs : ss.size ≤ ss.capacity) (hc : ss.capacity < 2 ^ 64)
    (h1 : appendFixed ss a = .ok (sa, true)) (h2 : appendFixed ss b = .ok (sb, true))
    (h : sa.contents = sb.contents) : a = b := by
  obtain ⟨ta, ra, fa⟩ := C44_text a ha.1 ha.2.1 ha.2.2.1 ha.2.2.2
  obtain ⟨tb, rb, fb⟩ := C44_text b hb.1 hb.2.1 hb.2.2.1 hb.2.2.2
  obtain ⟨va, oka, ea, _, _, ca, iffa⟩ := fa ss hs hc
  obtain ⟨vb, okb, eb, _, _, cb, iffb⟩ := fb ss hs hc
  rw [h1] at ea
  rw [h2] at eb
  cases ea
  cases eb
  have la := iffa.1 rfl
  have lb := iffb.1 rfl
  rw [ca, cb, fill, fill, List.take_of_length_le (by simpa using la), List.take_of_length_le (by simpa using lb)] at h
  have := List.append_cancel_left h
  rw [this, rb] at ra
  cases a; cases b
  simp_all

/-- C44 is limited by the buffer: an exponent of five digits does not fit behind the sign and twenty digits. -/
theorem C44_limit : appendFixed (SV.empty 40 ' ') ⟨2 ^ 64 - 1, 10000, true⟩ = .abort := by decide +kernel

/-! ## C52, C53 -/

/-- What `appendFloat` does with a finite number that is not zero. -/
theorem appendFloat_finite {fmt : Format} {b : Binary} (h : Same fmt b) {pattern precision : ℕ} (hf : b.Finite pattern)
    (hz : ¬b.IsZero pattern) (hp : 1 ≤ precision) :
    ∃ D E r j, Printed (min precision 19) (b.magnitude pattern) D E r j ∧ ∀ w, Stores w → ∀ ss,
      appendFloat w fmt ss pattern precision = some (appendFixed ss ⟨r, E + j, b.negative pattern⟩) := by
  obtain ⟨D, E, r, j, hP, hA⟩ := appendFinite_all h hf hz (p := min precision 19) (by omega) (by omega)
  refine ⟨D, E, r, j, hP, ?_⟩
  intro w hw ss
  have hb := toBits_eq h pattern
  unfold appendFloat appendBits
  dsimp only
  rw [show (if precision ≤ 19 then precision else 19) = min precision 19 by split <;> omega, hA w hw ss]
  rw [hb]
  dsimp only
  rw [(h.bits).2]
  unfold Binary.Finite at hf
  unfold Binary.IsZero at hz
  by_cases he : b.biased pattern = 0
  · rw [if_pos he, if_neg (fun hs => hz ⟨he, hs⟩)]
  · rw [if_neg he, if_neg (by omega)]

theorem printed_digits {p : ℕ} {v : ℚ} {D : ℕ} {E : ℤ} {r j : ℕ} (h : Printed p v D E r j) (hp' : p ≤ 19) :
    0 < r ∧ r < 2 ^ 64 ∧ -9999 ≤ E + j ∧ E + j ≤ 9980 := by
  have h1 := h.full
  have h2 := h.rounded.digits
  have h3 : 10 ^ p ≤ 10 ^ 19 := Nat.pow_le_pow_right (by decide) hp'
  have h4 : 0 < 10 ^ (p - 1) := Nat.pow_pos (by decide)
  have := h.lo
  have := h.hi
  have := h.few
  omega

theorem special_not_zero {fmt : Format} {b : Binary} (h : Same fmt b) : 0 < 2 ^ b.exponentBits - 1 := by
  cases h <;> decide

/-- C53: infinity is printed as such. -/
theorem C53_infinite {fmt : Format} {b : Binary} (h : Same fmt b) {pattern : ℕ} (hi : b.IsInfinite pattern)
    (precision : ℕ) (ss : Str) (hs : ss.size ≤ ss.capacity) (hc : ss.capacity < 2 ^ 64) :
    ∃ r, appendFloat word64 fmt ss pattern precision = some r ∧
      Appended ss (if b.negative pattern then "-inf".toList else "inf".toList) r := by
  refine ⟨_, ?_, C02_append_text true ss hs hc _⟩
  unfold appendFloat appendBits
  rw [toBits_eq h]
  dsimp only
  rw [hi.1, hi.2, (h.bits).2, if_neg (by have := special_not_zero h; omega), if_pos rfl, if_pos rfl]
  rfl

/-- C53: what is not a number is printed as such. -/
theorem C53_nan {fmt : Format} {b : Binary} (h : Same fmt b) {pattern : ℕ} (hi : b.IsNan pattern)
    (precision : ℕ) (ss : Str) (hs : ss.size ≤ ss.capacity) (hc : ss.capacity < 2 ^ 64) :
    ∃ r, appendFloat word64 fmt ss pattern precision = some r ∧ Appended ss "nan".toList r := by
  refine ⟨_, ?_, C02_append_text true ss hs hc _⟩
  unfold appendFloat appendBits
  rw [toBits_eq h]
  dsimp only
  rw [hi.1, (h.bits).2, if_neg (by have := special_not_zero h; omega), if_pos rfl, if_neg hi.2]
  rfl

/-- The text for zero. -/
def zeroText (negative : Bool) (p : ℕ) : Text :=
  (if negative then ['-'] else []) ++ "0.".toList ++ List.replicate (p - 1) '0' ++ "e+00".toList

theorem appendZero_appended {negative : Bool} {p : ℕ} (hp : 1 ≤ p) (hp' : p ≤ 19) (ss : Str) (hs : ss.size ≤ ss.capacity)
    (hc : ss.capacity < 2 ^ 64) : Appended ss (zeroText negative p) (appendZero ss negative p) := by
  have hv := C03_append_variadic true ss hs hc [if negative then "-0.".toList else "0.".toList,
    List.replicate (p - 1) '0', "e+00".toList]
  have h1 : ("000000000000000000".toList.take (sub64 p 1)) = List.replicate (p - 1) '0' := by
    have : ∀ i : Fin 20, 1 ≤ i.1 → "000000000000000000".toList.take (sub64 i.1 1) = List.replicate (i.1 - 1) '0' := by
      decide +kernel
    exact this ⟨p, by omega⟩ hp
  have h2 : [if negative then "-0.".toList else "0.".toList, List.replicate (p - 1) '0', "e+00".toList].flatten =
      zeroText negative p := by
    unfold zeroText
    cases negative <;> simp
  rw [h2] at hv
  have h3 : appendZero ss negative p = Append.variadic true ss [if negative then "-0.".toList else "0.".toList,
      List.replicate (p - 1) '0', "e+00".toList] := by
    unfold appendZero
    rw [h1]
    simp only [Append.variadic, Append.text, if_true]
    apply bind_same
    rintro ⟨x, ok⟩ _
    cases ok
    · rfl
    · dsimp only
      apply bind_same
      rintro ⟨y, ok⟩ _
      cases ok
      · rfl
      · dsimp only
        simp only [Bool.not_true, Bool.false_eq_true, if_false, if_true]
        cases Append.constexpr y "e+00".toList with
        | ok z => obtain ⟨z, ok⟩ := z; cases ok <;> rfl
        | abort => rfl
        | ub => rfl
  rw [h3]
  exact hv

set_option maxRecDepth 20000 in
theorem read_zeroText {negative : Bool} {p : ℕ} (hp' : p ≤ 19) :
    readScientific (zeroText negative p) = some (negative, 0, -((p - 1 : ℕ) : ℤ)) := by
  have : ∀ (n : Bool) (i : Fin 20), readScientific (zeroText n i.1) = some (n, 0, -((i.1 - 1 : ℕ) : ℤ)) := by
    decide +kernel
  exact this negative ⟨p, by omega⟩

/-- C53: zero is printed as such, with its sign and all its digits. -/
theorem C53_zero {fmt : Format} {b : Binary} (h : Same fmt b) {pattern : ℕ} (hz : b.IsZero pattern)
    (precision : ℕ) (hp : 1 ≤ precision) :
    ∃ text, readScientific text = some (b.negative pattern, 0, -((min precision 19 - 1 : ℕ) : ℤ)) ∧
      ∀ ss : Str, ss.size ≤ ss.capacity → ss.capacity < 2 ^ 64 →
        ∃ r, appendFloat word64 fmt ss pattern precision = some r ∧ Appended ss text r := by
  refine ⟨zeroText (b.negative pattern) (min precision 19), read_zeroText (by omega), ?_⟩
  intro ss hs hc
  refine ⟨_, ?_, appendZero_appended (by omega) (by omega) ss hs hc⟩
  unfold appendFloat appendBits
  rw [toBits_eq h]
  dsimp only
  rw [hz.1, hz.2, if_pos rfl, if_pos rfl]
  congr 2

/-- C52: the numbers that are computed on the way from a floating-point number to its text fit in 64 bits. With
any way `w` of storing numbers that keeps those below `2 ^ 64` (whatever it does to others), the result is that of
computing with unbounded numbers; neither undefined behaviour nor a failed check occurs, and the computation ends.
This includes the program, where `w` is the remainder modulo `2 ^ 64`. -/
theorem C52_no_overflow {fmt : Format} {b : Binary} (h : Same fmt b) (w : ℕ → ℕ) (hw : ∀ n < 2 ^ 64, w n = n)
    (pattern precision : ℕ) (hp : 1 ≤ precision) (ss : Str) (hs : ss.size ≤ ss.capacity) (hc : ss.capacity < 2 ^ 64) :
    ∃ r, appendFloat id fmt ss pattern precision = some (.ok r) ∧
      appendFloat w fmt ss pattern precision = some (.ok r) := by
  by_cases hf : b.Finite pattern
  · by_cases hz : b.IsZero pattern
    · obtain ⟨v, ok, hr, _⟩ := appendZero_appended (negative := b.negative pattern) (p := min precision 19)
        (by omega) (by omega) ss hs hc
      have : ∀ w, appendFloat w fmt ss pattern precision = some (.ok (v, ok)) := by
        intro w
        rw [← hr]
        unfold appendFloat appendBits
        rw [toBits_eq h]
        dsimp only
        rw [hz.1, hz.2, if_pos rfl, if_pos rfl]
        congr 2
      exact ⟨_, this _, this _⟩
    · obtain ⟨D, E, r, j, hP, hA⟩ := appendFloat_finite h hf hz hp
      obtain ⟨d1, d2, d3, d4⟩ := printed_digits hP (by omega)
      obtain ⟨t, _, ht⟩ := C44_text ⟨r, E + j, b.negative pattern⟩ d1 d2 d3 d4
      obtain ⟨v, ok, hr, _⟩ := ht ss hs hc
      exact ⟨(v, ok), by rw [hA _ stores_id, hr], by rw [hA _ hw, hr]⟩
  · have hk : b.biased pattern = 2 ^ b.exponentBits - 1 := by
      have : b.biased pattern < 2 ^ b.exponentBits := Nat.mod_lt _ (Nat.pow_pos (by decide))
      unfold Binary.Finite at hf
      omega
    have : ∀ w, appendFloat w fmt ss pattern precision = some (Append.text true ss
        (if b.fraction pattern = 0 then (if b.negative pattern then "-inf".toList else "inf".toList) else "nan".toList)) := by
      intro w
      unfold appendFloat appendBits
      rw [toBits_eq h]
      dsimp only
      rw [hk, (h.bits).2, if_neg (by have := special_not_zero h; omega), if_pos rfl]
      split <;> rfl
    obtain ⟨v, ok, hr, _⟩ := C02_append_text true ss hs hc
      (if b.fraction pattern = 0 then (if b.negative pattern then "-inf".toList else "inf".toList) else "nan".toList)
    exact ⟨(v, ok), by rw [this, hr], by rw [this, hr]⟩

/-- C52: the decimal number that a finite number is converted to has at least 19 digits (it is scaled up as far as
possible), and is not one of the largest, which could not be rounded (`C43_not_at_limit`). -/
theorem C52_normalised {fmt : Format} {b : Binary} (h : Same fmt b) {pattern : ℕ} (hf : b.Finite pattern)
    (hz : ¬b.IsZero pattern) :
    ∃ d e, toFixed word64 fmt (toBits fmt pattern) = .ok ⟨d, e, b.negative pattern⟩ ∧
      (2 ^ 64 - 1) / 10 ≤ d ∧ d + 5 < 2 ^ 64 := by
  have hb := toBits_eq h pattern
  obtain ⟨h1, h2⟩ := h.bits
  obtain ⟨x, f1, f2, _⟩ := toFixed_all h.good (bits := toBits fmt pattern) (Nat.mod_lt _ (Nat.pow_pos (by decide)))
    (by rw [hb, h2]; exact hf) (by
      rw [hb]
      by_contra hc
      push Not at hc
      exact hz ⟨hc.2, hc.1⟩)
  refine ⟨x.digits, x.exponent, ?_, f2.large, f2.small⟩
  rw [f1 _ stores_word64, hb]

/-- C53: what is printed for a finite number other than zero is its sign and a number of exactly `p` digits (`p` is
the precision, at most 19). It differs from the exact value by at most half a unit of the last digit (which is due
to rounding) and `0.447 * 10 ^ (p - 16)` of a unit. -/
theorem C53_accuracy {fmt : Format} {b : Binary} (h : Same fmt b) {pattern : ℕ} (hf : b.Finite pattern)
    (hz : ¬b.IsZero pattern) (precision p : ℕ) (hp : 1 ≤ precision) (hpp : p = min precision 19) :
    ∃ text d e, readScientific text = some (b.negative pattern, d, e) ∧ 10 ^ (p - 1) ≤ d ∧ d < 10 ^ p ∧
      |(d : ℚ) * 10 ^ e - b.magnitude pattern| ≤ (1 / 2 + 447 / 1000 * 10 ^ ((p : ℤ) - 16)) * 10 ^ e ∧
      ∀ ss : Str, ss.size ≤ ss.capacity → ss.capacity < 2 ^ 64 →
        ∃ r, appendFloat word64 fmt ss pattern precision = some r ∧ Appended ss text r := by
  subst hpp
  obtain ⟨D, E, r, j, hP, hA⟩ := appendFloat_finite h hf hz hp
  obtain ⟨d1, d2, d3, d4⟩ := printed_digits hP (by omega)
  obtain ⟨t, hr, ht⟩ := C44_text ⟨r, E + j, b.negative pattern⟩ d1 d2 d3 d4
  exact ⟨t, r, E + j, hr, hP.full, hP.rounded.digits, hP.accurate, fun ss hs hc =>
    ⟨_, hA _ stores_word64 ss, ht ss hs hc⟩⟩

/-- C53: a `float` is printed with 7 digits; these are off by at most half a unit of the last one, and a billionth. -/
theorem C53_float {pattern : ℕ} (hf : single.Finite pattern) (hz : ¬single.IsZero pattern) :
    ∃ text d e, readScientific text = some (single.negative pattern, d, e) ∧ 10 ^ 6 ≤ d ∧ d < 10 ^ 7 ∧
      |(d : ℚ) * 10 ^ e - single.magnitude pattern| ≤ (1 / 2 + 1 / 10 ^ 9) * 10 ^ e ∧
      ∀ ss : Str, ss.size ≤ ss.capacity → ss.capacity < 2 ^ 64 →
        ∃ r, appendFloat word64 binary32 ss pattern binary32.precision = some r ∧ Appended ss text r := by
  obtain ⟨t, d, e, h1, h2, h3, h4, h5⟩ := C53_accuracy .single hf hz binary32.precision 7 (by decide) (by decide)
  refine ⟨t, d, e, h1, h2, h3, le_trans h4 ?_, h5⟩
  apply mul_le_mul_of_nonneg_right _ (ten_pow_pos e).le
  norm_num

/-- C53: a `double` is printed with 16 digits; these are off by less than a unit of the last one. -/
theorem C53_double {pattern : ℕ} (hf : double.Finite pattern) (hz : ¬double.IsZero pattern) :
    ∃ text d e, readScientific text = some (double.negative pattern, d, e) ∧ 10 ^ 15 ≤ d ∧ d < 10 ^ 16 ∧
      |(d : ℚ) * 10 ^ e - double.magnitude pattern| < 10 ^ e ∧
      ∀ ss : Str, ss.size ≤ ss.capacity → ss.capacity < 2 ^ 64 →
        ∃ r, appendFloat word64 binary64 ss pattern binary64.precision = some r ∧ Appended ss text r := by
  obtain ⟨t, d, e, h1, h2, h3, h4, h5⟩ := C53_accuracy .double hf hz binary64.precision 16 (by decide) (by decide)
  refine ⟨t, d, e, h1, h2, h3, lt_of_le_of_lt h4 ?_, h5⟩
  have := ten_pow_pos e
  norm_num
  linarith

/-- C53: a number whose value is a decimal number `m * 10 ^ x` of at most `p ≤ 16` digits is printed exactly. -/
theorem C53_exact {fmt : Format} {b : Binary} (h : Same fmt b) {pattern : ℕ} (hf : b.Finite pattern)
    (hz : ¬b.IsZero pattern) (p : ℕ) (hp : 1 ≤ p) (hp' : p ≤ 16) (m : ℕ) (x : ℤ) (hm : m < 10 ^ p)
    (hv : b.magnitude pattern = m * 10 ^ x) :
    ∃ text d e, readScientific text = some (b.negative pattern, d, e) ∧ (d : ℚ) * 10 ^ e = b.magnitude pattern ∧
      ∀ ss : Str, ss.size ≤ ss.capacity → ss.capacity < 2 ^ 64 →
        ∃ r, appendFloat word64 fmt ss pattern p = some r ∧ Appended ss text r := by
  obtain ⟨D, E, r, j, hP, hA⟩ := appendFloat_finite h hf hz hp
  rw [show min p 19 = p by omega] at hP
  obtain ⟨d1, d2, d3, d4⟩ := printed_digits hP (by omega)
  obtain ⟨t, hr, ht⟩ := C44_text ⟨r, E + j, b.negative pattern⟩ d1 d2 d3 d4
  exact ⟨t, r, E + j, hr, hP.exact hp' hm hv, fun ss hs hc => ⟨_, hA _ stores_word64 ss, ht ss hs hc⟩⟩

/-- The text printed into an empty string, if there is one. -/
def printed (fmt : Format) (pattern precision : ℕ) : Option String :=
  (appendFloat word64 fmt (SV.empty 40 ' ') pattern precision).bind shown

example : printed binary64 0x400921FB54442D18 16 = some "3.141592653589793e+00" := by decide +kernel
example : printed binary32 0xC0490FDB 7 = some "-3.141593e+00" := by decide +kernel
example : printed binary64 1 16 = some "4.940656458412465e-324" := by decide +kernel
example : printed binary64 0x7FEFFFFFFFFFFFFF 16 = some "1.797693134862316e+308" := by decide +kernel
example : printed binary64 0x8000000000000000 3 = some "-0.00e+00" := by decide +kernel
example : printed binary32 0xFF800000 7 = some "-inf" := by decide +kernel
example : printed binary32 0x7FC00000 7 = some "nan" := by decide +kernel
-- the hypotheses of the theorems
example : double.Finite 0x400921FB54442D18 ∧ ¬double.IsZero 0x400921FB54442D18 := by
  unfold Binary.Finite Binary.IsZero; decide
example : double.IsZero 0x8000000000000000 := by unfold Binary.IsZero; decide
example : single.IsInfinite 0xFF800000 ∧ single.IsNan 0x7FC00000 := by
  unfold Binary.IsInfinite Binary.IsNan; decide
-- 1234.5 is a decimal number of five digits
example : double.Finite 0x40934A0000000000 ∧ ¬double.IsZero 0x40934A0000000000 ∧
    double.magnitude 0x40934A0000000000 = (12345 : ℕ) * 10 ^ (-1 : ℤ) := by
  refine ⟨by unfold Binary.Finite; decide, by unfold Binary.IsZero; decide, ?_⟩
  norm_num [Binary.magnitude, Binary.biased, Binary.fraction, double]

/-- C53 is not more than that: the `double` next to 0.94 is printed as 0.9400000000000000, although
0.9399999999999999 is nearer to it. -/
theorem C53_not_nearest :
    printed binary64 0x3FEE147AE147AE14 16 = some "9.400000000000000e-01" ∧
    readScientific "9.400000000000000e-01".toList = some (false, 9400000000000000, -16) ∧
    |(9399999999999999 : ℚ) * 10 ^ (-16 : ℤ) - double.magnitude 0x3FEE147AE147AE14| <
      |(9400000000000000 : ℚ) * 10 ^ (-16 : ℤ) - double.magnitude 0x3FEE147AE147AE14| := by
  refine ⟨by decide +kernel, by decide +kernel, ?_⟩
  norm_num [Binary.magnitude, Binary.biased, Binary.fraction, double, abs_of_neg, abs_of_pos]

/-- C53: nor do ties go to even: the `float` 148242.25 is printed as 148242.3. -/
theorem C53_tie :
    printed binary32 0x4810C490 7 = some "1.482423e+05" ∧
    single.magnitude 0x4810C490 = (1482422 + 1 / 2) * 10 ^ (-1 : ℤ) := by
  refine ⟨by decide +kernel, ?_⟩
  norm_num [Binary.magnitude, Binary.biased, Binary.fraction, single]

end Verif.Props
