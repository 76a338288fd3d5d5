import Verif.Lemmas.FloatPrecision
/-!
# The text of a decimal number
-/
namespace Verif.Float
open Verif Verif.Spec SV

/-- A digit. -/
def digitOf (n : ℕ) : Char := (Append.digits[n]?).getD '0'

theorem setBack_holds {cap : ℕ} {tmp : Str} {pre post : Text} {x : Char} (h : tmp.Holds cap (pre ++ x :: post))
    (c : Char) {k : ℕ} (hk : k = post.length + 1) : ∃ tmp', setBack tmp k c = .ok tmp' ∧ tmp'.Holds cap (pre ++ c :: post) := by
  have hs := h.2.1
  rw [List.length_append, List.length_cons] at hs
  obtain ⟨tmp', h1, h2⟩ := h.setAt (i := pre.length) (by simp) c
  refine ⟨tmp', ?_, ?_⟩
  · rw [setBack, if_pos (by omega), show tmp.size - k = pre.length by omega, h1]
  · rwa [List.set_append_right _ _ (le_refl _), Nat.sub_self, List.set_cons_zero] at h2

/-- The digits, with a point after the first one. -/
def mantissa (j : ℕ) : Text :=
  if j < 10 then [digitOf j, '.'] else mantissa (j / 10) ++ [digitOf (j % 10)]
termination_by j
decreasing_by exact Nat.div_lt_self (by omega) (by omega)

theorem mantissa_eq (j : ℕ) : ∃ c cs, Append.numeral 8 j = c :: cs ∧ mantissa j = c :: '.' :: cs := by
  induction j using Nat.strongRecOn with
  | ind j ih =>
    rw [mantissa, Append.numeral]
    by_cases h : j < 10
    · rw [if_pos h, if_pos h]; exact ⟨_, _, rfl, rfl⟩
    · rw [if_neg h, if_neg h]
      obtain ⟨c, cs, h1, h2⟩ := ih (j / 10) (by omega)
      exact ⟨c, cs ++ [digitOf (j % 10)], by
        change Append.numeral 8 (j / 10) ++ _ = _
        rw [h1]; rfl, by rw [h2]; rfl⟩

theorem mantissa_length (j : ℕ) : (mantissa j).length = Append.numDigits 8 j + 1 := by
  obtain ⟨c, cs, h1, h2⟩ := mantissa_eq j
  rw [h2, ← Append.length_numeral, h1]
  simp

theorem writeMantissa_holds {cap : ℕ} : ∀ (j : ℕ) (tmp : Str) (pre mid post : Text), 0 < j →
    mid.length = Append.numDigits 8 j + 1 → tmp.Holds cap (pre ++ mid ++ post) →
    ∃ tmp', writeMantissa tmp (post.length + 1) j = .ok tmp' ∧ tmp'.Holds cap (pre ++ mantissa j ++ post) := by
  intro j
  induction j using Nat.strongRecOn with
  | ind j ih =>
    intro tmp pre mid post h0 hm h
    have hd : Append.digitAt (j % 10) = .ok (digitOf (j % 10)) := Append.digitAt_lt (by omega)
    rw [writeMantissa, if_neg (by omega), hd, mantissa]
    simp only [Outcome.bind_ok]
    rw [Append.numDigits] at hm
    by_cases hj : j < 10
    · rw [if_pos hj, if_pos hj]
      rw [if_neg (by omega)] at hm
      obtain ⟨a, b, rfl⟩ : ∃ a b, mid = [a, b] := by
        match mid, hm with
        | [a, b], _ => exact ⟨a, b, rfl⟩
      have h : tmp.Holds cap ((pre ++ [a]) ++ b :: post) := by simpa using h
      obtain ⟨t1, e1, h1⟩ := setBack_holds h '.' rfl
      have h1 : t1.Holds cap (pre ++ a :: ('.' :: post)) := by simpa using h1
      obtain ⟨t2, e2, h2⟩ := setBack_holds h1 (digitOf (j % 10)) rfl
      rw [e1]
      simp only [Outcome.bind_ok]
      refine ⟨t2, e2, ?_⟩
      rw [Nat.mod_eq_of_lt hj] at h2
      simpa using h2
    · rw [if_neg hj, if_neg hj]
      rw [if_pos (by omega)] at hm
      obtain ⟨ini, z, rfl⟩ : ∃ ini z, mid = ini ++ [z] :=
        ⟨mid.dropLast, mid.getLast (by intro h; rw [h] at hm; simp at hm), (List.dropLast_concat_getLast _).symm⟩
      have h : tmp.Holds cap ((pre ++ ini) ++ z :: post) := by simpa using h
      obtain ⟨t1, e1, h1⟩ := setBack_holds h (digitOf (j % 10)) rfl
      rw [e1]
      simp only [Outcome.bind_ok]
      obtain ⟨t2, e2, h2⟩ := ih (j / 10) (by omega) t1 pre ini (digitOf (j % 10) :: post) (by omega)
        (by rw [List.length_append] at hm; simp at hm; omega) h1
      exact ⟨t2, e2, by simpa using h2⟩

theorem writeExponent_holds {cap : ℕ} : ∀ (j : ℕ) (tmp : Str) (pre mid post : Text), 0 < j →
    mid.length = Append.numDigits 8 j → tmp.Holds cap (pre ++ mid ++ post) →
    ∃ tmp', writeExponent tmp (post.length + 1) j = .ok (tmp', post.length + 1 + Append.numDigits 8 j) ∧
      tmp'.Holds cap (pre ++ Append.numeral 8 j ++ post) := by
  intro j
  induction j using Nat.strongRecOn with
  | ind j ih =>
    intro tmp pre mid post h0 hm h
    have hd : Append.digitAt (j % 10) = .ok (digitOf (j % 10)) := Append.digitAt_lt (by omega)
    rw [writeExponent, if_neg (by omega), hd, Append.numeral]
    simp only [Outcome.bind_ok]
    have hne : mid ≠ [] := by
      intro hn; rw [hn] at hm; have := Append.numDigits_pos 8 j; simp at hm; omega
    rw [Append.numDigits] at hm
    obtain ⟨ini, z, rfl⟩ : ∃ ini z, mid = ini ++ [z] :=
        ⟨mid.dropLast, mid.getLast hne, (List.dropLast_concat_getLast _).symm⟩
    have h : tmp.Holds cap ((pre ++ ini) ++ z :: post) := by simpa using h
    obtain ⟨t1, e1, h1⟩ := setBack_holds h (digitOf (j % 10)) rfl
    rw [e1]
    simp only [Outcome.bind_ok]
    by_cases hj : j < 10
    · rw [if_pos (show j < 8 + 2 from hj), show j / 10 = 0 by omega, writeExponent, if_pos rfl]
      rw [if_neg (by omega)] at hm
      obtain rfl : ini = [] := by
        rw [List.length_append] at hm; simp at hm; exact hm
      rw [Nat.mod_eq_of_lt hj] at h1
      refine ⟨t1, ?_, by simpa [digitOf] using h1⟩
      rw [Append.numDigits, if_neg (by omega)]
    · rw [if_neg (show ¬ j < 8 + 2 from hj)]
      rw [if_pos (by omega)] at hm
      obtain ⟨t2, e2, h2⟩ := ih (j / 10) (by omega) t1 pre ini (digitOf (j % 10) :: post) (by omega)
        (by rw [List.length_append] at hm; simp at hm; omega) h1
      refine ⟨t2, ?_, by simpa [digitOf] using h2⟩
      rw [List.length_cons] at e2
      rw [e2]
      congr 2
      rw [Append.numDigits.eq_def 8 j, if_pos (by omega)]
      change post.length + 1 + 1 + Append.numDigits 8 (j / 10) = post.length + 1 + (1 + Append.numDigits 8 (j / 10))
      omega

/-- The digits of the exponent. -/
def exponentText (a : ℕ) : Text := if a < 10 then ['0', digitOf a] else Append.numeral 8 a

theorem exponentText_length (a : ℕ) : (exponentText a).length = max 2 (Append.numDigits 8 a) := by
  unfold exponentText
  split
  · rw [Append.numDigits, if_neg (by omega)]; rfl
  · rw [Append.length_numeral]
    have : 2 ≤ Append.numDigits 8 a := by
      rw [Append.numDigits, if_pos (by omega)]
      have := Append.numDigits_pos 8 (a / (8 + 2))
      omega
    omega

theorem exponent_holds {cap : ℕ} (a : ℕ) (tmp : Str) (pre mid : Text) (hm : mid.length = max 2 (Append.numDigits 8 a))
    (h : tmp.Holds cap (pre ++ mid)) :
    ∃ tmp', (do let (tmp, k) ← writeExponent tmp 1 a; padExponent tmp k 2) = .ok (tmp', mid.length + 1) ∧
      tmp'.Holds cap (pre ++ exponentText a) := by
  unfold exponentText
  by_cases ha : a < 10
  · have hn : Append.numDigits 8 a = 1 := by rw [Append.numDigits, if_neg (by omega)]
    rw [hn] at hm
    obtain ⟨x, y, rfl⟩ : ∃ x y, mid = [x, y] := by
      match mid, hm with
      | [a, b], _ => exact ⟨a, b, rfl⟩
    rw [if_pos ha]
    by_cases h0 : a = 0
    · subst h0
      rw [writeExponent, if_pos rfl]
      have h : tmp.Holds cap ((pre ++ [x]) ++ y :: []) := by simpa using h
      obtain ⟨t1, e1, h1⟩ := setBack_holds h '0' (k := 1) rfl
      have h1 : t1.Holds cap (pre ++ x :: ['0']) := by simpa using h1
      obtain ⟨t2, e2, h2⟩ := setBack_holds h1 '0' (k := 2) rfl
      refine ⟨t2, ?_, h2⟩
      simp only [Outcome.bind_ok]
      rw [padExponent, if_pos (by omega), e1, Outcome.bind_ok, padExponent, if_pos (by omega), e2, Outcome.bind_ok,
        padExponent]
      rfl
    · have h : tmp.Holds cap ((pre ++ [x]) ++ [y] ++ []) := by simpa using h
      obtain ⟨t1, e1, h1⟩ := writeExponent_holds a tmp _ _ [] (by omega) (by rw [hn]; rfl) h
      rw [hn] at e1
      rw [Append.numeral, if_pos (by omega)] at h1
      have h1 : t1.Holds cap (pre ++ x :: [digitOf a]) := by simpa [digitOf] using h1
      obtain ⟨t2, e2, h2⟩ := setBack_holds h1 '0' (k := 2) rfl
      refine ⟨t2, ?_, h2⟩
      change writeExponent tmp 1 a = .ok (t1, 2) at e1
      rw [e1]
      simp only [Outcome.bind_ok]
      rw [padExponent, if_pos (by omega), e2, Outcome.bind_ok, padExponent, if_neg (by omega)]
      rfl
  · rw [if_neg ha]
    have hn : 2 ≤ Append.numDigits 8 a := by
      rw [Append.numDigits, if_pos (by omega)]
      have := Append.numDigits_pos 8 (a / (8 + 2))
      omega
    have h : tmp.Holds cap (pre ++ mid ++ []) := by simpa using h
    obtain ⟨t1, e1, h1⟩ := writeExponent_holds a tmp _ _ [] (by omega) (by omega) h
    refine ⟨t1, ?_, by simpa using h1⟩
    change writeExponent tmp 1 a = _ at e1
    rw [e1]
    simp only [Outcome.bind_ok]
    rw [padExponent, if_neg (by simp; omega)]
    rw [show ([] : Text).length + 1 + Append.numDigits 8 a = mid.length + 1 by simp; omega]
    rfl

/-- The text of a decimal number. -/
def fixedText (fd : SignedFixed) : Text :=
  let x := fd.exponent + Append.numDigits 8 fd.digits - 1
  (if fd.sign then ['-'] else []) ++ mantissa fd.digits ++
    'e' :: (if x ≥ 0 then '+' else '-') :: exponentText x.natAbs

theorem grow_holds {v : Str} {cap : ℕ} {l : Text} (h : v.Holds cap l) {n : ℕ} (hn : l.length + n ≤ cap)
    (hcap : cap < sizeT) : ∃ v' stale, v.grow n = .ok v' ∧ stale.length = n ∧ v'.Holds cap (l ++ stale) := by
  refine ⟨_, (v.buf.drop l.length).take n, h.grow hn hcap, ?_, ?_⟩
  · rw [List.length_take, List.length_drop, h.1]; omega
  · obtain ⟨h1, h2, h3⟩ := h
    refine ⟨h1, ?_, ?_⟩
    · rw [List.length_append, List.length_take, List.length_drop, h1]; simp; omega
    · change v.buf.take (l.length + n) = _
      rw [List.take_add, ← h2, h3]

theorem maxFloatLength_eq : maxFloatLength = 28 := by decide +kernel

theorem shownExponent_eq {fd : SignedFixed} (h1 : -9999 ≤ fd.exponent + Append.numDigits 8 fd.digits - 1)
    (h2 : fd.exponent + Append.numDigits 8 fd.digits - 1 ≤ 9999) :
    shownExponent fd = fd.exponent + Append.numDigits 8 fd.digits - 1 := by
  unfold shownExponent
  exact Int.bmod_eq_of_le (by omega) (by omega)

theorem fixedText_length (fd : SignedFixed) : (fixedText fd).length =
    (if fd.sign then 1 else 0) + (Append.numDigits 8 fd.digits + 1) + 2 +
      max 2 (Append.numDigits 8 (fd.exponent + Append.numDigits 8 fd.digits - 1).natAbs) := by
  unfold fixedText
  simp only [List.length_append, List.length_cons, mantissa_length, exponentText_length]
  split <;> simp <;> omega

/-- Writing a decimal number. -/
theorem appendFixed_holds {fd : SignedFixed} (h0 : 0 < fd.digits) (hd : fd.digits < 2 ^ 64)
    (h1 : -9999 ≤ fd.exponent + Append.numDigits 8 fd.digits - 1)
    (h2 : fd.exponent + Append.numDigits 8 fd.digits - 1 ≤ 9999)
    {ss : Str} {cap : ℕ} {l : Text} (h : ss.Holds cap l) (hcap : cap < sizeT) :
    ∃ ss', appendFixed ss fd = .ok (ss', decide (l.length + (fixedText fd).length ≤ cap)) ∧
      ss'.Holds cap (fill cap l (fixedText fd)) := by
  have hN20 : Append.numDigits 8 fd.digits ≤ 20 := Append.numDigits_le (b := 8) (k := 19) (by
    have : (8 + 2) ^ (19 + 1) = 100000000000000000000 := by decide
    omega)
  have hsh := shownExponent_eq h1 h2
  unfold appendFixed fixedText
  rw [hsh]
  generalize hx : fd.exponent + Append.numDigits 8 fd.digits - 1 = x at *
  have hE4 : Append.numDigits 8 x.natAbs ≤ 4 := Append.numDigits_le (b := 8) (k := 3) (by
    have : (8 + 2) ^ (3 + 1) = 10000 := by decide
    omega)
  have hst : (28 : ℕ) < sizeT := by rw [sizeT]; omega
  have hmag : magnitude x = .ok (x.natAbs : ℤ) := by
    unfold magnitude
    split
    · congr 1; omega
    · rw [int32_ok (by omega) (by omega)]; congr 1; omega
  have hnum : numExpDigits x = .ok (max 2 (Append.numDigits 8 x.natAbs)) := by
    unfold numExpDigits
    rw [hmag]; rfl
  dsimp only
  rw [hnum, hmag, maxFloatLength_eq]
  generalize hn : Append.numDigits 8 fd.digits = n at *
  -- the mantissa
  have hlen : n + 1 + (if fd.sign then 1 else 0) ≤ 28 := by split <;> omega
  obtain ⟨e1, g1⟩ := (holds_empty 28 '\x00').resize hlen
  have g1len : ((SV.empty 28 '\x00').buf.take (n + 1 + if fd.sign then 1 else 0)).length =
      n + 1 + if fd.sign then 1 else 0 := by
    simp [SV.empty]; split <;> omega
  obtain ⟨t2, e2, g2⟩ : ∃ t2 : Str, (do
      let tmp ← (SV.empty 28 '\x00').resize (n + 1 + if fd.sign then 1 else 0)
      let tmp ← writeMantissa tmp 1 fd.digits
      writeSign tmp fd.sign) = .ok t2 ∧
      t2.Holds 28 ((if fd.sign then ['-'] else []) ++ mantissa fd.digits) := by
    rw [e1]
    simp only [Outcome.bind_ok]
    generalize (SV.empty 28 '\x00').buf.take (n + 1 + if fd.sign then 1 else 0) = L at *
    generalize ({ SV.empty 28 '\x00' with size := n + 1 + if fd.sign then 1 else 0 } : Str) = T at *
    cases hs : fd.sign with
    | true =>
      rw [hs] at g1len
      obtain ⟨c, L, rfl⟩ : ∃ c L', L = c :: L' := by
        cases L with
        | nil => simp at g1len
        | cons c L => exact ⟨c, L, rfl⟩
      have g1 : T.Holds 28 ([c] ++ L ++ []) := by simpa using g1
      obtain ⟨u, eu, gu⟩ := writeMantissa_holds fd.digits T [c] L [] h0 (by simp at g1len; omega) g1
      change writeMantissa T 1 fd.digits = _ at eu
      rw [eu]
      simp only [Outcome.bind_ok, writeSign, if_true]
      obtain ⟨u', eu', gu'⟩ := gu.setAt (i := 0) (by simp) '-'
      exact ⟨u', eu', by simpa using gu'⟩
    | false =>
      rw [hs] at g1len
      have g1 : T.Holds 28 ([] ++ L ++ []) := by simpa using g1
      obtain ⟨u, eu, gu⟩ := writeMantissa_holds fd.digits T [] L [] h0 (by simp at g1len; omega) g1
      change writeMantissa T 1 fd.digits = _ at eu
      rw [eu]
      simp only [Outcome.bind_ok]
      exact ⟨u, rfl, by simpa using gu⟩
  have g2len : ((if fd.sign then ['-'] else []) ++ mantissa fd.digits).length ≤ 22 := by
    rw [List.length_append, mantissa_length, hn]; split <;> simp <;> omega
  obtain ⟨a1, ea1, e2⟩ := bind_eq_ok e2
  obtain ⟨a2, ea2, e2⟩ := bind_eq_ok e2
  rw [ea1]
  simp only [Outcome.bind_ok]
  rw [ea2]
  simp only [Outcome.bind_ok]
  rw [e2]
  simp only [Outcome.bind_ok]
  generalize (if fd.sign then ['-'] else []) ++ mantissa fd.digits = M at *
  -- the exponent
  obtain ⟨t3, stale, e3, hsl, g3⟩ := grow_holds g2 (n := max 2 (Append.numDigits 8 x.natAbs) + 2) (by omega) hst
  rw [e3]
  simp only [Outcome.bind_ok]
  obtain ⟨y, z, mid, rfl⟩ : ∃ y z mid, stale = y :: z :: mid := by
    match stale, hsl with
    | y :: z :: mid, _ => exact ⟨y, z, mid, rfl⟩
  simp only [List.length_cons] at hsl
  have g3 : t3.Holds 28 ((M ++ [y, z]) ++ mid) := by simpa using g3
  obtain ⟨t4, e4, g4⟩ := exponent_holds x.natAbs t3 _ mid (by omega) g3
  obtain ⟨⟨b1, k1⟩, eb1, e4⟩ := bind_eq_ok e4
  rw [Int.toNat_natCast, eb1]
  simp only [Outcome.bind_ok] at e4 ⊢
  rw [e4]
  simp only [Outcome.bind_ok]
  have hml : mid.length = (exponentText x.natAbs).length := by rw [exponentText_length]; omega
  have g4 : t4.Holds 28 ((M ++ [y]) ++ z :: exponentText x.natAbs) := by simpa using g4
  obtain ⟨t5, e5, g5⟩ := setBack_holds g4 (if x ≥ 0 then '+' else '-') (k := mid.length + 1) (by omega)
  rw [e5]
  simp only [Outcome.bind_ok]
  have g5 : t5.Holds 28 (M ++ y :: ((if x ≥ 0 then '+' else '-') :: exponentText x.natAbs)) := by simpa using g5
  obtain ⟨t6, e6, g6⟩ := setBack_holds g5 'e' (k := mid.length + 1 + 1) (by simp; omega)
  rw [e6]
  simp only [Outcome.bind_ok]
  rw [g6.contents]
  exact Append.constexpr_holds h hcap _

/-! ## Reading it back -/

theorem numeral_digits (n : ℕ) : ∀ c ∈ Append.numeral 8 n, ∃ i < 10, c = digitOf i := by
  induction n using Nat.strongRecOn with
  | ind n ih =>
    rw [Append.numeral]
    split
    · rename_i h
      intro c hc
      exact ⟨n, h, List.mem_singleton.1 hc⟩
    · intro c hc
      rcases List.mem_append.1 hc with h | h
      · exact ih (n / (8 + 2)) (by omega) c h
      · exact ⟨n % (8 + 2), by omega, List.mem_singleton.1 h⟩

theorem digitOf_ne {i : ℕ} (h : i < 10) : digitOf i ≠ 'e' ∧ digitOf i ≠ '-' := by
  have : ∀ i : Fin 10, digitOf i.1 ≠ 'e' ∧ digitOf i.1 ≠ '-' := by decide
  exact this ⟨i, h⟩

theorem span_e {cs t : Text} (h : ∀ c ∈ cs, c ≠ 'e') :
    (cs ++ 'e' :: t).takeWhile (· ≠ 'e') = cs ∧ (cs ++ 'e' :: t).dropWhile (· ≠ 'e') = 'e' :: t := by
  induction cs with
  | nil => simp
  | cons c cs ih =>
    have hc : c ≠ 'e' := h c (List.mem_cons_self ..)
    have := ih fun c hc => h c (List.mem_cons_of_mem _ hc)
    simp [hc] at this ⊢
    exact this

theorem exponentText_ok (a : ℕ) : readNat 10 (exponentText a) = some a ∧
    ¬((exponentText a).length < 2 ∨ (2 < (exponentText a).length ∧ (exponentText a).head? = some '0')) := by
  refine ⟨?_, ?_⟩
  · unfold exponentText
    split
    · rename_i h
      have : ∀ i : Fin 10, readNat 10 ['0', digitOf i.1] = some i.1 := by decide
      exact this ⟨a, h⟩
    · exact Append.readNat_numeral (b := 8) (by decide) a
  · have hl := exponentText_length a
    intro h
    rcases h with h | ⟨h, h'⟩
    · omega
    · unfold exponentText at h h'
      split at h
      · simp at h
      · rename_i ha
        rw [if_neg ha] at h'
        have := (Append.numeral_canonical (b := 8) (by decide) a).2 h'
        rw [this] at h
        simp at h

theorem read_fixedText (fd : SignedFixed) :
    readScientific (fixedText fd) = some (fd.sign, fd.digits, fd.exponent) := by
  have key : ∀ x : ℤ, x = fd.exponent + Append.numDigits 8 fd.digits - 1 →
      readUnsignedScientific (mantissa fd.digits ++ 'e' :: (if x ≥ 0 then '+' else '-') :: exponentText x.natAbs) =
        some (fd.digits, fd.exponent) := by
    intro x hx
    obtain ⟨c, cs, h1, h2⟩ := mantissa_eq fd.digits
    have hcs : ∀ c ∈ cs, c ≠ 'e' := by
      intro c' hc'
      obtain ⟨i, hi, rfl⟩ := numeral_digits fd.digits c' (by rw [h1]; exact List.mem_cons_of_mem _ hc')
      exact (digitOf_ne hi).1
    have hr : readNat 10 (c :: cs) = some fd.digits := by
      rw [← h1]; exact Append.readNat_numeral (b := 8) (by decide) _
    have hlen : cs.length + 1 = Append.numDigits 8 fd.digits := by
      rw [← Append.length_numeral, h1]; rfl
    obtain ⟨he1, he2⟩ := exponentText_ok x.natAbs
    rw [h2]
    change readUnsignedScientific (c :: '.' :: (cs ++ _)) = _
    rw [readUnsignedScientific]
    obtain ⟨s1, s2⟩ := span_e (t := (if x ≥ 0 then '+' else '-') :: exponentText x.natAbs) hcs
    rw [s1, s2]
    change (if (exponentText x.natAbs).length < 2 ∨
      (2 < (exponentText x.natAbs).length ∧ (exponentText x.natAbs).head? = some '0') then none
      else if c = '0' ∧ cs.any (· ≠ '0') then none
      else match readNat 10 (c :: cs), readNat 10 (exponentText x.natAbs) with
        | some d, some y =>
          if (if x ≥ 0 then '+' else '-') = '+' then some (d, (y : ℤ) - cs.length)
          else if (if x ≥ 0 then '+' else '-') = '-' then some (d, -(y : ℤ) - cs.length)
          else none
        | _, _ => none) = _
    have hz : ¬(c = '0' ∧ cs.any (· ≠ '0')) := by
      rintro ⟨h0, h⟩
      have := (Append.numeral_canonical (b := 8) (by decide) fd.digits).2 (by rw [h1, h0]; rfl)
      rw [h1] at this
      rw [(List.cons.inj this).2] at h
      simp at h
    rw [if_neg he2, if_neg hz, hr, he1]
    dsimp only
    by_cases hx0 : x ≥ 0
    · rw [if_pos hx0, if_pos rfl]
      congr 2; omega
    · rw [if_neg hx0, if_neg (by decide), if_pos rfl]
      congr 2; omega
  unfold fixedText
  have key := key _ rfl
  dsimp only
  cases hs : fd.sign with
  | true =>
    change readScientific ('-' :: (mantissa fd.digits ++ _)) = _
    rw [readScientific, key]
    rfl
  | false =>
    change readScientific (mantissa fd.digits ++ _) = _
    rw [readScientific.eq_2, key]
    · rfl
    · intro t ht
      obtain ⟨c, cs, h1, h2⟩ := mantissa_eq fd.digits
      rw [h2] at ht
      obtain ⟨i, hi, rfl⟩ := numeral_digits fd.digits c (by rw [h1]; exact List.mem_cons_self ..)
      exact (digitOf_ne hi).2 (List.cons.inj ht).1

end Verif.Float
