import Verif.Lemmas.Append
/-! Helper lemmas about printing integers. -/
namespace Verif
open SV Spec
namespace Append

/-- The digit list of a number, most significant first (helper for the proofs only). -/
def numeral (b : Nat) (n : Nat) : Text :=
  if n < b + 2 then [(digits[n]?).getD '0']
  else numeral b (n / (b + 2)) ++ [(digits[n % (b + 2)]?).getD '0']
termination_by n
decreasing_by exact Nat.div_lt_self (by omega) (by omega)

theorem digitAt_lt {i : Nat} (h : i < 16) : digitAt i = .ok ((digits[i]?).getD '0') := by
  have : ∀ i : Fin 16, digitAt i = .ok ((digits[i.1]?).getD '0') := by decide
  exact this ⟨i, h⟩

theorem digitVal_digit {i : Nat} (h : i < 16) : digitVal ((digits[i]?).getD '0') = some i := by
  have : ∀ i : Fin 16, digitVal ((digits[i.1]?).getD '0') = some i.1 := by decide
  exact this ⟨i, h⟩

theorem digit_ne_zero {i : Nat} (h : i < 16) (h0 : i ≠ 0) : (digits[i]?).getD '0' ≠ '0' := by
  have : ∀ i : Fin 16, i.1 ≠ 0 → (digits[i.1]?).getD '0' ≠ '0' := by decide
  exact this ⟨i, h⟩ h0

theorem digit_ne_minus {i : Nat} (h : i < 16) : (digits[i]?).getD '0' ≠ '-' := by
  have : ∀ i : Fin 16, (digits[i.1]?).getD '0' ≠ '-' := by decide
  exact this ⟨i, h⟩

theorem length_numeral (b n : Nat) : (numeral b n).length = numDigits b n := by
  induction n using Nat.strongRecOn with
  | _ n ih =>
    rw [numeral, numDigits]
    by_cases h : n < b + 2
    · rw [if_pos h, if_neg (by omega)]; rfl
    · have : n / (b + 2) < n := Nat.div_lt_self (by omega) (by omega)
      rw [if_neg h, if_pos (by omega), List.length_append, ih _ this]; simp; omega

theorem numDigits_pos (b n : Nat) : 0 < numDigits b n := by
  rw [numDigits]; split <;> omega

theorem numeral_ne_nil (b n : Nat) : numeral b n ≠ [] := by
  intro h
  have := length_numeral b n
  rw [h] at this
  have := numDigits_pos b n
  simp at *; omega

theorem numDigits_le {b k : Nat} : ∀ {n : Nat}, n < (b + 2) ^ (k + 1) → numDigits b n ≤ k + 1 := by
  induction k with
  | zero => intro n h; rw [numDigits]; simp at h; rw [if_neg (by omega)]; omega
  | succ k ih =>
    intro n h
    rw [numDigits]
    split
    · have : n / (b + 2) < (b + 2) ^ (k + 1) := by
        apply Nat.div_lt_of_lt_mul
        rw [Nat.pow_succ] at h
        rwa [Nat.mul_comm]
      have := ih this; omega
    · omega

theorem readFrom_append (base : Nat) (xs ys : Text) : ∀ acc,
    readFrom base acc (xs ++ ys) = (readFrom base acc xs).bind (fun a => readFrom base a ys) := by
  induction xs with
  | nil => intro acc; simp [readFrom]
  | cons c cs ih =>
    intro acc
    simp only [List.cons_append, readFrom]
    split
    · split
      · exact ih _
      · rfl
    · rfl

theorem readFrom_numeral {b : Nat} (hb : b + 2 ≤ 16) (n : Nat) :
    readFrom (b + 2) 0 (numeral b n) = some n := by
  induction n using Nat.strongRecOn with
  | _ n ih =>
    rw [numeral]
    by_cases h : n < b + 2
    · rw [if_pos h]; simp [readFrom, digitVal_digit (show n < 16 by omega), h]
    · have hlt : n / (b + 2) < n := Nat.div_lt_self (by omega) (by omega)
      have hm : n % (b + 2) < b + 2 := Nat.mod_lt _ (by omega)
      rw [if_neg h, readFrom_append, ih _ hlt]
      simp only [Option.bind_some, readFrom, digitVal_digit (show n % (b + 2) < 16 by omega), hm,
        if_true, Option.some.injEq]
      exact Nat.div_add_mod' n (b + 2)

theorem readNat_numeral {b : Nat} (hb : b + 2 ≤ 16) (n : Nat) :
    readNat (b + 2) (numeral b n) = some n := by
  simp [readNat, numeral_ne_nil, readFrom_numeral hb]

theorem numeral_head {b : Nat} (n : Nat) :
    ∃ d, d < b + 2 ∧ (n ≠ 0 → d ≠ 0) ∧ (numeral b n).head? = some ((digits[d]?).getD '0') := by
  induction n using Nat.strongRecOn with
  | _ n ih =>
    rw [numeral]
    by_cases h : n < b + 2
    · exact ⟨n, h, fun h => h, by simp [h]⟩
    · have hlt : n / (b + 2) < n := Nat.div_lt_self (by omega) (by omega)
      obtain ⟨d, h1, h2, h3⟩ := ih _ hlt
      refine ⟨d, h1, ?_, ?_⟩
      · intro _; apply h2
        have := Nat.div_pos (show b + 2 ≤ n by omega) (by omega)
        omega
      · rw [if_neg h, List.head?_append, h3]; rfl

theorem numeral_canonical {b : Nat} (hb : b + 2 ≤ 16) (n : Nat) : Canonical (numeral b n) := by
  refine ⟨numeral_ne_nil b n, ?_⟩
  obtain ⟨d, h1, h2, h3⟩ := numeral_head (b := b) n
  intro h
  rw [h3] at h
  by_cases h0 : n = 0
  · subst h0; rw [numeral]; simp [digits]
  · exact absurd (Option.some.inj h) (digit_ne_zero (by omega) (h2 h0))

theorem readFrom_zeros {base : Nat} (hb : 0 < base) (n : Nat) :
    readFrom base 0 (List.replicate n '0') = some 0 := by
  induction n with
  | zero => rfl
  | succ n ih =>
    have : digitVal '0' = some 0 := by decide
    simp [List.replicate_succ, readFrom, this, hb, ih]

theorem digitVal_eq {c : Char} {d : Nat} (h : digitVal c = some d) :
    c = (digits[d]?).getD '0' := by
  have key : ∀ n : Fin 128, ∀ d, digitVal (Char.ofNat n.1) = some d →
      Char.ofNat n.1 = (digits[d]?).getD '0' := by
    intro n
    have : ∀ n : Fin 128, (digitVal (Char.ofNat n.1)).all
      (fun d => Char.ofNat n.1 == (digits[d]?).getD '0') = true := by decide
    intro d hd
    have h := this n
    rw [hd] at h
    simpa using h
  have hc : c.toNat < 128 := by
    unfold digitVal at h
    split at h
    · rename_i h1
      have : c.toNat ≤ '9'.toNat := h1.2
      have e : '9'.toNat = 57 := by decide
      omega
    · split at h
      · rename_i h1
        have : c.toNat ≤ 'f'.toNat := h1.2
        have e : 'f'.toNat = 102 := by decide
        omega
      · simp at h
  have := key ⟨c.toNat, hc⟩ d (by simpa using h)
  simpa using this

theorem eq_numeral_aux {b : Nat} (hb : b + 2 ≤ 16) : ∀ (k : Nat) (t : Text) (n : Nat),
    t.length = k → readNat (b + 2) t = some n → Canonical t → t = numeral b n := by
  intro k
  induction k with
  | zero =>
    intro t n hk h hc
    exact absurd (List.length_eq_zero_iff.mp hk) hc.1
  | succ k ih =>
    intro t n hk h hc
    have hne : t ≠ [] := hc.1
    obtain ⟨xs, c, rfl⟩ : ∃ xs c, t = xs ++ [c] := ⟨t.dropLast, t.getLast hne, (List.dropLast_concat_getLast hne).symm⟩
    rw [readNat, if_neg hne, readFrom_append] at h
    cases hx : readFrom (b + 2) 0 xs with
    | none => rw [hx] at h; simp at h
    | some m =>
      rw [hx] at h
      simp only [Option.bind_some, readFrom] at h
      split at h
      · rename_i d hd
        split at h
        · rename_i hdb
          have hcd := digitVal_eq hd
          have hn : m * (b + 2) + d = n := by simpa using h
          by_cases hxs : xs = []
          · subst hxs
            simp only [readFrom, Option.some.injEq] at hx
            subst hx
            simp only [Nat.zero_mul, Nat.zero_add] at hn
            subst hn
            rw [numeral, if_pos hdb, hcd]; rfl
          · have hcx : Canonical xs := by
              refine ⟨hxs, ?_⟩
              intro hh
              have : (xs ++ [c]).head? = some '0' := by rw [List.head?_append, hh]; rfl
              have := hc.2 this
              have hl := congrArg List.length this
              simp at hl
              exact absurd hl hxs
            have hxe := ih xs m (by simpa using hk) (by rw [readNat, if_neg hxs, hx]) hcx
            have hm : m ≠ 0 := by
              rintro rfl
              have h0 : xs = ['0'] := by rw [hxe, numeral]; simp [digits]
              have := hc.2 (by rw [h0]; rfl)
              have hl := congrArg List.length this
              simp at hl
              exact absurd hl hxs
            have hge : b + 2 ≤ n := by
              have : 1 * (b + 2) ≤ m * (b + 2) := Nat.mul_le_mul_right _ (by omega)
              omega
            have hdiv : n / (b + 2) = m := by
              rw [← hn, Nat.mul_comm, Nat.mul_add_div (by omega), Nat.div_eq_of_lt hdb]; rfl
            have hmod : n % (b + 2) = d := by
              rw [← hn, Nat.mul_comm, Nat.mul_add_mod, Nat.mod_eq_of_lt hdb]
            rw [numeral, if_neg (by omega), hdiv, hmod, hcd, ← hxe]
        · simp at h
      · simp at h

theorem eq_numeral {b : Nat} (hb : b + 2 ≤ 16) {t : Text} {n : Nat}
    (h : readNat (b + 2) t = some n) (hc : Canonical t) : t = numeral b n :=
  eq_numeral_aux hb t.length t n rfl h hc

/-- The digit loop writes the numeral right-aligned. -/
theorem writeDigits_holds {b : Nat} (hb : b + 2 ≤ 16) {cap : Nat} : ∀ (j : Nat) {tmp : Str}
    {l : Text} (k : Nat), tmp.Holds cap l → j ≠ 0 → numDigits b j + k ≤ l.length →
    ∃ tmp', writeDigits b tmp (k + 1) j = .ok tmp' ∧
      tmp'.Holds cap (l.take (l.length - k - numDigits b j) ++ numeral b j ++
        l.drop (l.length - k)) := by
  intro j
  induction j using Nat.strongRecOn with
  | _ j ih =>
    intro tmp l k h hj hl
    have hpos := numDigits_pos b j
    have hm : j % (b + 2) < b + 2 := Nat.mod_lt _ (by omega)
    rw [writeDigits, if_neg hj, digitAt_lt (by omega)]
    simp only [Outcome.bind_ok]
    rw [if_pos (by rw [h.2.1]; omega), h.2.1]
    obtain ⟨t1, e1, hh1⟩ := h.setAt (i := l.length - (k + 1)) (by omega)
      ((digits[j % (b + 2)]?).getD '0')
    rw [e1]
    simp only [Outcome.bind_ok]
    by_cases hq : j / (b + 2) = 0
    · rw [hq, writeDigits, if_pos rfl]
      refine ⟨t1, rfl, ?_⟩
      have hlt : j < b + 2 := by
        rcases Nat.div_eq_zero_iff.mp hq with h | h
        · omega
        · exact h
      rw [Nat.mod_eq_of_lt hlt] at hh1
      rw [numDigits, numeral, if_pos hlt, if_neg (by omega)]
      rw [List.set_eq_take_append_cons_drop, if_pos (by omega)] at hh1
      have : l.length - (k + 1) + 1 = l.length - k := by omega
      rw [this] at hh1
      have : l.length - k - 1 = l.length - (k + 1) := by omega
      rw [this]
      simpa using hh1
    · have hge : ¬ j < b + 2 := fun hlt => hq (Nat.div_eq_of_lt hlt)
      have hlt : j / (b + 2) < j := Nat.div_lt_self (by omega) (by omega)
      have hnd : numDigits b j = 1 + numDigits b (j / (b + 2)) := by
        rw [numDigits, if_pos (by omega)]
      obtain ⟨t2, e2, hh2⟩ := ih _ hlt (k + 1) hh1 hq (by simp; omega)
      refine ⟨t2, e2, ?_⟩
      have e3 : numeral b j = numeral b (j / (b + 2)) ++ [(digits[j % (b + 2)]?).getD '0'] := by
        rw [numeral, if_neg hge]
      rw [e3, hnd]
      generalize hd : (digits[j % (b + 2)]?).getD '0' = d at *
      generalize hN : numeral b (j / (b + 2)) = N at *
      generalize hn : numDigits b (j / (b + 2)) = n at *
      have hlen : (l.set (l.length - (k + 1)) d).length = l.length := by simp
      rw [hlen] at hh2
      have a1 : (l.set (l.length - (k + 1)) d).take (l.length - (k + 1) - n)
          = l.take (l.length - k - (1 + n)) := by
        rw [List.take_set, List.set_eq_of_length_le (by simp; omega)]
        congr 1; omega
      have a2 : (l.set (l.length - (k + 1)) d).drop (l.length - (k + 1))
          = d :: l.drop (l.length - k) := by
        rw [List.set_eq_take_append_cons_drop, if_pos (by omega)]
        rw [List.drop_append_of_le_length (by simp)]
        rw [List.drop_of_length_le (by simp)]
        have : l.length - (k + 1) + 1 = l.length - k := by omega
        rw [this]; rfl
      rw [a1, a2] at hh2
      simpa using hh2

theorem writeDigitsPos_eq (b : Nat) (j : Nat) : ∀ (tmp : Str) (k : Nat),
    writeDigitsPos b tmp k (j : Int) = writeDigits b tmp k j := by
  induction j using Nat.strongRecOn with
  | _ j ih =>
    intro tmp k
    rw [writeDigitsPos, writeDigits]
    by_cases hj : j = 0
    · simp [hj]
    · have hlt : j / (b + 2) < j := Nat.div_lt_self (by omega) (by omega)
      rw [if_neg (by omega), if_neg hj]
      have e1 : (j : Int).tmod ((b + 2 : Nat) : Int) = ((j % (b + 2) : Nat) : Int) := rfl
      have e2 : (j : Int).tdiv ((b + 2 : Nat) : Int) = ((j / (b + 2) : Nat) : Int) := rfl
      simp only [e1, e2]
      rw [if_pos (by omega)]
      simp only [Int.toNat_natCast, ih _ hlt]

theorem writeDigitsNeg_eq (b : Nat) (j : Nat) : ∀ (tmp : Str) (k : Nat),
    writeDigitsNeg b tmp k (-(j : Int)) = writeDigits b tmp k j := by
  induction j using Nat.strongRecOn with
  | _ j ih =>
    intro tmp k
    rw [writeDigitsNeg, writeDigits]
    by_cases hj : j = 0
    · simp [hj]
    · have hlt : j / (b + 2) < j := Nat.div_lt_self (by omega) (by omega)
      rw [if_neg (by omega), if_neg hj]
      have e1 : -((-(j : Int)).tmod ((b + 2 : Nat) : Int)) = ((j % (b + 2) : Nat) : Int) := by
        rw [Int.neg_tmod]; simp only [Int.neg_neg]; rfl
      have e2 : (-(j : Int)).tdiv ((b + 2 : Nat) : Int) = -((j / (b + 2) : Nat) : Int) := by
        rw [Int.neg_tdiv]; rfl
      simp only [e1, e2]
      rw [if_pos (by omega)]
      simp only [Int.toNat_natCast, ih _ hlt]

theorem numDigitsS_pos (b : Nat) (j : Nat) : j ≠ 0 → numDigitsS b (j : Int) = numDigits b j := by
  induction j using Nat.strongRecOn with
  | _ j ih =>
    intro hj
    rw [numDigitsS, numDigits]
    by_cases h : j ≥ b + 2
    · have hlt : j / (b + 2) < j := Nat.div_lt_self (by omega) (by omega)
      have hpos := Nat.div_pos (show b + 2 ≤ j by omega) (by omega)
      rw [if_pos (by left; omega), if_pos h]
      have e2 : (j : Int).tdiv ((b + 2 : Nat) : Int) = ((j / (b + 2) : Nat) : Int) := rfl
      rw [e2, ih _ hlt (by omega)]
    · rw [if_neg (by omega), if_neg h, if_pos (by omega)]

theorem numDigitsS_neg (b : Nat) (j : Nat) : j ≠ 0 →
    numDigitsS b (-(j : Int)) = numDigits b j + 1 := by
  induction j using Nat.strongRecOn with
  | _ j ih =>
    intro hj
    rw [numDigitsS, numDigits]
    by_cases h : j ≥ b + 2
    · have hlt : j / (b + 2) < j := Nat.div_lt_self (by omega) (by omega)
      have hpos := Nat.div_pos (show b + 2 ≤ j by omega) (by omega)
      rw [if_pos (by right; omega), if_pos h]
      have e2 : (-(j : Int)).tdiv ((b + 2 : Nat) : Int) = -((j / (b + 2) : Nat) : Int) := by
        rw [Int.neg_tdiv]; rfl
      rw [e2, ih _ hlt (by omega)]; omega
    · rw [if_neg (by omega), if_neg h, if_neg (by omega)]

theorem maxUintLength_eq : maxUintLength = 20 := by
  simp [maxUintLength, numDigits]
theorem maxIntLength_eq : maxIntLength = 21 := by
  simp [maxIntLength, maxUintLength_eq]

theorem resize_empty_holds {n cap : Nat} (h : n ≤ cap) :
    ∃ v l, (SV.empty cap '\x00').resize n = .ok v ∧ v.Holds cap l ∧ l.length = n := by
  obtain ⟨h1, h2⟩ := (holds_empty cap '\x00').resize h
  exact ⟨_, _, h1, h2, by simp [SV.empty, h]⟩

/-- Numbers below `base ^ 20` for base at least ten have at most 20 digits. -/
theorem numDigits_le_20 {b i : Nat} (hb : 8 ≤ b) (hi : i < 2 ^ 64) : numDigits b i ≤ 20 := by
  apply numDigits_le (k := 19)
  calc i < 2 ^ 64 := hi
    _ ≤ 10 ^ 20 := by decide
    _ ≤ (b + 2) ^ 20 := Nat.pow_le_pow_left (by omega) 20

theorem numeral_zero (b : Nat) : numeral b 0 = ['0'] := by rw [numeral]; simp [digits]

theorem unsigned_holds {b : Nat} (hb : 8 ≤ b) (hb' : b + 2 ≤ 16) {i : Nat} (hi : i < 2 ^ 64)
    {v : Str} {cap : Nat} {l : Text} (h : v.Holds cap l) (hcap : cap < sizeT) :
    ∃ v', unsigned b v i = .ok (v', decide (l.length + (numeral b i).length ≤ cap)) ∧
      v'.Holds cap (fill cap l (numeral b i)) := by
  unfold unsigned
  by_cases h0 : i = 0
  · subst h0; simp only [numeral_zero]; exact constexpr_holds h hcap ['0']
  · rw [if_pos h0]
    have hn := numDigits_le_20 hb hi
    obtain ⟨t, lt, e1, ht, hlt⟩ := resize_empty_holds (n := numDigits b i) (cap := maxUintLength)
      (by rw [maxUintLength_eq]; exact hn)
    obtain ⟨t', e2, ht'⟩ := writeDigits_holds hb' i 0 ht h0 (by omega)
    rw [e1]; simp only [Outcome.bind_ok]
    rw [e2]; simp only [Outcome.bind_ok]
    have : t'.contents = numeral b i := by
      rw [ht'.contents, hlt]; simp [← hlt]
    rw [this]
    exact constexpr_holds h hcap _

/-- The signed numeral. -/
def numeralS (b : Nat) (i : Int) : Text :=
  if i < 0 then '-' :: numeral b i.natAbs else numeral b i.natAbs

theorem signed_holds {b : Nat} (hb : 8 ≤ b) (hb' : b + 2 ≤ 16) {i : Int} (hi : i.natAbs < 2 ^ 64)
    {v : Str} {cap : Nat} {l : Text} (h : v.Holds cap l) (hcap : cap < sizeT) :
    ∃ v', signed b v i = .ok (v', decide (l.length + (numeralS b i).length ≤ cap)) ∧
      v'.Holds cap (fill cap l (numeralS b i)) := by
  unfold signed numeralS
  have hn := numDigits_le_20 hb hi
  by_cases hp : i > 0
  · obtain ⟨j, rfl⟩ : ∃ j : Nat, i = j := ⟨i.natAbs, by omega⟩
    simp only [Int.natAbs_natCast] at hn ⊢
    rw [if_pos hp, if_neg (by omega)]
    rw [numDigitsS_pos b j (by omega)]
    obtain ⟨t, lt, e1, ht, hlt⟩ := resize_empty_holds (n := numDigits b j) (cap := maxIntLength)
      (by rw [maxIntLength_eq]; omega)
    obtain ⟨t', e2, ht'⟩ := writeDigits_holds hb' j 0 ht (by omega) (by omega)
    rw [e1]; simp only [Outcome.bind_ok]
    rw [writeDigitsPos_eq, e2]; simp only [Outcome.bind_ok]
    have : t'.contents = numeral b j := by
      rw [ht'.contents, hlt]; simp [← hlt]
    rw [this]
    exact constexpr_holds h hcap _
  · by_cases hm : i < 0
    · obtain ⟨j, rfl⟩ : ∃ j : Nat, i = -(j : Int) := ⟨i.natAbs, by omega⟩
      simp only [Int.natAbs_neg, Int.natAbs_natCast] at hn ⊢
      rw [if_neg hp, if_pos hm, if_pos hm]
      rw [numDigitsS_neg b j (by omega)]
      obtain ⟨t, lt, e1, ht, hlt⟩ := resize_empty_holds (n := numDigits b j + 1)
        (cap := maxIntLength) (by rw [maxIntLength_eq]; omega)
      obtain ⟨t', e2, ht'⟩ := writeDigits_holds hb' j 0 ht (by omega) (by omega)
      rw [e1]; simp only [Outcome.bind_ok]
      rw [writeDigitsNeg_eq, e2]; simp only [Outcome.bind_ok]
      have hlen := length_numeral b j
      obtain ⟨t'', e3, ht''⟩ := ht'.setAt (i := 0) (by simp; omega) '-'
      rw [e3]; simp only [Outcome.bind_ok]
      have : t''.contents = '-' :: numeral b j := by
        rw [ht''.contents, hlt]
        have hd : lt.drop (numDigits b j + 1) = [] := by simp [← hlt]
        simp only [Nat.sub_zero, hd, List.append_nil]
        have : numDigits b j + 1 - numDigits b j = 1 := by omega
        rw [this]
        cases lt with
        | nil => simp at hlt
        | cons c cs => simp
      rw [this]
      exact constexpr_holds h hcap _
    · obtain rfl : i = 0 := by omega
      simp only [numeral_zero, Int.natAbs_zero]
      exact constexpr_holds h hcap ['0']

theorem readInt_numeralS {b : Nat} (hb : b + 2 ≤ 16) (i : Int) :
    readInt (b + 2) (numeralS b i) = some i := by
  unfold numeralS
  by_cases h : i < 0
  · rw [if_pos h]
    simp [readInt, readNat_numeral hb]; omega
  · rw [if_neg h]
    obtain ⟨d, h1, _, h3⟩ := numeral_head (b := b) i.natAbs
    have hr := readNat_numeral hb i.natAbs
    cases hN : numeral b i.natAbs with
    | nil => exact absurd hN (numeral_ne_nil b _)
    | cons c cs =>
      rw [hN] at h3 hr
      have hc : c ≠ '-' := by
        have := digit_ne_minus (show d < 16 by omega)
        simp at h3; rw [h3]; exact this
      have : readInt (b + 2) (c :: cs) = (readNat (b + 2) (c :: cs)).map (fun n => (n : Int)) := by
        unfold readInt
        split
        · rename_i heq; simp at heq; exact absurd heq.1 hc
        · rfl
      rw [this, hr]; simp; omega

theorem length_numeralS {b : Nat} (hb : 8 ≤ b) {i : Int} (hi : i.natAbs < 2 ^ 64) :
    (numeralS b i).length ≤ 21 := by
  have := numDigits_le_20 hb hi
  unfold numeralS; split <;> simp [length_numeral] <;> omega

/-! ### std::to_chars path -/

theorem toChars_fit {v : Str} {cap : Nat} {l : Text} (h : v.Holds cap l) {t : Text} (g : Text)
    (ht : l.length + t.length ≤ cap) :
    ∃ v', toChars v t g = (v', some t.length) ∧ v'.Holds cap l ∧
      v'.buf.take (l.length + t.length) = l ++ t := by
  obtain ⟨h1, h2, h3⟩ := h
  have e : toChars v t g = ({ v with buf := (v.buf.take v.size ++ t ++
      v.buf.drop (v.size + t.length)) }, some t.length) := by rw [toChars, if_pos (by omega)]
  refine ⟨_, e, ⟨?_, h2, ?_⟩, ?_⟩
  · simp; omega
  · simp only [h3, List.append_assoc]
    rw [h2]; simp
  · simp only [h3]
    rw [List.take_append_of_le_length (by simp)]
    exact List.take_of_length_le (by simp)

theorem toChars_nofit {v : Str} {cap : Nat} {l : Text} (h : v.Holds cap l) {t : Text} (g : Text)
    (ht : cap < l.length + t.length) :
    ∃ v', toChars v t g = (v', none) ∧ v'.Holds cap l := by
  have hle := h.le
  obtain ⟨h1, h2, h3⟩ := h
  have e : toChars v t g = ({ v with buf := (v.buf.take v.size ++ g.take (v.buf.length - v.size) ++
      v.buf.drop (v.size + (g.take (v.buf.length - v.size)).length)) }, none) := by
    rw [toChars, if_neg (by omega)]
  refine ⟨_, e, ⟨?_, h2, ?_⟩⟩
  · simp; omega
  · simp only [h3, List.append_assoc]
    rw [h2]; simp

theorem appendTo_holds {v : Str} {cap : Nat} {l : Text} (h : v.Holds cap l) (hcap : cap < sizeT)
    (t g : Text) (ht : t.length ≤ 32) :
    ∃ v', appendTo v t g = .ok (v', decide (l.length + t.length ≤ cap)) ∧
      v'.Holds cap (fill cap l t) := by
  unfold appendTo
  by_cases hf : l.length + t.length ≤ cap
  · obtain ⟨v1, e1, hh, hb⟩ := toChars_fit h g hf
    rw [e1]
    simp only
    rw [hh.grow hf hcap]
    refine ⟨{ v1 with size := l.length + t.length }, by simp [hf], ⟨hh.1, ?_, ?_⟩⟩
    · simp [fill]; omega
    · simp only [hb]
      rw [fill, List.take_of_length_le (by simpa using hf)]
  · obtain ⟨v1, e1, hh⟩ := toChars_nofit h g (show cap < l.length + t.length by omega)
    rw [e1]
    simp only
    obtain ⟨v2, e2, hh2, hb2⟩ := toChars_fit (holds_empty 32 '\x00') (t := t) g (by simpa using ht)
    rw [e2]
    simp only
    rw [hh2.grow (by simpa using ht) (by decide)]
    simp only [Outcome.bind_ok]
    have : ({ v2 with size := ([] : Text).length + t.length } : Str).contents = t := by
      simp only [SV.contents]; rw [hb2]; simp
    rw [this]
    exact fast_holds hh hcap t

/-! ### pointers -/

theorem fill_replicate_pad {cap : Nat} {l : Text} {a c : Nat} (h : l.length + a ≤ cap) :
    fill cap (fill cap l (List.replicate a '0')) (List.replicate c '0') =
      fill cap l (List.replicate (a + c) '0') := by
  rw [fill_fill (by simpa using h), List.replicate_append_replicate]

theorem zeros_take (p : Nat) :
    ("0000000000000000".toList).take (min ("0000000000000000".toList).length p)
      = List.replicate (min 16 p) '0' := by
  have : "0000000000000000".toList = List.replicate 16 '0' := by decide
  rw [this, List.take_replicate, List.length_replicate]
  congr 1; omega

theorem padZeros_holds {cap : Nat} (hcap : cap < sizeT) (p : Nat) : ∀ {v : Str} {l : Text},
    v.Holds cap l →
    ∃ v', padZeros v p = .ok (v', decide (l.length + p ≤ cap)) ∧
      v'.Holds cap (fill cap l (List.replicate p '0')) := by
  induction p using Nat.strongRecOn with
  | _ p ih =>
    intro v l h
    rw [padZeros]
    by_cases hp : p > 0
    · rw [if_pos hp]
      simp only [zeros_take]
      have hl16 : ("0000000000000000".toList).length = 16 := by decide
      simp only [hl16]
      obtain ⟨v1, e1, hh1⟩ := fast_holds h hcap (List.replicate (min 16 p) '0')
      rw [e1]; simp only [Outcome.bind_ok, List.length_replicate]
      by_cases hf : l.length + min 16 p ≤ cap
      · simp only [hf, decide_true, if_true]
        obtain ⟨v2, e2, hh2⟩ := ih (p - min 16 p) (by omega) hh1
        refine ⟨v2, ?_, ?_⟩
        · rw [e2]
          have : (fill cap l (List.replicate (min 16 p) '0')).length = l.length + min 16 p := by
            simp [fill]; omega
          rw [this]
          congr 2
          rw [decide_eq_decide]; omega
        · rw [fill_replicate_pad hf] at hh2
          have : min 16 p + (p - min 16 p) = p := by omega
          rwa [this] at hh2
      · simp only [hf, decide_false, Bool.false_eq_true, if_false]
        refine ⟨v1, ?_, ?_⟩
        · have : ¬ (l.length + p ≤ cap) := by omega
          simp [this]
        · have e : List.replicate p '0' =
              List.replicate (min 16 p) '0' ++ List.replicate (p - min 16 p) '0' := by
            rw [List.replicate_append_replicate]; congr 1; omega
          rw [e, fill_of_full (by simp; omega)]
          exact hh1
    · obtain rfl : p = 0 := by omega
      refine ⟨v, ?_, ?_⟩
      · simp [h.le]
      · simpa [fill, List.take_of_length_le h.le] using h

/-- The text of a non-null pointer. -/
def pointerText (psize addr : Nat) : Text :=
  "0x".toList ++ (List.replicate (2 * psize - numDigits 14 addr) '0' ++ numeral 14 addr)

theorem pointer_holds {last : Str → Nat → Outcome (Str × Bool)} {psize : Nat} {addr : Nat}
    (hlast : ∀ {v : Str} {cap : Nat} {l : Text}, v.Holds cap l → cap < sizeT →
      ∃ v', last v addr = .ok (v', decide (l.length + (numeral 14 addr).length ≤ cap)) ∧
        v'.Holds cap (fill cap l (numeral 14 addr)))
    (h0 : addr ≠ 0) (hp : numDigits 14 addr ≤ 2 * psize)
    {v : Str} {cap : Nat} {l : Text} (h : v.Holds cap l) (hcap : cap < sizeT) :
    ∃ v', pointer last psize v addr =
        .ok (v', decide (l.length + (pointerText psize addr).length ≤ cap)) ∧
      v'.Holds cap (fill cap l (pointerText psize addr)) := by
  unfold pointer
  rw [if_neg h0]
  obtain ⟨v1, e1, hh1⟩ := fast_holds h hcap "0x".toList
  rw [e1]; simp only [Outcome.bind_ok]
  have hn := length_numeral 14 addr
  by_cases hf1 : l.length + "0x".toList.length ≤ cap
  · simp only [hf1, decide_true, Bool.not_true, Bool.false_eq_true, if_false]
    rw [if_pos hp]
    obtain ⟨v2, e2, hh2⟩ := padZeros_holds hcap (2 * psize - numDigits 14 addr) hh1
    rw [e2]; simp only [Outcome.bind_ok]
    have hl1 : (fill cap l "0x".toList).length = l.length + "0x".toList.length := by
      simp only [fill, List.length_take, List.length_append]; omega
    rw [hl1]
    by_cases hf2 : l.length + "0x".toList.length + (2 * psize - numDigits 14 addr) ≤ cap
    · simp only [hf2, decide_true, Bool.not_true, Bool.false_eq_true, if_false]
      obtain ⟨v3, e3, hh3⟩ := hlast hh2 hcap
      refine ⟨v3, ?_, ?_⟩
      · rw [e3]
        congr 2
        rw [decide_eq_decide]
        have : (fill cap (fill cap l "0x".toList)
            (List.replicate (2 * psize - numDigits 14 addr) '0')).length
            = l.length + "0x".toList.length + (2 * psize - numDigits 14 addr) := by
          rw [fill, List.length_take, List.length_append, hl1, List.length_replicate]; omega
        rw [this]
        simp only [pointerText, List.length_append, List.length_replicate]
        omega
      · rw [fill_fill (by simp only [hl1, List.length_replicate]; omega), fill_fill hf1] at hh3
        exact hh3
    · simp only [hf2, decide_false, Bool.not_false, if_true, Outcome.pure_eq]
      refine ⟨v2, ?_, ?_⟩
      · congr 2
        symm
        rw [decide_eq_false_iff_not]
        simp only [pointerText, List.length_append, List.length_replicate]; omega
      · rw [fill_fill hf1] at hh2
        rw [pointerText, ← List.append_assoc, fill_of_full]
        · exact hh2
        · rw [List.length_append, List.length_replicate]; omega
  · simp only [hf1, decide_false, Bool.not_false, if_true, Outcome.pure_eq]
    refine ⟨v1, ?_, ?_⟩
    · congr 2
      symm
      rw [decide_eq_false_iff_not]
      simp only [pointerText, List.length_append]; omega
    · rw [pointerText, fill_of_full (by omega)]
      exact hh1

end Append
end Verif
