import Verif.Spec.TimeText
import Verif.Lemmas.Seconds
import Verif.Lemmas.Rounding
import Verif.Props.Float
/-! # What is written for a time -/
namespace Verif.Timing
open Verif.Spec Verif.Timing.Spec

/-! ## The bits of a rounded number -/

/-- A rounded number is that of some bits. -/
theorem toSingle_pattern {q : ℚ} (h1 : 1 / 2 ^ 126 ≤ q) (h2 : q < 2 ^ 127) :
    ∃ pattern, single.Finite pattern ∧ single.negative pattern = false ∧ ¬single.IsZero pattern ∧
      single.magnitude pattern = toSingle q := by
  have hq : 0 < q := lt_of_lt_of_le (by norm_num) h1
  obtain ⟨l1, l2⟩ := pow_log hq
  obtain ⟨b1, b2⟩ := toSingle_bounds hq
  rw [toSingle_pos hq] at b1 b2 ⊢
  generalize hl : Int.log 2 q = l at *
  have hlo : -126 ≤ l := by
    have : (2 : ℚ) ^ (-126 : ℤ) < 2 ^ (l + 1) := by
      refine lt_of_le_of_lt ?_ l2
      refine le_trans (le_of_eq ?_) h1
      rw [zpow_neg]
      norm_num
    have := (zpow_lt_zpow_iff_right₀ (a := (2 : ℚ)) (by norm_num)).mp this
    omega
  have hhi : l < 127 := by
    have : (2 : ℚ) ^ l < 2 ^ (127 : ℤ) := lt_of_le_of_lt l1 (by exact_mod_cast h2)
    exact (zpow_lt_zpow_iff_right₀ (a := (2 : ℚ)) (by norm_num)).mp this
  generalize nearestInt (q / 2 ^ (l - 23)) = n at *
  have hp : (0 : ℚ) < 2 ^ (l - 23) := by positivity
  have hl0 : (2 : ℚ) ^ l = ((2 ^ 23 : ℤ) : ℚ) * 2 ^ (l - 23) := by
    rw [zpow_sub₀ (by norm_num)]
    have : (2 : ℚ) ^ (23 : ℤ) = 2 ^ 23 := by norm_num
    rw [this]; push_cast; field_simp; norm_num
  have hl1 : (2 : ℚ) ^ (l + 1) = ((2 ^ 24 : ℤ) : ℚ) * 2 ^ (l - 23) := by
    rw [zpow_add₀ (by norm_num), hl0]; push_cast; ring
  rw [hl0] at b1
  rw [hl1] at b2
  have n1 : (2 : ℤ) ^ 23 ≤ n := by exact_mod_cast le_of_mul_le_mul_right b1 hp
  have n2 : n ≤ (2 : ℤ) ^ 24 := by exact_mod_cast le_of_mul_le_mul_right b2 hp
  have key : ∀ (e f : ℕ), 0 < e → e < 255 → f < 2 ^ 23 → (1 + (f : ℚ) / 2 ^ 23) * 2 ^ ((e : ℤ) - 127) = n * 2 ^ (l - 23) →
      ∃ pattern, single.Finite pattern ∧ single.negative pattern = false ∧ ¬single.IsZero pattern ∧
        single.magnitude pattern = n * 2 ^ (l - 23) := by
    intro e f he he' hf heq
    obtain ⟨k1, k2⟩ := magnitude_normal (p := e * 2 ^ 23 + f) rfl he he' hf
    refine ⟨_, k1, ?_, ?_, k2.trans heq⟩
    · unfold Binary.negative
      have : (e * 2 ^ 23 + f) / 2 ^ (single.fractionBits + single.exponentBits) = 0 :=
        Nat.div_eq_of_lt (show e * 2 ^ 23 + f < 2 ^ 31 by omega)
      rw [this]
      rfl
    · rintro ⟨z1, -⟩
      have h1 : single.biased (e * 2 ^ 23 + f) = e := by
        show (e * 2 ^ 23 + f) / 2 ^ 23 % 2 ^ 8 = e
        rw [Nat.mul_comm, Nat.mul_add_div (by norm_num), Nat.div_eq_of_lt hf, Nat.add_zero]
        exact Nat.mod_eq_of_lt (by omega)
      omega
  rcases Int.lt_or_eq_of_le n2 with hlt | heq
  · refine key (l + 127).toNat (n - 2 ^ 23).toNat (by omega) (by omega) (by omega) ?_
    have e1 : (((l + 127).toNat : ℕ) : ℤ) - 127 = l := by omega
    have e2 : (((n - 2 ^ 23).toNat : ℕ) : ℚ) = n - 2 ^ 23 := by
      have : (((n - 2 ^ 23).toNat : ℕ) : ℤ) = n - 2 ^ 23 := by omega
      exact_mod_cast this
    rw [e1, e2, hl0]
    push_cast
    field_simp
    ring
  · refine key (l + 128).toNat 0 (by omega) (by omega) (by omega) ?_
    have e1 : (((l + 128).toNat : ℕ) : ℤ) - 127 = l + 1 := by omega
    rw [e1, hl1, heq]
    push_cast
    ring

/-- The seconds between two times are a `float`. -/
theorem seconds_pattern {start stop : ℕ} (h : start ≤ stop) (hb : stop < 2 ^ 63) :
    ∃ pattern, single.Finite pattern ∧ single.negative pattern = false ∧ (single.IsZero pattern ↔ start = stop) ∧
      single.magnitude pattern = seconds toSingle start stop := by
  have hr := toSingle_rounds
  rcases Nat.eq_or_lt_of_le h with rfl | hlt
  · refine ⟨0, by unfold Binary.Finite; decide, by decide, ⟨fun _ => rfl, fun _ => by unfold Binary.IsZero; decide⟩, ?_⟩
    have h0 : single.magnitude 0 = 0 := by
      unfold Binary.magnitude
      rw [if_pos (by decide)]
      simp [Binary.fraction]
    rw [h0]
    unfold seconds
    rw [ticks_eq h hb]
    simp [rnd_zero hr]
  · have ht := ticks_eq h hb
    have hn : (1 : ℚ) ≤ ((stop - start : ℕ) : ℚ) := by exact_mod_cast (by omega : 1 ≤ stop - start)
    have hn2 : ((stop - start : ℕ) : ℚ) < 2 ^ 63 := by exact_mod_cast (by omega : stop - start < 2 ^ 63)
    have hnear := toSingle_near (q := ((stop - start : ℕ) : ℚ)) (by linarith)
    rw [abs_le] at hnear
    have e : seconds toSingle start stop = toSingle (toSingle ((stop - start : ℕ) : ℚ) / 1000000000) := by
      unfold seconds
      rw [ht, rnd_billion hr]
      push_cast
      rfl
    rw [e]
    obtain ⟨pattern, k1, k2, k3, k4⟩ := toSingle_pattern (q := toSingle ((stop - start : ℕ) : ℚ) / 1000000000)
      (by rw [le_div_iff₀ (by norm_num)]; norm_num at hnear ⊢; linarith [hnear.1])
      (by rw [div_lt_iff₀ (by norm_num)]; norm_num at hnear ⊢; linarith [hnear.2])
    exact ⟨pattern, k1, k2, ⟨fun hz => absurd hz k3, fun hs => by omega⟩, k4⟩

/-! ## The text -/

theorem fixedText_length {r : ℕ} {x : ℤ} (h1 : 10 ^ 6 ≤ r) (h2 : r < 10 ^ 7) (h3 : -900 ≤ x) (h4 : x ≤ 900) :
    (Float.fixedText ⟨r, x, false⟩).length ≤ 13 := by
  have hd : Append.numDigits 8 r = 7 := Float.numDigits_eq h1 h2
  unfold Float.fixedText
  dsimp only
  rw [hd]
  have he := Float.exponentText_length (x + (7 : ℕ) - 1).natAbs
  have hn : Append.numDigits 8 (x + (7 : ℕ) - 1).natAbs ≤ 2 + 1 := Append.numDigits_le (by
    show _ < 1000
    omega)
  simp only [Bool.false_eq_true, if_false, List.nil_append, List.length_append, List.length_cons, Float.mantissa_length, hd, he]
  omega

/-- What `append` writes for a `float` that is not negative. -/
theorem float_shown {pattern : ℕ} (hf : single.Finite pattern) (hn : single.negative pattern = false) :
    ∃ text, ShowsFloat (single.magnitude pattern) text ∧ ∀ ss : Str, ss.size ≤ ss.capacity → ss.capacity < 2 ^ 64 →
      ∃ r, Float.appendFloat Float.word64 Float.binary32 ss pattern Float.binary32.precision = some r ∧ Appended ss text r := by
  by_cases hz : single.IsZero pattern
  · have h0 : single.magnitude pattern = 0 := by
      unfold Binary.magnitude
      rw [if_pos hz.1, hz.2]
      simp
    refine ⟨Props.zeroText false 7, ⟨by decide, 0, _, Props.read_zeroText (by decide), fun _ => rfl, fun h => absurd h0 h⟩, ?_⟩
    intro ss hs hc
    refine ⟨_, ?_, Props.appendZero_appended (by decide) (by decide) ss hs hc⟩
    unfold Float.appendFloat Float.appendBits
    rw [Float.toBits_eq .single]
    dsimp only
    rw [hz.1, hz.2, if_pos rfl, if_pos rfl, hn]
    rfl
  · obtain ⟨D, E, r, j, hP, hA⟩ := Props.appendFloat_finite .single hf hz (precision := Float.binary32.precision) (by decide)
    obtain ⟨d1, d2, d3, d4⟩ := Props.printed_digits hP (by decide)
    rw [hn] at hA
    have hfull : 10 ^ 6 ≤ r := hP.full
    have hdig : r < 10 ^ 7 := hP.rounded.digits
    have hacc := hP.accurate
    refine ⟨Float.fixedText ⟨r, E + j, false⟩, ⟨fixedText_length hfull hdig ?_ ?_, r, E + j, Float.read_fixedText _, ?_, ?_⟩, ?_⟩
    · have := hP.lo; omega
    · have := hP.hi; have := hP.few; omega
    · intro h0
      exfalso
      apply hz
      exact Float.magnitude_zero.1 h0
    · intro _
      refine ⟨hfull, hdig, le_trans hacc ?_⟩
      apply mul_le_mul_of_nonneg_right _ (Float.ten_pow_pos _).le
      norm_num [Float.binary32]
    · intro ss hs hc
      refine ⟨_, hA _ Float.stores_word64 ss, ?_⟩
      have hpos := Append.numDigits_pos 8 r
      have := Props.numDigits_le_20 d2
      obtain ⟨ss', e1, e2⟩ := Float.appendFixed_holds (fd := ⟨r, E + j, false⟩) d1 d2 (by dsimp only; omega) (by dsimp only; omega)
        (SV.holds_of_wf hs) hc
      exact Props.appended_of_holds ⟨ss', e1, e2⟩

/-- Two times that the clock could give are rendered. -/
theorem rendered_exists {start stop : ℕ} (h : start ≤ stop) (hb : stop < 2 ^ 63) : ∃ d, Rendered start stop d := by
  obtain ⟨pattern, k1, k2, -, k4⟩ := seconds_pattern h hb
  obtain ⟨text, ht, -⟩ := float_shown k1 k2
  obtain ⟨m, hm, -⟩ := micros_near toSingle_rounds h hb
  exact ⟨⟨text, m⟩, by rw [← k4]; exact ht, hm⟩

theorem rendered_seconds {start stop : ℕ} (h : start ≤ stop) (hb : stop < 2 ^ 63) {d : Events.Duration}
    (hd : Rendered start stop d) : SaysSeconds start stop d.text := by
  obtain ⟨-, n, e, h1, h2, h3⟩ := hd.text
  refine ⟨n, e, h1, ?_⟩
  have hnear := seconds_near toSingle_rounds h hb
  have hnn := seconds_nonneg toSingle_rounds h hb
  have hs : (0 : ℚ) ≤ ((stop : ℚ) - start) / 10 ^ 9 := by
    have : (start : ℚ) ≤ stop := by exact_mod_cast h
    apply div_nonneg <;> [linarith; norm_num]
  generalize ((stop : ℚ) - start) / 10 ^ 9 = s at *
  generalize seconds toSingle start stop = v at *
  by_cases hv : v = 0
  · rw [h2 hv]
    subst hv
    rw [abs_le] at hnear
    have : s = 0 := by
      have := hnear.1
      linarith
    subst this
    simp
  · obtain ⟨k1, k2, k3⟩ := h3 hv
    have k1' : (10 : ℚ) ^ 6 ≤ n := by exact_mod_cast k1
    have hp := Float.ten_pow_pos e
    have hm : (10 : ℚ) ^ 6 * 10 ^ e ≤ n * 10 ^ e := mul_le_mul_of_nonneg_right k1' hp.le
    generalize (n : ℚ) * 10 ^ e = x at *
    generalize (10 : ℚ) ^ e = y at *
    rw [abs_le] at k3 hnear ⊢
    norm_num at k3 hnear hm ⊢
    constructor <;> linarith [k3.1, k3.2, hnear.1, hnear.2]

theorem rendered_micros {start stop : ℕ} (h : start ≤ stop) (hb : stop < 2 ^ 63) {d : Events.Duration}
    (hd : Rendered start stop d) : SaysMicros start stop d.micros := by
  obtain ⟨m, h1, h2⟩ := micros_near toSingle_rounds h hb
  rw [hd.micros] at h1
  cases h1
  exact h2

theorem micros_small {rnd : ℚ → ℚ} {v : ℚ} {m : ℕ} (h : micros rnd v = .ok m) : m < 2 ^ 64 := by
  unfold micros at h
  dsimp only at h
  split at h
  · rename_i hx
    cases h
    have : (rnd (v * rnd 1000000)).floor < 2 ^ 64 := by
      have h1 : ((rnd (v * rnd 1000000)).floor : ℚ) ≤ rnd (v * rnd 1000000) := Rat.floor_le _
      have h2 : ((rnd (v * rnd 1000000)).floor : ℚ) < 2 ^ 64 := lt_of_le_of_lt h1 hx.2
      exact_mod_cast h2
    omega
  · cases h

/-! ## The characters of the text -/

/-- What numbers in scientific notation are made of. -/
def numberChar (c : Char) : Bool := decide (('0' ≤ c ∧ c ≤ '9') ∨ c ∈ ['.', 'e', '+', '-'])

theorem readFrom_digits {acc n : ℕ} : ∀ {l : Text}, readFrom 10 acc l = some n → ∀ c ∈ l, '0' ≤ c ∧ c ≤ '9' := by
  intro l
  induction l generalizing acc with
  | nil => intro _ c hc; cases hc
  | cons a l ih =>
    intro h c hc
    rw [readFrom] at h
    split at h
    · rename_i x hx
      split at h
      · rename_i hlt
        rcases List.mem_cons.1 hc with rfl | hc
        · unfold digitVal at hx
          split at hx
          · assumption
          · split at hx
            · cases hx; omega
            · cases hx
        · exact ih h c hc
      · cases h
    · cases h

theorem readNat_digits {n : ℕ} {l : Text} (h : readNat 10 l = some n) : ∀ c ∈ l, '0' ≤ c ∧ c ≤ '9' := by
  unfold readNat at h
  split at h
  · cases h
  · exact readFrom_digits h

theorem unsigned_chars {t : Text} {x : ℕ × ℤ} (h : readUnsignedScientific t = some x) : ∀ c ∈ t, numberChar c = true := by
  have hdig : ∀ c, '0' ≤ c ∧ c ≤ '9' → numberChar c = true := fun c h => by
    unfold numberChar; exact decide_eq_true (.inl h)
  unfold readUnsignedScientific at h
  split at h
  · rename_i a t
    dsimp only at h
    split at h
    · rename_i sign ex hdrop
      split at h
      · cases h
      · split at h
        · cases h
        · split at h
          · rename_i d y h1 h2
            have hsign : sign = '+' ∨ sign = '-' := by
              split at h
              · left; assumption
              · split at h
                · right; assumption
                · cases h
            have ht : t = t.takeWhile (· ≠ 'e') ++ 'e' :: sign :: ex := by
              rw [← hdrop]; exact (List.takeWhile_append_dropWhile).symm
            intro c hc
            rw [ht] at hc
            simp only [List.mem_cons, List.mem_append] at hc
            rcases hc with rfl | rfl | hc | rfl | rfl | hc
            · exact hdig _ (readNat_digits h1 _ (List.mem_cons_self ..))
            · decide
            · exact hdig _ (readNat_digits h1 _ (List.mem_cons_of_mem _ hc))
            · decide
            · rcases hsign with rfl | rfl <;> decide
            · exact hdig _ (readNat_digits h2 _ hc)
          · cases h
    · cases h
  · cases h

theorem scientific_chars {t : Text} {x : Bool × ℕ × ℤ} (h : readScientific t = some x) : ∀ c ∈ t, numberChar c = true := by
  unfold readScientific at h
  split at h
  · rename_i t
    obtain ⟨y, hy, -⟩ := Option.map_eq_some_iff.1 h
    intro c hc
    rcases List.mem_cons.1 hc with rfl | hc
    · decide
    · exact unsigned_chars hy c hc
  · obtain ⟨y, hy, -⟩ := Option.map_eq_some_iff.1 h
    exact unsigned_chars hy

end Verif.Timing
