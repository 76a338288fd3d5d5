import Verif.Lemmas.Numeral
import Verif.Spec.Append
/-!
# C02–C06: appending text, integers and pointers

`v.size ≤ v.capacity` is the class invariant (preserved by every call, C01); `v.capacity < 2^64`
holds for every object that fits in memory.
-/
namespace Verif.Props
open Verif Verif.Spec SV

theorem appended_of_holds {v : Str} {s : Text} {r : Outcome (Str × Bool)}
    (h : ∃ v', r = .ok (v', decide (v.contents.length + s.length ≤ v.capacity)) ∧
      v'.Holds v.capacity (fill v.capacity v.contents s)) : Appended v s r := by
  obtain ⟨v', h1, h2⟩ := h
  refine ⟨v', _, h1, h2.capacity, ?_, h2.contents, by simp⟩
  rw [h2.capacity, h2.2.1]; exact h2.le

/-- **C02**. Appending a string, at compile time (`ce = true`) or at run time. -/
theorem C02_append_text (ce : Bool) (v : Str) (hv : v.size ≤ v.capacity)
    (hcap : v.capacity < 2 ^ 64) (s : Text) : Appended v s (Append.text ce v s) :=
  appended_of_holds (Append.text_holds ce (holds_of_wf hv) hcap s)

/-- What `Appended` promises, spelled out: the old content is kept, what is added is a prefix of
`s`, and it is the longest one that fits. -/
theorem C02_prefix_longest (v : Str) (hv : v.size ≤ v.capacity) (s : Text) (v' : Str) (ok : Bool)
    (h : Appended v s (.ok (v', ok))) :
    ∃ p, v'.contents = v.contents ++ p ∧ p <+: s ∧
      (∀ q, q <+: s → (v.contents ++ q).length ≤ v.capacity → q.length ≤ p.length) ∧
      (ok = true ↔ p = s) := by
  obtain ⟨v1, ok1, h1, h2, h3, h4, h5⟩ := h
  cases h1
  have hl : v.contents.length ≤ v.capacity := by simp [SV.contents]; omega
  refine ⟨s.take (v.capacity - v.contents.length), ?_, List.take_prefix _ _, ?_, ?_⟩
  · rw [h4, fill, List.take_append, List.take_of_length_le hl]
  · intro q hq hlen
    have := hq.length_le
    simp only [List.length_append] at hlen
    simp only [List.length_take]; omega
  · rw [h5]
    constructor
    · intro h; exact List.take_of_length_le (by omega)
    · intro h
      have := congrArg List.length h
      simp only [List.length_take] at this; omega

/-- **C02**. The compile-time and the run-time implementation agree. -/
theorem C02_paths_agree (v : Str) (hv : v.size ≤ v.capacity) (hcap : v.capacity < 2 ^ 64)
    (s : Text) : ∃ v1 v2 ok, Append.text true v s = .ok (v1, ok) ∧
      Append.text false v s = .ok (v2, ok) ∧ v1.contents = v2.contents := by
  obtain ⟨v1, ok1, e1, _, _, c1, b1⟩ := C02_append_text true v hv hcap s
  obtain ⟨v2, ok2, e2, _, _, c2, b2⟩ := C02_append_text false v hv hcap s
  have : ok1 = ok2 := by rw [Bool.eq_iff_iff, b1, b2]
  subst this
  exact ⟨v1, v2, ok1, e1, e2, by rw [c1, c2]⟩

/-- **C03**. Appending several strings is appending their concatenation. -/
theorem C03_append_variadic (ce : Bool) (v : Str) (hv : v.size ≤ v.capacity)
    (hcap : v.capacity < 2 ^ 64) (args : List Text) :
    Appended v args.flatten (Append.variadic ce v args) :=
  appended_of_holds (Append.variadic_holds ce hcap args (holds_of_wf hv))

/-- Numerals are unique, so "the numeral of `n`" is meaningful. -/
theorem C04_numeral_unique {base n : Nat} (h2 : 2 ≤ base) (h16 : base ≤ 16) {t u : Text}
    (ht : IsNumeral base n t) (hu : IsNumeral base n u) : t = u := by
  obtain ⟨b, rfl⟩ : ∃ b, base = b + 2 := ⟨base - 2, by omega⟩
  rw [Append.eq_numeral h16 ht.1 ht.2, Append.eq_numeral h16 hu.1 hu.2]

/-- **C04**. Compile-time printing of an unsigned 64-bit integer in base 10 to 16 appends its
numeral. -/
theorem C04_unsigned (base : Nat) (hb : 10 ≤ base) (hb' : base ≤ 16) (i : Nat) (hi : i < 2 ^ 64)
    (v : Str) (hv : v.size ≤ v.capacity) (hcap : v.capacity < 2 ^ 64) :
    ∃ t, IsNumeral base i t ∧ Appended v t (Append.unsigned (base - 2) v i) := by
  obtain ⟨b, rfl⟩ : ∃ b, base = b + 2 := ⟨base - 2, by omega⟩
  exact ⟨Append.numeral b i, ⟨Append.readNat_numeral hb' i, Append.numeral_canonical hb' i⟩,
    appended_of_holds (Append.unsigned_holds (by simp at hb; omega) hb' hi (holds_of_wf hv) hcap)⟩

/-- **C04** (run time). If `std::to_chars` produces the numeral, so does the run-time path, with
the same truncation behaviour, whatever is left in the buffer by a failed `to_chars`. -/
theorem C04_unsigned_runtime (base : Nat) (hb : 10 ≤ base) (hb' : base ≤ 16) (i : Nat)
    (hi : i < 2 ^ 64) (t garbage : Text) (ht : IsNumeral base i t)
    (v : Str) (hv : v.size ≤ v.capacity) (hcap : v.capacity < 2 ^ 64) :
    Appended v t (Append.appendTo v t garbage) := by
  obtain ⟨b, rfl⟩ : ∃ b, base = b + 2 := ⟨base - 2, by omega⟩
  refine appended_of_holds (Append.appendTo_holds (holds_of_wf hv) hcap t garbage ?_)
  rw [Append.eq_numeral hb' ht.1 ht.2, Append.length_numeral]
  exact Nat.le_trans (Append.numDigits_le_20 (by simp at hb; omega) hi) (by omega)

/-- **C05**. Compile-time printing of a signed 64-bit integer in base 10 to 16 appends its
numeral; the most negative value included. -/
theorem C05_signed (base : Nat) (hb : 10 ≤ base) (hb' : base ≤ 16) (i : Int)
    (hlo : -(2 ^ 63) ≤ i) (hhi : i < 2 ^ 63)
    (v : Str) (hv : v.size ≤ v.capacity) (hcap : v.capacity < 2 ^ 64) :
    ∃ t, IsIntNumeral base i t ∧ Appended v t (Append.signed (base - 2) v i) := by
  obtain ⟨b, rfl⟩ : ∃ b, base = b + 2 := ⟨base - 2, by omega⟩
  refine ⟨Append.numeralS b i, ?_, appended_of_holds
    (Append.signed_holds (by simp at hb; omega) hb' (by omega) (holds_of_wf hv) hcap)⟩
  have hn : IsNumeral (b + 2) i.natAbs (Append.numeral b i.natAbs) :=
    ⟨Append.readNat_numeral hb' _, Append.numeral_canonical hb' _⟩
  unfold Append.numeralS IsIntNumeral
  by_cases h : i < 0
  · right; exact ⟨h, _, by rw [if_pos h], hn⟩
  · left; rw [if_neg h]; exact ⟨by omega, hn⟩

/-- **C05** (round trip). A signed numeral reads back as the integer it was made from. -/
theorem C05_roundtrip (base : Nat) (hb : 2 ≤ base) (hb' : base ≤ 16) (i : Int) (t : Text)
    (h : IsIntNumeral base i t) : readInt base t = some i := by
  obtain ⟨b, rfl⟩ : ∃ b, base = b + 2 := ⟨base - 2, by omega⟩
  have : t = Append.numeralS b i := by
    unfold Append.numeralS
    rcases h with ⟨h0, h1, h2⟩ | ⟨h0, u, rfl, h1, h2⟩
    · rw [if_neg (by omega)]; exact Append.eq_numeral hb' h1 h2
    · rw [if_pos h0, Append.eq_numeral hb' h1 h2]
  rw [this]; exact Append.readInt_numeralS hb' i

/-- **C05** (run time), as `C04_unsigned_runtime`. -/
theorem C05_signed_runtime (base : Nat) (hb : 10 ≤ base) (hb' : base ≤ 16) (i : Int)
    (hlo : -(2 ^ 63) ≤ i) (hhi : i < 2 ^ 63) (t garbage : Text) (ht : IsIntNumeral base i t)
    (v : Str) (hv : v.size ≤ v.capacity) (hcap : v.capacity < 2 ^ 64) :
    Appended v t (Append.appendTo v t garbage) := by
  obtain ⟨b, rfl⟩ : ∃ b, base = b + 2 := ⟨base - 2, by omega⟩
  refine appended_of_holds (Append.appendTo_holds (holds_of_wf hv) hcap t garbage ?_)
  have hd := Append.numDigits_le_20 (b := b) (i := i.natAbs) (by simp at hb; omega) (by omega)
  rcases ht with ⟨h0, h1, h2⟩ | ⟨h0, u, rfl, h1, h2⟩
  · rw [Append.eq_numeral hb' h1 h2, Append.length_numeral]; omega
  · rw [Append.eq_numeral hb' h1 h2, List.length_cons, Append.length_numeral]; omega

/-- The last step of pointer printing (`append_to<16>`), in either build configuration. -/
def PrintsHex (last : Str → Nat → Outcome (Str × Bool)) : Prop :=
  last = Append.unsigned 14 ∨
  ∃ (numeral garbage : Nat → Text), (∀ n, IsNumeral 16 n (numeral n)) ∧
    last = fun v n => Append.appendTo v (numeral n) (garbage n)

/-- **C06**. A null pointer prints as `nullptr`; any other pointer of `psize` bytes as `0x`
followed by exactly `2 * psize` hexadecimal digits which read back as the address; the usual
truncation rule applies. -/
theorem C06_pointer (last : Str → Nat → Outcome (Str × Bool)) (hlast : PrintsHex last)
    (psize : Nat) (hp : psize ≤ 8) (addr : Nat) (ha : addr < 256 ^ psize)
    (v : Str) (hv : v.size ≤ v.capacity) (hcap : v.capacity < 2 ^ 64) :
    (addr = 0 → Appended v "nullptr".toList (Append.pointer last psize v addr)) ∧
    (addr ≠ 0 → ∃ ds : Text, ds.length = 2 * psize ∧ readNat 16 ds = some addr ∧
      Appended v ('0' :: 'x' :: ds) (Append.pointer last psize v addr)) := by
  constructor
  · rintro rfl
    simp only [Append.pointer, if_true, Append.nullptr]
    exact C02_append_text false v hv hcap _
  · intro h0
    have hlt : addr < 2 ^ 64 := by
      calc addr < 256 ^ psize := ha
        _ ≤ 256 ^ 8 := Nat.pow_le_pow_right (by omega) hp
        _ = 2 ^ 64 := by decide
    have hpz : psize ≠ 0 := by rintro rfl; simp at ha; omega
    have hnd : Append.numDigits 14 addr ≤ 2 * psize := by
      obtain ⟨k, hk⟩ : ∃ k, 2 * psize = k + 1 := ⟨2 * psize - 1, by omega⟩
      rw [hk]
      apply Append.numDigits_le
      rw [← hk, Nat.pow_mul]
      exact ha
    refine ⟨List.replicate (2 * psize - Append.numDigits 14 addr) '0' ++ Append.numeral 14 addr,
      ?_, ?_, ?_⟩
    · rw [List.length_append, List.length_replicate, Append.length_numeral]; omega
    · rw [readNat, if_neg (by simp [Append.numeral_ne_nil]), Append.readFrom_append,
        Append.readFrom_zeros (by omega)]
      exact Append.readFrom_numeral (b := 14) (by omega) addr
    · refine appended_of_holds (Append.pointer_holds ?_ h0 hnd (holds_of_wf hv) hcap)
      intro w cap l hw hc
      rcases hlast with rfl | ⟨num, g, hn, rfl⟩
      · exact Append.unsigned_holds (by omega) (by omega) hlt hw hc
      · have e := Append.eq_numeral (b := 14) (by omega) (hn addr).1 (hn addr).2
        simp only [e]
        refine Append.appendTo_holds hw hc _ _ ?_
        rw [Append.length_numeral]
        exact Nat.le_trans (Append.numDigits_le_20 (by omega) hlt) (by omega)

/-- **C06** (compile time): an address is not known, a fixed placeholder is printed. -/
theorem C06_pointer_constexpr (addr : Nat) (v : Str) (hv : v.size ≤ v.capacity)
    (hcap : v.capacity < 2 ^ 64) :
    Appended v (if addr = 0 then "nullptr".toList else "0x????????".toList)
      (Append.pointerConstexpr v addr) := by
  unfold Append.pointerConstexpr
  split
  · exact C02_append_text true v hv hcap _
  · exact C02_append_text true v hv hcap _

/-! ### Non-vacuity -/

/-- A buffer of capacity 6 holding "ab" (with stale characters behind). -/
private def demo : Str := { buf := "abzzzz".toList, size := 2 }

example : demo.size ≤ demo.capacity ∧ demo.capacity < 2 ^ 64 := by decide
example : (Append.text false demo "cdefg".toList) =
    .ok ({ buf := "abcdef".toList, size := 6 }, false) := by decide
example : (Append.text true demo "cd".toList) =
    .ok ({ buf := "abcdzz".toList, size := 4 }, true) := by decide
example : (Append.variadic false demo ["c".toList, "".toList, "defg".toList, "h".toList]) =
    .ok ({ buf := "abcdef".toList, size := 6 }, false) := by decide
example : IsNumeral 10 18446744073709551615 "18446744073709551615".toList := by
  refine ⟨by decide, by decide, by decide⟩
example : IsIntNumeral 10 (-9223372036854775808) "-9223372036854775808".toList :=
  Or.inr ⟨by decide, _, rfl, by decide, by decide, by decide⟩
example : PrintsHex (Append.unsigned 14) := Or.inl rfl
example : (48879 : Nat) < 256 ^ 8 := by decide

end Verif.Props
