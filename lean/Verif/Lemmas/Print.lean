import Verif.Model.Print
import Verif.Spec.Print
import Verif.Lemmas.Append
/-! Helper lemmas about printing. -/
namespace Verif.Print
open SV Verif.Print.Spec Verif.Spec

/-- Contents after appending an argument to a buffer showing `l`. -/
def after (cap : Nat) (l : Text) : Arg → Text
  | .str s => fill cap l s
  | .value s => fill cap l s
  | .colored c =>
    if cap - l.length ≤ c.start.length + c.stop.length then l
    else if l.length + c.start.length + c.value.length ≤ cap then
      fill cap l (c.start ++ c.value ++ c.stop)
    else (l ++ c.start ++ c.value).take (cap - c.stop.length) ++ c.stop

/-- Whether appending returns `true`. -/
def fits (cap : Nat) (l : Text) : Arg → Bool
  | .str s => l.length + s.length ≤ cap
  | .value s => l.length + s.length ≤ cap
  | .colored c => c.start.length + c.stop.length < cap - l.length ∧
      l.length + c.start.length + c.value.length + c.stop.length ≤ cap

theorem appendColored_holds {v : Str} {cap : Nat} {l : Text} (h : v.Holds cap l) (hcap : cap < sizeT)
    (c : Colored) : ∃ v', appendColored v c = .ok (v', fits cap l (.colored c)) ∧
      v'.Holds cap (after cap l (.colored c)) := by
  have hle := h.le
  unfold appendColored after fits
  dsimp only
  rw [h.available]
  by_cases h1 : cap - l.length ≤ c.start.length + c.stop.length
  · rw [if_pos h1, if_pos h1]
    exact ⟨v, by simp; omega, h⟩
  · rw [if_neg h1, if_neg h1]
    obtain ⟨v1, e1, hv1⟩ := Append.variadic_holds false hcap [c.start, c.value] h
    have efl : [c.start, c.value].flatten = c.start ++ c.value := by simp
    rw [efl] at e1 hv1
    rw [e1, Outcome.bind_ok]
    dsimp only
    by_cases h2 : l.length + c.start.length + c.value.length ≤ cap
    · have e2 : decide (l.length + (c.start ++ c.value).length ≤ cap) = true := by simp; omega
      have e3 : fill cap l (c.start ++ c.value) = l ++ c.start ++ c.value := by
        unfold fill
        rw [List.take_of_length_le (by simp; omega), List.append_assoc]
      rw [e2, if_pos h2]
      rw [e3] at hv1
      obtain ⟨v2, e4, hv2⟩ := Append.text_holds false hv1 hcap c.stop
      simp only [makeRoom, if_true, Outcome.pure_eq, Outcome.bind_ok, e4]
      refine ⟨v2, ?_, ?_⟩
      · have : decide ((l ++ c.start ++ c.value).length + c.stop.length ≤ cap) =
            decide (c.start.length + c.stop.length < cap - l.length ∧
              l.length + c.start.length + c.value.length + c.stop.length ≤ cap) := by
          rw [decide_eq_decide]; simp; omega
        rw [this, Bool.and_true]
      · have : fill cap (l ++ c.start ++ c.value) c.stop = fill cap l (c.start ++ c.value ++ c.stop) := by
          simp [fill]
        rw [← this]; exact hv2
    · have e2 : decide (l.length + (c.start ++ c.value).length ≤ cap) = false := by simp; omega
      rw [e2, if_neg h2]
      obtain ⟨e3, hv2⟩ := hv1.resize (n := cap - c.stop.length) (by omega)
      have e4 : v1.buf.take (cap - c.stop.length) =
          (l ++ c.start ++ c.value).take (cap - c.stop.length) := by
        have hc := hv1.contents
        have hs := hv1.2.1
        have hlen : (fill cap l (c.start ++ c.value)).length = cap := by
          simp [fill]; omega
        unfold SV.contents at hc
        rw [hs, hlen] at hc
        have := congrArg (List.take (cap - c.stop.length)) hc
        rw [List.take_take, Nat.min_eq_left (by omega)] at this
        rw [this]
        unfold fill
        rw [List.take_take, Nat.min_eq_left (by omega), List.append_assoc]
      have hcap1 : v1.capacity = cap := hv1.capacity
      simp only [makeRoom, Bool.false_eq_true, if_false, hcap1, e3, Outcome.bind_ok]
      rw [e4] at hv2
      have hl2 : ((l ++ c.start ++ c.value).take (cap - c.stop.length)).length = cap - c.stop.length := by
        simp; omega
      obtain ⟨v3, e5, hv3⟩ := Append.text_holds false hv2 hcap c.stop
      rw [e5, Outcome.bind_ok]
      refine ⟨v3, ?_, ?_⟩
      · have : decide (c.start.length + c.stop.length < cap - l.length ∧
              l.length + c.start.length + c.value.length + c.stop.length ≤ cap) = false := by
          simp only [decide_eq_false_iff_not]; omega
        rw [this, Bool.and_false]; rfl
      · have : fill cap ((l ++ c.start ++ c.value).take (cap - c.stop.length)) c.stop =
            (l ++ c.start ++ c.value).take (cap - c.stop.length) ++ c.stop := by
          unfold fill
          rw [List.take_of_length_le]
          rw [List.length_append, hl2]; omega
        rw [← this]; exact hv3

theorem appendArg_holds {v : Str} {cap : Nat} {l : Text} (h : v.Holds cap l) (hcap : cap < sizeT)
    (a : Arg) : ∃ v', appendArg v a = .ok (v', fits cap l a) ∧ v'.Holds cap (after cap l a) := by
  cases a with
  | str s => exact Append.text_holds false h hcap s
  | value s => exact Append.text_holds false h hcap s
  | colored c => exact appendColored_holds h hcap c

theorem after_of_fits {cap : Nat} {l : Text} {a : Arg} (h : fits cap l a = true) :
    after cap l a = l ++ whole a := by
  cases a with
  | str s =>
    simp only [fits, decide_eq_true_eq] at h
    simp only [after, whole, fill]
    exact List.take_of_length_le (by simp; omega)
  | value s =>
    simp only [fits, decide_eq_true_eq] at h
    simp only [after, whole, fill]
    exact List.take_of_length_le (by simp; omega)
  | colored c =>
    simp only [fits, decide_eq_true_eq] at h
    simp only [after, whole]
    rw [if_neg (by omega), if_pos (by omega), fill, List.take_of_length_le (by simp; omega)]

theorem after_prefix {cap : Nat} {l : Text} (hl : l.length ≤ cap) (a : Arg) :
    (after cap l a).take l.length = l := by
  have hf : ∀ s, (fill cap l s).take l.length = l := by
    intro s
    unfold fill
    rw [List.take_take, Nat.min_eq_left hl, List.take_append_of_le_length (Nat.le_refl _),
      List.take_length]
  cases a with
  | str s => exact hf s
  | value s => exact hf s
  | colored c =>
    unfold after
    dsimp only
    split
    · exact List.take_length
    · split
      · exact hf _
      · rw [List.take_append_of_le_length (by simp; omega), List.take_take, Nat.min_eq_left (by omega),
          List.append_assoc, List.take_append_of_le_length (Nat.le_refl _), List.take_length]

theorem shown_of_fits {cap : Nat} {a : Arg} (h : fits cap [] a = true) : shown cap a = whole a := by
  cases a with
  | str s => rfl
  | value s =>
    simp only [fits, decide_eq_true_eq, List.length_nil] at h
    simp only [shown, whole]
    rw [if_pos (by omega)]
  | colored c =>
    simp only [fits, decide_eq_true_eq, List.length_nil] at h
    simp only [shown, whole]
    rw [if_neg (by omega), if_pos (by omega)]

theorem holds_clear {v : Str} {cap : Nat} {l : Text} (h : v.Holds cap l) : v.clear.Holds cap [] := by
  refine ⟨h.1, rfl, ?_⟩
  simp [SV.clear]

theorem cutShort_eq {v : Str} {cap : Nat} {l : Text} (h : v.Holds cap l) (hcap : cap < sizeT)
    (chunks : List Text) : ∃ v', cutShort v chunks = .ok (v', chunks ++ [l]) ∧
      v'.Holds cap ("...".toList.take cap) := by
  unfold cutShort
  obtain ⟨v', e, hv⟩ := Append.text_holds false (holds_clear h) hcap "...".toList
  rw [e, Outcome.bind_ok, h.contents]
  exact ⟨v', rfl, by simpa [fill] using hv⟩

/-- One argument: the text already printed and the text in the buffer, together, grow by what the
argument prints as. -/
theorem appendOrPrint_eq {v : Str} {cap : Nat} {l : Text} (h : v.Holds cap l) (hcap : cap < sizeT)
    (a : Arg) (chunks : List Text) : ∃ v' l' more, appendOrPrint a v chunks = .ok (v', chunks ++ more) ∧
      v'.Holds cap l' ∧ more.flatten ++ l' = l ++ shown cap a := by
  unfold appendOrPrint
  obtain ⟨v1, e1, hv1⟩ := appendArg_holds h hcap a
  rw [e1, Outcome.bind_ok]
  dsimp only
  by_cases h1 : fits cap l a = true
  · rw [if_pos h1]
    refine ⟨v1, _, [], ?_, hv1, ?_⟩
    · simp
    · rw [after_of_fits h1, shown_of_fits]
      · rfl
      · cases a <;> simp only [fits, decide_eq_true_eq, List.length_nil] at h1 ⊢ <;> omega
  · rw [if_neg h1]
    have hs : v.size = l.length := h.2.1
    have hp := after_prefix h.le a
    obtain ⟨e2, hv2⟩ := hv1.resize (n := l.length) h.le
    have e3 : v1.buf.take l.length = l := by
      have hc := hv1.contents
      unfold SV.contents at hc
      rw [hv1.2.1] at hc
      have hl : l.length ≤ (after cap l a).length := by
        have := congrArg List.length hp
        simp only [List.length_take] at this; omega
      have := congrArg (List.take l.length) hc
      rw [List.take_take, Nat.min_eq_left hl, hp] at this
      exact this
    rw [e3] at hv2
    rw [hs, e2, Outcome.bind_ok]
    obtain ⟨v3, e4, hv3⟩ := appendArg_holds (holds_clear hv2) hcap a
    rw [e4, Outcome.bind_ok, hv2.contents]
    dsimp only
    by_cases h2 : fits cap [] a = true
    · rw [if_pos h2]
      refine ⟨v3, _, [l], rfl, hv3, ?_⟩
      rw [after_of_fits h2, shown_of_fits h2]
      simp
    · rw [if_neg h2]
      cases a with
      | str s => exact ⟨_, [], [l, s], by simp, holds_clear hv3, by simp [shown]⟩
      | value s =>
        obtain ⟨v4, e5, hv4⟩ := cutShort_eq hv3 hcap (chunks ++ [l])
        refine ⟨v4, _, [l, after cap [] (.value s)], ?_, hv4, ?_⟩
        · rw [List.append_assoc] at e5; exact e5
        · simp only [fits, decide_eq_true_eq, List.length_nil] at h2
          simp only [shown, after, fill]
          rw [if_neg (by omega)]
          simp
      | colored c =>
        obtain ⟨v4, e5, hv4⟩ := cutShort_eq hv3 hcap (chunks ++ [l])
        refine ⟨v4, _, [l, after cap [] (.colored c)], ?_, hv4, ?_⟩
        · rw [List.append_assoc] at e5; exact e5
        · simp only [fits, decide_eq_true_eq, List.length_nil] at h2
          simp only [shown, after, fill, List.length_nil, Nat.zero_add, Nat.sub_zero]
          by_cases h3 : cap ≤ c.start.length + c.stop.length
          · rw [if_pos h3, if_pos h3]; simp
          · rw [if_neg h3, if_neg h3, if_neg (c := _ + _ + _ ≤ cap) (by omega)]
            by_cases h4 : c.start.length + c.value.length ≤ cap
            · rw [if_pos h4, if_pos h4]; simp
            · rw [if_neg h4, if_neg h4]; simp

theorem printLoop_eq {cap : Nat} (hcap : cap < sizeT) : ∀ (args : List Arg) {v : Str} {l : Text}
    (_ : v.Holds cap l) (chunks : List Text),
    ∃ v' l' more, printLoop args v chunks = .ok (v', chunks ++ more) ∧
      v'.Holds cap l' ∧ more.flatten ++ l' = l ++ args.flatMap (shown cap) := by
  intro args
  induction args with
  | nil => intro v l h chunks; exact ⟨v, l, [], by simp [printLoop], h, by simp⟩
  | cons a as ih =>
    intro v l h chunks
    obtain ⟨v1, l1, m1, e1, h1, c1⟩ := appendOrPrint_eq h hcap a chunks
    obtain ⟨v2, l2, m2, e2, h2, c2⟩ := ih h1 (chunks ++ m1)
    refine ⟨v2, l2, m1 ++ m2, ?_, h2, ?_⟩
    · rw [printLoop, e1, Outcome.bind_ok]
      dsimp only
      rw [e2, List.append_assoc]
    · rw [List.flatten_append, List.append_assoc, c2, ← List.append_assoc, c1, List.flatMap_cons,
        List.append_assoc]

theorem print_eq {cap : Nat} (hcap : cap < sizeT) (args : List Arg) :
    ∃ chunks, print cap args = .ok chunks ∧ chunks.flatten = args.flatMap (shown cap) := by
  obtain ⟨v, l, m, e, h, c⟩ := printLoop_eq hcap args (holds_empty cap ' ') []
  unfold print
  rw [e, Outcome.bind_ok]
  dsimp only
  rw [List.nil_append] at c
  refine ⟨_, rfl, ?_⟩
  rw [← c]
  have hs : v.size = l.length := h.2.1
  split
  · have : l = [] := List.length_eq_zero_iff.mp (by omega)
    simp [this]
  · rw [h.contents]; simp

end Verif.Print
