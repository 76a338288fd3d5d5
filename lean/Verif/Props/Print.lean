import Verif.Lemmas.Print
/-!
# C34, C35: printing and coloured text
-/
namespace Verif.Props
open Verif Verif.Print Verif.Print.Spec SV

/-- **C34**. Printing strings of any length: the texts sent to the output are, together, exactly the
strings in order. -/
theorem C34_strings (cap : Nat) (hcap : cap < 2 ^ 64) (args : List Text) :
    ∃ chunks, print cap (args.map .str) = .ok chunks ∧ chunks.flatten = args.flatten := by
  obtain ⟨chunks, e, h⟩ := print_eq (cap := cap) hcap (args.map .str)
  refine ⟨chunks, e, h.trans ?_⟩
  rw [List.flatMap_map, List.flatten_eq_flatMap]
  rfl

/-- **C34**. Printing any arguments of which those that are not strings fit in the buffer: the texts
sent to the output are, together, the complete texts of the arguments in order. -/
theorem C34_print (cap : Nat) (hcap : cap < 2 ^ 64) (args : List Arg) (h : ∀ a ∈ args, Fits cap a) :
    ∃ chunks, print cap args = .ok chunks ∧ chunks.flatten = args.flatMap whole := by
  obtain ⟨chunks, e, hc⟩ := print_eq (cap := cap) hcap args
  refine ⟨chunks, e, hc.trans ?_⟩
  clear e hc chunks
  induction args with
  | nil => rfl
  | cons a as ih =>
    rw [List.flatMap_cons, List.flatMap_cons, ih fun b hb => h b (List.mem_cons_of_mem _ hb)]
    congr 1
    have ha := h a (by simp)
    cases a with
    | str s => rfl
    | value s => exact shown_of_fits (by simpa [fits, Fits] using ha)
    | colored c => exact shown_of_fits (by simp only [fits, Fits] at *; simp; omega)

/-- **C34**, all arguments: what is not a string and does not fit in the whole buffer is cut and
followed by an ellipsis (`shown`); all the rest is printed exactly, in order. -/
theorem C34_total (cap : Nat) (hcap : cap < 2 ^ 64) (args : List Arg) :
    ∃ chunks, print cap args = .ok chunks ∧ chunks.flatten = args.flatMap (shown cap) :=
  print_eq hcap args

/-- **C34**, one string. -/
theorem C34_single (s : Text) : (printStr s).flatten = s := by simp [printStr]

example : print 4 [.str "ab".toList, .str "cdefgh".toList, .value "12".toList, .str "ijk".toList] =
    .ok ["ab".toList, "cdefgh".toList, "12".toList, "ijk".toList] := by decide
example : print 4 [.str "a".toList, .value "12345".toList, .str "z".toList] =
    .ok ["a".toList, "1234".toList, "...z".toList] := by decide
example : ∀ a ∈ [Arg.str (List.replicate 100 'x'), .value "12".toList,
    .colored (makeColored "ok".toList true "\x1b[1;32m".toList)], Fits 20 a := by
  intro a ha
  simp only [List.mem_cons, List.not_mem_nil, or_false] at ha
  rcases ha with rfl | rfl | rfl
  · trivial
  · show _ ≤ _; decide
  · exact ⟨by decide, by decide⟩

/-- **C35**. If the starting code and the value leave room for the reset code, or do not even fit
themselves: either nothing is appended, or the starting code, a prefix of the value and the complete
reset code are; `true` is returned exactly in the second case with the whole value.
Partial: in the remaining case the reset code is cut, see `C35_reset_cut`. -/
theorem C35_closed_partial (v : Str) (hv : v.size ≤ v.capacity) (hcap : v.capacity < 2 ^ 64)
    (c : Colored)
    (h : v.size + c.start.length + c.value.length + c.stop.length ≤ v.capacity ∨
      v.capacity < v.size + c.start.length + c.value.length) :
    ∃ v' ok, appendColored v c = .ok (v', ok) ∧ v'.capacity = v.capacity ∧ v'.size ≤ v'.capacity ∧
      ((v'.contents = v.contents ∧ ok = false) ∨
        ∃ p, p <+: c.value ∧ v'.contents = v.contents ++ c.start ++ p ++ c.stop ∧
          (ok = true ↔ p = c.value)) := by
  have hh := holds_of_wf hv
  obtain ⟨v', e, hv'⟩ := appendColored_holds hh hcap c
  have hlen : v.contents.length = v.size := by rw [hh.2.1]
  refine ⟨v', _, e, hv'.capacity, ?_, ?_⟩
  · rw [hv'.capacity, hv'.2.1]; exact hv'.le
  · rw [hv'.contents]
    by_cases h1 : v.capacity - v.contents.length ≤ c.start.length + c.stop.length
    · left
      simp only [after, fits]
      rw [if_pos h1]
      exact ⟨rfl, by simp; omega⟩
    · right
      by_cases h2 : v.size + c.start.length + c.value.length ≤ v.capacity
      · have hf : fits v.capacity v.contents (.colored c) = true := by
          simp only [fits, decide_eq_true_eq]; omega
        refine ⟨c.value, List.prefix_rfl, ?_, by simp [hf]⟩
        rw [after_of_fits hf]
        simp [whole]
      · refine ⟨c.value.take (v.capacity - c.stop.length - v.size - c.start.length),
          List.take_prefix _ _, ?_, ?_⟩
        · simp only [after]
          rw [if_neg h1, if_neg (by omega), List.take_append, List.take_of_length_le (by simp; omega)]
          simp only [List.length_append, hlen, Nat.sub_sub, Nat.add_assoc]
        · have hf : fits v.capacity v.contents (.colored c) = false := by
            simp only [fits, decide_eq_false_iff_not]; omega
          rw [hf]
          constructor
          · intro h; cases h
          · intro h
            have := congrArg List.length h
            rw [List.length_take] at this
            omega

/-- **C35** fails in the remaining case, always: the starting code and the value fit, but the reset
code is cut, leaving an unfinished escape sequence. -/
theorem C35_reset_cut (v : Str) (hv : v.size ≤ v.capacity) (hcap : v.capacity < 2 ^ 64) (c : Colored)
    (h1 : v.size + c.start.length + c.value.length ≤ v.capacity)
    (h2 : v.capacity < v.size + c.start.length + c.value.length + c.stop.length)
    (h3 : v.size + c.start.length + c.stop.length < v.capacity) :
    ∃ v' p, appendColored v c = .ok (v', false) ∧ p <+: c.stop ∧ p ≠ c.stop ∧
      v'.contents = v.contents ++ c.start ++ c.value ++ p := by
  have hh := holds_of_wf hv
  obtain ⟨v', e, hv'⟩ := appendColored_holds hh hcap c
  have hlen : v.contents.length = v.size := by rw [hh.2.1]
  have hf : fits v.capacity v.contents (.colored c) = false := by
    simp only [fits, decide_eq_false_iff_not]; omega
  rw [hf] at e
  refine ⟨v', c.stop.take (v.capacity - v.size - c.start.length - c.value.length), e,
    List.take_prefix _ _, ?_, ?_⟩
  · intro h
    have := congrArg List.length h
    rw [List.length_take] at this
    omega
  · rw [hv'.contents]
    simp only [after]
    rw [if_neg (by omega), if_pos (by omega), Verif.Spec.fill, ← List.append_assoc, ← List.append_assoc,
      List.take_append, List.take_of_length_le (by simp; omega)]
    simp only [List.length_append, hlen, Nat.sub_sub]

example : (do let (v, ok) ← appendColored (SV.empty 16 ' ') (makeColored "abc".toList true "\x1b[1;31m".toList)
              return (v.contents, ok)) = .ok ("\x1b[1;31mabc\x1b[0m".toList, true) := by decide
example : (do let (v, ok) ← appendColored (SV.empty 16 ' ')
                (makeColored "abcdefghijkl".toList true "\x1b[1;31m".toList)
              return (v.contents, ok)) = .ok ("\x1b[1;31mabcde\x1b[0m".toList, false) := by decide
example : (do let (v, ok) ← appendColored (SV.empty 16 ' ')
                (makeColored "abcdefg".toList true "\x1b[1;31m".toList)
              return (v.contents, ok)) = .ok ("\x1b[1;31mabcdefg\x1b[".toList, false) := by decide

end Verif.Props
