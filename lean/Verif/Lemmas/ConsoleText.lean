import Verif.Lemmas.Console
import Verif.Lemmas.XmlText
/-!
# Lemmas about the text of the console report
-/
set_option linter.unusedSimpArgs false
namespace Verif.Report.Console
open Verif Verif.Print
open Verif.Report.Spec (decimal)
open Verif.Report.Spec.Console

variable {lim : Limits} {color : Bool}

/-- The pieces printed for a sequence of events. -/
def allPieces (lim : Limits) : Nat → List Event → List Piece
  | _, [] => []
  | n, e :: es => pieces lim n e ++ allPieces lim (listedAfter n e) es

theorem listedAfter_le (n : Nat) (e : Event) : listedAfter n e ≤ n + 1 := by
  cases e <;> simp [listedAfter]

theorem reportAll_eq (hlim : LimitsOk lim) : ∀ (es : List Event) (_ : ∀ e ∈ es, EventOk lim e) (st : State)
    (_ : st.counter + es.length < 2 ^ 64),
    ∃ n, reportAll lim color es st = .ok ⟨n, st.out ++ (allPieces lim st.counter es).flatMap (render color)⟩
  | [], _, st, _ => ⟨st.counter, by simp [reportAll, allPieces]⟩
  | e :: es, h, st, hn => by
    simp only [List.length_cons] at hn
    have hl := listedAfter_le st.counter e
    obtain ⟨n, k⟩ := reportAll_eq hlim es (fun x hx => h x (by simp [hx]))
      ⟨listedAfter st.counter e, st.out ++ (pieces lim st.counter e).flatMap (render color)⟩
      (by show listedAfter st.counter e + es.length < 2 ^ 64; omega)
    refine ⟨n, ?_⟩
    rw [reportAll, report_eq hlim (h e (by simp)) (by omega), Outcome.bind_ok, k]
    simp [allPieces]

/-! ## Without colours -/

theorem unlines_append (a b : List Text) : unlines (a ++ b) = unlines a ++ unlines b := by simp [unlines]

theorem unlines_cons (a : Text) (b : List Text) : unlines (a :: b) = a ++ ['\n'] ++ unlines b := by simp [unlines]

theorem split_section : "          in section \"".toList = "          ".toList ++ "in section \"".toList := by decide
theorem split_quote : "\"\n".toList = "\"".toList ++ ['\n'] := by decide
theorem split_newline : "\n".toList = ['\n'] := by decide
theorem split_capture : "          with ".toList = "          ".toList ++ "with ".toList := by decide
theorem split_type : "          for type ".toList = "          ".toList ++ "for type ".toList := by decide
theorem split_running : ": running test case \"".toList = ": ".toList ++ "running test case \"".toList := by decide

theorem render_lit (s : String) : render color (lit s) = s.toList := rfl
theorem render_plain (s : Text) : render color (.plain s) = s := rfl
theorem render_painted (c s : Text) : render false (.painted c s) = s := rfl

theorem indented_eq (s : Text) : indented s = "          ".toList ++ s := rfl
theorem rule_eq : rule = "==========================================".toList := rfl
theorem placePieces_plain (kind : Text) (id : Id) (place : Place) (data : Data) :
    kind ++ ": ".toList ++ ((placePieces id place ++ dataPieces data).flatMap (render false)) =
      unlines (entry kind id place data) := by
  have hs : ∀ l : List SectionId, (l.flatMap sectionPieces).flatMap (render false) =
      unlines (l.map fun s => indented ("in section \"".toList ++ s.name ++ "\"".toList)) := by
    intro l
    induction l with
    | nil => rfl
    | cons s l ih =>
      rw [List.flatMap_cons, List.flatMap_append, ih, List.map_cons, unlines_cons]
      simp only [sectionPieces, render_lit, render_plain, render_painted, indented_eq, List.flatMap_cons, List.flatMap_nil, List.append_assoc,
        List.append_nil, split_section, split_quote]
  have hc : ∀ l : List Text, (l.flatMap capturePieces).flatMap (render false) =
      unlines (l.map fun c => indented ("with ".toList ++ c)) := by
    intro l
    induction l with
    | nil => rfl
    | cons s l ih =>
      rw [List.flatMap_cons, List.flatMap_append, ih, List.map_cons, unlines_cons]
      simp only [capturePieces, render_lit, render_plain, render_painted, indented_eq, List.flatMap_cons, List.flatMap_nil, List.append_assoc,
        List.append_nil, split_capture, split_newline]
  have ht : (typePieces id).flatMap (render false) =
      unlines (if id.type = [] then [] else [indented ("for type ".toList ++ id.type)]) := by
    unfold typePieces
    split
    · rfl
    · simp only [unlines, render_lit, render_plain, render_painted, indented_eq, List.flatMap_cons, List.flatMap_nil, List.append_assoc,
        List.append_nil, split_type, split_newline]
  have hd : (dataPieces data).flatMap (render false) = unlines (dataLines data) := by
    cases data with
    | message m =>
      simp only [dataPieces, dataLines, unlines, render_lit, render_plain, render_painted, indented_eq, List.flatMap_cons, List.flatMap_nil,
        List.append_assoc, List.append_nil, split_newline]
    | expression type expected actual =>
      have hl : long type expected actual = true ↔
          (64 < expected.length + type.length + 3 ∨ 64 < actual.length + 5) := by
        unfold long
        rw [Bool.or_eq_true, decide_eq_true_iff, decide_eq_true_iff]
      simp only [dataPieces, actualPieces, dataLines]
      by_cases h1 : actual = []
      · rw [if_pos h1, if_pos h1]
        simp only [unlines, render_lit, render_plain, render_painted, indented_eq, List.flatMap_cons, List.flatMap_nil, List.cons_append,
          List.nil_append, List.append_assoc, List.append_nil, split_newline]
      · by_cases h2 : 64 < expected.length + type.length + 3 ∨ 64 < actual.length + 5
        · rw [if_neg h1, if_neg h1, if_pos h2, if_pos (hl.mpr h2)]
          simp only [unlines, render_lit, render_plain, render_painted, indented_eq, List.flatMap_cons, List.flatMap_nil, List.cons_append,
            List.nil_append, List.append_assoc, List.append_nil, split_newline]
        · rw [if_neg h1, if_neg h1, if_neg h2, if_neg (fun h => h2 (hl.mp h))]
          simp only [unlines, render_lit, render_plain, render_painted, indented_eq, List.flatMap_cons, List.flatMap_nil, List.cons_append,
            List.nil_append, List.append_assoc, List.append_nil, split_newline]
  have hl : label place.type = preposition place.type := by cases place.type <;> rfl
  unfold placePieces entry
  simp only [List.flatMap_append, unlines_append, hs, hc, ht, hd]
  rw [hl, split_running]
  generalize preposition place.type = x
  generalize (if id.type = [] then [] else [indented ("for type ".toList ++ id.type)]) = y
  simp only [unlines_cons, render_lit, render_plain, render_painted, indented_eq, position, List.flatMap_cons,
    List.flatMap_nil, List.append_assoc, List.append_nil, split_newline, split_quote, show unlines [] = [] from rfl]

theorem pieces_plain (n : Nat) (e : Event) : (pieces lim n e).flatMap (render false) = unlines (told lim n e) := by
  cases e with
  | runStarted name =>
    simp only [pieces, told, unlines, render_lit, render_plain, render_painted, List.flatMap_cons, List.flatMap_nil, List.append_assoc,
      List.append_nil, split_newline, rule_eq,
      show " with snitch v".toList = " with ".toList ++ "snitch v".toList by decide,
      show "==========================================\n".toList =
        "==========================================".toList ++ ['\n'] by rfl]
  | runEnded success run fail skip asserts duration =>
    have e1 : ")\n".toList = ")".toList ++ ['\n'] := by decide
    have e2 : "success: all tests passed (".toList = "success:".toList ++ " all tests passed (".toList := by decide
    have e3 : "error: ".toList = "error:".toList ++ " ".toList := by decide
    have e4 : "==========================================\n".toList =
        "==========================================".toList ++ ['\n'] := by rfl
    have e5 : (skipPieces skip).flatMap (render false) =
        if skip = 0 then [] else ", ".toList ++ decimal skip ++ " test cases skipped".toList := by
      unfold skipPieces
      by_cases hs : skip = 0
      · rw [if_neg (by omega), if_pos hs]; rfl
      · rw [if_pos (by omega), if_neg hs]
        simp only [render_lit, render_plain, render_painted, List.flatMap_cons, List.flatMap_nil, List.append_nil, List.append_assoc]
    have e6 : (secondPieces lim duration).flatMap (render false) =
        if lim.timings then ", ".toList ++ duration ++ " seconds".toList else [] := by
      unfold secondPieces
      split
      · simp only [render_lit, render_plain, render_painted, List.flatMap_cons, List.flatMap_nil, List.append_nil, List.append_assoc]
      · rfl
    simp only [pieces, told, unlines, List.flatMap_append, e5, e6, summary, rule_eq, verdictPieces]
    generalize (if skip = 0 then [] else ", ".toList ++ decimal skip ++ " test cases skipped".toList) = x
    generalize (if lim.timings then ", ".toList ++ duration ++ " seconds".toList else []) = y
    have e7 : (if fail = run then "all" else "some").toList = if fail = run then "all".toList else "some".toList := by
      split <;> rfl
    cases success
    · simp only [render_lit, render_plain, render_painted, List.flatMap_cons, List.flatMap_nil, List.append_assoc, e1, e3, e4, e7,
        List.append_nil, Bool.false_eq_true, if_false]
    · simp only [render_lit, render_plain, render_painted, List.flatMap_cons, List.flatMap_nil, List.append_assoc, e1, e2, e4,
        List.append_nil, if_true]
  | caseStarted id loc =>
    simp only [pieces, told, unlines, render_lit, render_plain, render_painted, List.flatMap_cons, List.flatMap_nil, List.append_assoc,
      List.append_nil, split_newline, position,
      show "starting: ".toList = "starting:".toList ++ " ".toList by decide]
  | caseEnded id duration =>
    simp only [pieces, told, finishedPieces]
    split
    all_goals
      simp only [unlines, render_lit, render_plain, render_painted, List.flatMap_cons, List.flatMap_nil, List.append_assoc, List.flatMap_append,
        List.append_nil, split_newline,
        show "s)\n".toList = "s)".toList ++ ['\n'] by decide,
        show "finished: ".toList = "finished:".toList ++ " ".toList by decide]
  | sectionStarted id loc =>
    simp only [pieces, told, unlines, render_lit, render_plain, render_painted, List.flatMap_cons, List.flatMap_nil, List.append_assoc,
      List.append_nil, split_newline, position,
      show "entering section: ".toList = "entering section:".toList ++ " ".toList by decide]
  | sectionEnded id =>
    simp only [pieces, told, unlines, render_lit, render_plain, render_painted, List.flatMap_cons, List.flatMap_nil, List.append_assoc,
      List.append_nil, split_newline,
      show "leaving section: ".toList = "leaving section:".toList ++ " ".toList by decide]
  | caseSkipped id place message =>
    rw [told, ← placePieces_plain]
    simp only [pieces, dataPieces, render_painted, List.flatMap_append, List.flatMap_cons, List.flatMap_nil, List.append_nil,
      show "skipped: ".toList = "skipped".toList ++ ": ".toList by decide]
  | assertionFailed id place data expected allowed =>
    rw [told, ← placePieces_plain]
    have : failureLabel expected allowed = failureKind expected allowed ++ ": ".toList := by
      cases expected <;> cases allowed <;> rfl
    simp only [pieces, render_painted, this, List.flatMap_append, List.flatMap_cons, List.flatMap_nil, List.append_nil]
  | assertionSucceeded id place data =>
    rw [told, ← placePieces_plain]
    simp only [pieces, render_painted, List.flatMap_append, List.flatMap_cons, List.flatMap_nil, List.append_nil,
      show "passed: ".toList = "passed".toList ++ ": ".toList by decide]
  | listStarted => simp only [pieces, told, unlines, render_lit, render_plain, render_painted, List.flatMap_cons, List.flatMap_nil,
      List.append_nil, show "Matching test cases:\n".toList = "Matching test cases:".toList ++ ['\n'] by decide]
  | listEnded => simp only [pieces, told, unlines, render_lit, render_plain, render_painted, List.flatMap_cons, List.flatMap_nil,
      List.append_nil, List.append_assoc,
      show " matching test cases\n".toList = " matching test cases".toList ++ ['\n'] by decide]
  | listed id =>
    simp only [pieces, told]
    by_cases ht : id.tags = []
    · rw [if_pos ht, if_pos ht]
      simp only [unlines, render_lit, render_plain, render_painted, List.flatMap_append, List.flatMap_cons, List.flatMap_nil, List.append_nil,
        List.append_assoc, split_newline]
    · rw [if_neg ht, if_neg ht]
      simp only [unlines, render_lit, render_plain, render_painted, List.flatMap_append, List.flatMap_cons, List.flatMap_nil, List.append_nil,
        List.append_assoc, split_newline]

theorem allPieces_plain (es : List Event) : ∀ n,
    (allPieces lim n es).flatMap (render false) = unlines (toldAll lim n es) := by
  induction es with
  | nil => intro n; rfl
  | cons e es ih =>
    intro n
    rw [allPieces, toldAll, List.flatMap_append, unlines_append, pieces_plain, ih]

/-! ## With colours -/

def Clean : Piece → Prop
  | .plain s => '\x1b' ∉ s
  | .painted code s => code ∈ starts ∧ '\x1b' ∉ s

theorem strip_plain (s : Text) (h : '\x1b' ∉ s) (r : Text) : strip (s ++ r) = s ++ strip r := by
  induction s with
  | nil => rfl
  | cons c s ih =>
    simp only [List.mem_cons, not_or] at h
    show (if c = '\x1b' then _ else c :: strip (s ++ r)) = _
    rw [if_neg (fun e => h.1 e.symm), ih h.2]; rfl

theorem strip_code {code : Text} (h : code ∈ starts ∨ code = reset) (r : Text) : strip (code ++ r) = strip r := by
  simp only [starts, List.mem_cons, List.not_mem_nil, or_false] at h
  rcases h with (rfl | rfl | rfl | rfl | rfl) | rfl <;> rfl

theorem strip_pieces (ps : List Piece) (h : ∀ p ∈ ps, Clean p) :
    strip (ps.flatMap (render true)) = ps.flatMap (render false) := by
  induction ps with
  | nil => rfl
  | cons p ps ih =>
    have hp := h p (by simp)
    have ih := ih fun q hq => h q (by simp [hq])
    cases p with
    | plain s => simp only [List.flatMap_cons, render]; rw [strip_plain s hp, ih]
    | painted code s =>
      simp only [List.flatMap_cons, render, if_true, Bool.false_eq_true, if_false, List.append_assoc]
      rw [strip_code (.inl hp.1), strip_plain s hp.2, strip_code (.inr rfl), ih]

theorem closed_plain (s : Text) (h : '\x1b' ∉ s) {r : Text} (hr : Closed r) : Closed (s ++ r) := by
  induction s with
  | nil => exact hr
  | cons c s ih =>
    simp only [List.mem_cons, not_or] at h
    exact .plain (fun e => h.1 e.symm) (ih h.2)

theorem closed_pieces (ps : List Piece) (h : ∀ p ∈ ps, Clean p) : Closed (ps.flatMap (render true)) := by
  induction ps with
  | nil => exact .nil
  | cons p ps ih =>
    have hp := h p (by simp)
    have ih := ih fun q hq => h q (by simp [hq])
    cases p with
    | plain s => exact closed_plain s hp ih
    | painted code s => exact .colored hp.1 hp.2 ih

theorem noEscape_pieces (ps : List Piece) (h : ∀ p ∈ ps, Clean p) : '\x1b' ∉ ps.flatMap (render false) := by
  intro hm
  obtain ⟨p, hp, hm⟩ := List.mem_flatMap.mp hm
  have hc := h p hp
  cases p with
  | plain s => exact hc hm
  | painted code s => exact hc.2 hm

theorem decimal_without {n : Nat} {c : Char} (h : c.isDigit = false) : c ∉ decimal n := by
  intro hc
  rw [Xml.decimal_isDigit hc] at h
  cases h

theorem placePieces_clean {id : Id} {place : Place} (h : ∀ t ∈ placeTexts id place, '\x1b' ∉ t)
    (hf : '\x1b' ∉ place.loc.file) : ∀ p ∈ placePieces id place, Clean p := by
  have hh : highlight1 ∈ starts := by decide
  have hs : ∀ p ∈ place.sections.flatMap sectionPieces, Clean p := by
    intro p hp
    obtain ⟨s, hs, hp⟩ := List.mem_flatMap.mp hp
    have hs := h s.name (by simp only [placeTexts, List.mem_append, List.mem_map]; exact .inl (.inr ⟨s, hs, rfl⟩))
    refine (show ∀ p ∈ sectionPieces _, Clean p from ?_) p hp
    unfold sectionPieces
    simp only [List.forall_mem_cons]
    exact ⟨by unfold Clean lit; decide, ⟨hh, hs⟩, by unfold Clean lit; decide, by simp⟩
  have hc : ∀ p ∈ place.captures.flatMap capturePieces, Clean p := by
    intro p hp
    obtain ⟨c, hc, hp⟩ := List.mem_flatMap.mp hp
    have hc := h c (by simp [placeTexts, hc])
    refine (show ∀ p ∈ capturePieces _, Clean p from ?_) p hp
    unfold capturePieces
    simp only [List.forall_mem_cons]
    exact ⟨by unfold Clean lit; decide, ⟨hh, hc⟩, by unfold Clean lit; decide, by simp⟩
  have ht : ∀ p ∈ typePieces id, Clean p := by
    unfold typePieces
    split
    · simp
    · simp only [List.forall_mem_cons]
      exact ⟨by unfold Clean lit; decide, ⟨hh, h _ (by simp [placeTexts])⟩, by unfold Clean lit; decide, by simp⟩
  have hl : '\x1b' ∉ label place.type := by cases place.type <;> decide
  unfold placePieces
  simp only [List.forall_mem_append]
  refine ⟨⟨⟨⟨?_, hs⟩, ?_⟩, ht⟩, hc⟩
  · simp only [List.forall_mem_cons]
    exact ⟨by unfold Clean lit; decide, ⟨hh, h _ (by simp [placeTexts])⟩, by unfold Clean lit; decide, by simp⟩
  · simp only [List.forall_mem_cons]
    exact ⟨by unfold Clean lit; decide, hl, by unfold Clean lit; decide, hf, by unfold Clean lit; decide,
      decimal_without (by decide), by unfold Clean lit; decide, by simp⟩

theorem dataPieces_clean {data : Data} (h : ∀ t ∈ dataTexts data, '\x1b' ∉ t) :
    ∀ p ∈ dataPieces data, Clean p := by
  have hh : highlight2 ∈ starts := by decide
  cases data with
  | message m =>
    unfold dataPieces
    simp only [List.forall_mem_cons]
    exact ⟨by unfold Clean lit; decide, ⟨hh, h _ (by simp [dataTexts])⟩, by unfold Clean lit; decide, by simp⟩
  | expression type expected actual =>
    have ha := h actual (by simp [dataTexts])
    have hc := h _ (by simp only [dataTexts]; exact List.mem_cons_self ..)
    unfold dataPieces actualPieces
    simp only [List.forall_mem_append]
    refine ⟨?_, ?_⟩
    · simp only [List.forall_mem_cons]
      exact ⟨by unfold Clean lit; decide, ⟨hh, hc⟩, by simp⟩
    · split
      · simp only [List.forall_mem_cons]
        exact ⟨by unfold Clean lit; decide, by simp⟩
      · split
        · simp only [List.forall_mem_cons]
          exact ⟨by unfold Clean lit; decide, by unfold Clean lit; decide, by unfold Clean lit; decide, ⟨hh, ha⟩,
            by unfold Clean lit; decide, by simp⟩
        · simp only [List.forall_mem_cons]
          exact ⟨by unfold Clean lit; decide, ⟨hh, ha⟩, by unfold Clean lit; decide, by simp⟩

theorem pieces_clean {n : Nat} {e : Event} (h : Without lim '\x1b' e) : ∀ p ∈ pieces lim n e, Clean p := by
  obtain ⟨h1, h2, h3⟩ := h
  have k1 : highlight1 ∈ starts := by decide
  have k2 : highlight2 ∈ starts := by decide
  have k3 : statusColor ∈ starts := by decide
  have k4 : passColor ∈ starts := by decide
  have k5 : failColor ∈ starts := by decide
  have k6 : skippedColor ∈ starts := by decide
  have kd : ∀ n, Clean (.plain (decimal n)) := fun n => decimal_without (by decide)
  cases e with
  | runStarted name =>
    unfold pieces
    simp only [List.forall_mem_cons]
    refine ⟨⟨k2, by decide⟩, ⟨k1, h2 _ (by simp [coloredTexts])⟩, ⟨k2, by decide⟩, ⟨k1, ?_⟩,
      by unfold Clean lit; decide, by simp⟩
    simp only [List.mem_append, not_or]
    exact ⟨⟨by decide, h1⟩, by decide⟩
  | runEnded success run fail skip asserts duration =>
    have hd := h3 duration (by simp [plainTexts])
    unfold pieces verdictPieces skipPieces secondPieces
    simp only [List.forall_mem_append]
    refine ⟨?_, ?_, ?_, ?_, ?_⟩
    · simp only [List.forall_mem_cons]; exact ⟨by unfold Clean lit; decide, by simp⟩
    · cases success
      · simp only [Bool.false_eq_true, if_false, List.forall_mem_cons]
        refine ⟨⟨k5, by decide⟩, by unfold Clean lit; decide, ?_, by unfold Clean lit; decide, kd _,
          by unfold Clean lit; decide, kd _, by unfold Clean lit; decide, kd _, by unfold Clean lit; decide, by simp⟩
        by_cases hf : fail = run
        · rw [if_pos hf]; unfold Clean lit; decide
        · rw [if_neg hf]; unfold Clean lit; decide
      · simp only [if_true, List.forall_mem_cons]
        exact ⟨⟨k4, by decide⟩, by unfold Clean lit; decide, kd _, by unfold Clean lit; decide, kd _,
          by unfold Clean lit; decide, by simp⟩
    · split
      · simp only [List.forall_mem_cons]
        exact ⟨by unfold Clean lit; decide, kd _, by unfold Clean lit; decide, by simp⟩
      · simp
    · split
      · simp only [List.forall_mem_cons]
        exact ⟨by unfold Clean lit; decide, hd, by unfold Clean lit; decide, by simp⟩
      · simp
    · simp only [List.forall_mem_cons]; exact ⟨by unfold Clean lit; decide, by simp⟩
  | caseStarted id loc =>
    unfold pieces
    simp only [List.forall_mem_cons]
    exact ⟨⟨k3, by decide⟩, by unfold Clean lit; decide, ⟨k1, h2 _ (by simp [coloredTexts])⟩,
      by unfold Clean lit; decide, h3 _ (by simp [plainTexts]), by unfold Clean lit; decide, kd _,
      by unfold Clean lit; decide, by simp⟩
  | caseEnded id duration =>
    unfold pieces finishedPieces
    simp only [List.forall_mem_append]
    refine ⟨?_, ?_⟩
    · simp only [List.forall_mem_cons]
      exact ⟨⟨k3, by decide⟩, by unfold Clean lit; decide, ⟨k1, h2 _ (by simp [coloredTexts])⟩, by simp⟩
    · split
      · simp only [List.forall_mem_cons]
        exact ⟨by unfold Clean lit; decide, h3 _ (by simp [plainTexts]), by unfold Clean lit; decide, by simp⟩
      · simp only [List.forall_mem_cons]
        exact ⟨by unfold Clean lit; decide, by simp⟩
  | sectionStarted id loc =>
    unfold pieces
    simp only [List.forall_mem_cons]
    exact ⟨⟨k3, by decide⟩, by unfold Clean lit; decide, ⟨k1, h2 _ (by simp [coloredTexts])⟩,
      by unfold Clean lit; decide, h3 _ (by simp [plainTexts]), by unfold Clean lit; decide, kd _,
      by unfold Clean lit; decide, by simp⟩
  | sectionEnded id =>
    unfold pieces
    simp only [List.forall_mem_cons]
    exact ⟨⟨k3, by decide⟩, by unfold Clean lit; decide, ⟨k1, h2 _ (by simp [coloredTexts])⟩,
      by unfold Clean lit; decide, by simp⟩
  | caseSkipped id place message =>
    unfold pieces
    simp only [List.forall_mem_append]
    refine ⟨?_, placePieces_clean (fun t ht => h2 t (by simp [coloredTexts, ht])) (h3 _ (by simp [plainTexts])), ?_⟩
    · simp only [List.forall_mem_cons]; exact ⟨⟨k6, by decide⟩, by simp⟩
    · simp only [List.forall_mem_cons]
      exact ⟨by unfold Clean lit; decide, ⟨k2, h2 _ (by simp [coloredTexts])⟩, by unfold Clean lit; decide, by simp⟩
  | assertionFailed id place data expected allowed =>
    unfold pieces
    simp only [List.forall_mem_append]
    refine ⟨?_, placePieces_clean (fun t ht => h2 t (by simp [coloredTexts, ht])) (h3 _ (by simp [plainTexts])),
      dataPieces_clean fun t ht => h2 t (by simp [coloredTexts, ht])⟩
    simp only [List.forall_mem_cons]
    exact ⟨⟨by cases expected <;> cases allowed <;> decide, by cases expected <;> cases allowed <;> decide⟩, by simp⟩
  | assertionSucceeded id place data =>
    unfold pieces
    simp only [List.forall_mem_append]
    refine ⟨?_, placePieces_clean (fun t ht => h2 t (by simp [coloredTexts, ht])) (h3 _ (by simp [plainTexts])),
      dataPieces_clean fun t ht => h2 t (by simp [coloredTexts, ht])⟩
    simp only [List.forall_mem_cons]; exact ⟨⟨k4, by decide⟩, by simp⟩
  | listStarted =>
    unfold pieces
    simp only [List.forall_mem_cons]
    exact ⟨by unfold Clean lit; decide, by simp⟩
  | listEnded =>
    unfold pieces
    simp only [List.forall_mem_cons]
    exact ⟨kd _, by unfold Clean lit; decide, by simp⟩
  | listed id =>
    unfold pieces
    simp only [List.forall_mem_append]
    refine ⟨?_, ?_⟩
    · simp only [List.forall_mem_cons]
      exact ⟨by unfold Clean lit; decide, h3 _ (by simp [plainTexts]), by unfold Clean lit; decide, by simp⟩
    · split
      · simp
      · simp only [List.forall_mem_cons]
        exact ⟨by unfold Clean lit; decide, h3 _ (by simp [plainTexts]), by unfold Clean lit; decide, by simp⟩

theorem allPieces_clean (es : List Event) (h : ∀ e ∈ es, Without lim '\x1b' e) : ∀ n,
    ∀ p ∈ allPieces lim n es, Clean p := by
  induction es with
  | nil => intro n p hp; cases hp
  | cons e es ih =>
    intro n p hp
    rcases List.mem_append.mp hp with hp | hp
    · exact pieces_clean (h e (by simp)) p hp
    · exact ih (fun x hx => h x (by simp [hx])) _ p hp

end Verif.Report.Console
