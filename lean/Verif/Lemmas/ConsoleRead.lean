import Verif.Lemmas.ConsoleText
/-!
# Lemmas about reading the console report
-/
namespace Verif.Report.Console
open Verif Verif.Print
open Verif.Report.Spec (decimal)
open Verif.Report.Spec.Console

variable {lim : Limits}

theorem linesFrom_append (a : Text) (h : '\n' ∉ a) (acc r : Text) :
    linesFrom acc (a ++ ['\n'] ++ r) = (acc ++ a) :: linesFrom [] r := by
  induction a generalizing acc with
  | nil => simp [linesFrom]
  | cons c a ih =>
    simp only [List.mem_cons, not_or] at h
    show (if c = '\n' then _ else linesFrom (acc ++ [c]) (a ++ ['\n'] ++ r)) = _
    rw [if_neg (fun e => h.1 e.symm), ih h.2]
    simp

theorem lines_unlines (ls : List Text) (h : ∀ l ∈ ls, '\n' ∉ l) : lines (unlines ls) = ls := by
  induction ls with
  | nil => rfl
  | cons l ls ih =>
    rw [unlines_cons]
    show linesFrom [] _ = _
    rw [linesFrom_append l (h l (by simp))]
    have := ih fun x hx => h x (by simp [hx])
    unfold lines at this
    rw [this]; rfl

theorem failureIn_other {line : Text} (h : line.take 2 ≠ ['f', 'a']) : failureIn line = none := by
  unfold failureIn
  dsimp only
  rw [if_neg]
  rintro ⟨⟨t, rfl⟩, -⟩
  exact h rfl

theorem failureIn_headline (name : Text) :
    failureIn ("failed".toList ++ ": running test case \"".toList ++ name ++ "\"".toList) = some name := by
  have e : "failed".toList ++ ": running test case \"".toList = "failed: running test case \"".toList := by decide
  rw [e]
  unfold failureIn
  dsimp only
  rw [if_pos]
  · rw [List.append_assoc, List.drop_left]
    simp
  · refine ⟨⟨name ++ "\"".toList, by rw [List.append_assoc]⟩, ?_⟩
    rw [show "\"".toList = ['"'] by decide, List.getLast?_append]
    rfl

/-- No line break in it, and not the beginning of a failure. -/
def Quiet (l : Text) : Prop := '\n' ∉ l ∧ failureIn l = none

theorem quiet_of_prefix {a l : Text} (h : a.take 2 ≠ ['f', 'a']) (ha : 2 ≤ a.length) (hl : '\n' ∉ a ++ l) :
    Quiet (a ++ l) := by
  refine ⟨hl, failureIn_other ?_⟩
  rw [List.take_append_of_le_length ha]
  exact h

theorem quiet_indented {l : Text} (h : '\n' ∉ l) : Quiet (indented l) := by
  rw [indented_eq]
  refine quiet_of_prefix (by decide) (by decide) ?_
  rw [List.mem_append, not_or]
  exact ⟨by decide, h⟩

theorem notMem_append {c : Char} {a b : Text} (ha : c ∉ a) (hb : c ∉ b) : c ∉ a ++ b := by
  rw [List.mem_append, not_or]; exact ⟨ha, hb⟩

theorem dataLines_quiet {data : Data} (h : ∀ t ∈ dataTexts data, '\n' ∉ t) : ∀ l ∈ dataLines data, Quiet l := by
  cases data with
  | message m =>
    unfold dataLines
    simp only [List.forall_mem_cons]
    exact ⟨quiet_indented (h _ (by simp [dataTexts])), by simp⟩
  | expression type expected actual =>
    have ha := h actual (by simp [dataTexts])
    have hc := h _ (by simp only [dataTexts]; exact List.mem_cons_self ..)
    unfold dataLines
    dsimp only
    split
    · simp only [List.forall_mem_cons]
      exact ⟨quiet_indented hc, by simp⟩
    · split
      · simp only [List.forall_mem_cons]
        exact ⟨quiet_indented hc, quiet_indented (notMem_append (by decide) ha), by simp⟩
      · simp only [List.forall_mem_cons]
        exact ⟨quiet_indented (notMem_append (notMem_append hc (by decide)) ha), by simp⟩

theorem position_without {loc : Location} (h : '\n' ∉ loc.file) : '\n' ∉ position loc :=
  notMem_append (notMem_append h (by decide)) (decimal_without (by decide))

/-- The lines of an entry, except for the first one. -/
theorem entry_quiet (kind : Text) {id : Id} {place : Place} {data : Data} (h : ∀ t ∈ placeTexts id place, '\n' ∉ t)
    (hf : '\n' ∉ place.loc.file) (hd : ∀ t ∈ dataTexts data, '\n' ∉ t) :
    ∃ ls, entry kind id place data = (kind ++ ": running test case \"".toList ++ id.name ++ "\"".toList) :: ls ∧
      ∀ l ∈ ls, Quiet l := by
  refine ⟨place.sections.map (fun s => indented ("in section \"".toList ++ s.name ++ "\"".toList)) ++
    [indented (preposition place.type ++ " ".toList ++ position place.loc)] ++
    (if id.type = [] then [] else [indented ("for type ".toList ++ id.type)]) ++
    place.captures.map (fun c => indented ("with ".toList ++ c)) ++ dataLines data, ?_, ?_⟩
  · unfold entry
    simp only [List.append_assoc, List.cons_append, List.nil_append]
  simp only [List.forall_mem_append]
  refine ⟨⟨⟨⟨?_, ?_⟩, ?_⟩, ?_⟩, dataLines_quiet hd⟩
  · intro l hl
    obtain ⟨s, hs, rfl⟩ := List.mem_map.mp hl
    refine quiet_indented (notMem_append (notMem_append (by decide) (h _ ?_)) (by decide))
    simp only [placeTexts, List.mem_append, List.mem_map]
    exact .inl (.inr ⟨s, hs, rfl⟩)
  · simp only [List.forall_mem_cons]
    refine ⟨quiet_indented (notMem_append (notMem_append ?_ (by decide)) (position_without hf)), by simp⟩
    cases place.type <;> decide
  · split
    · simp
    · simp only [List.forall_mem_cons]
      exact ⟨quiet_indented (notMem_append (by decide) (h _ (by simp [placeTexts]))), by simp⟩
  · intro l hl
    obtain ⟨c, hc, rfl⟩ := List.mem_map.mp hl
    exact quiet_indented (notMem_append (by decide) (h _ (by simp [placeTexts, hc])))

theorem filterMap_quiet {ls : List Text} (h : ∀ l ∈ ls, Quiet l) : ls.filterMap failureIn = [] := by
  rw [List.filterMap_eq_nil_iff]
  exact fun l hl => (h l hl).2

theorem summary_quiet {success : Bool} {run fail skip asserts : Nat} {duration : Text} (h : '\n' ∉ duration) :
    Quiet (summary lim success run fail skip asserts duration) := by
  have kd : ∀ n, '\n' ∉ decimal n := fun n => decimal_without (by decide)
  have hx : '\n' ∉ (if skip = 0 then [] else ", ".toList ++ decimal skip ++ " test cases skipped".toList) := by
    split
    · simp
    · exact notMem_append (notMem_append (by decide) (kd _)) (by decide)
  have hy : '\n' ∉ (if lim.timings then ", ".toList ++ duration ++ " seconds".toList else []) := by
    split
    · exact notMem_append (notMem_append (by decide) h) (by decide)
    · simp
  unfold summary
  generalize (if skip = 0 then [] else ", ".toList ++ decimal skip ++ " test cases skipped".toList) = x at hx
  generalize (if lim.timings then ", ".toList ++ duration ++ " seconds".toList else []) = y at hy
  cases success
  · have hz : '\n' ∉ (if fail = run then "all".toList else "some".toList) := by split <;> decide
    generalize (if fail = run then "all".toList else "some".toList) = z at hz
    simp only [Bool.false_eq_true, if_false]
    refine ⟨?_, failureIn_other ?_⟩
    · exact notMem_append (notMem_append (notMem_append (notMem_append (notMem_append (notMem_append (notMem_append
        (notMem_append (notMem_append (notMem_append (notMem_append (by decide) hz) (by decide)) (kd _)) (by decide))
        (kd _)) (by decide)) (kd _)) (by decide)) hx) hy) (by decide)
    · simp only [List.append_assoc]
      rw [List.take_append_of_le_length (by decide)]
      decide
  · simp only [if_true]
    refine ⟨?_, failureIn_other ?_⟩
    · exact notMem_append (notMem_append (notMem_append (notMem_append (notMem_append (notMem_append (notMem_append
        (by decide) (kd _)) (by decide)) (kd _)) (by decide)) hx) hy) (by decide)
    · simp only [List.append_assoc]
      rw [List.take_append_of_le_length (by decide)]
      decide

theorem quiet_of_prefix' {a l m : Text} (h : a.take 2 ≠ ['f', 'a']) (ha : 2 ≤ a.length) (hl : '\n' ∉ m)
    (e : m = a ++ l) : Quiet m := by subst e; exact quiet_of_prefix h ha hl

/-- The lines of an event have no line breaks; the failures read from them are the failures. -/
theorem told_reads {n : Nat} {e : Event} (h : Without lim '\n' e) :
    (∀ l ∈ told lim n e, '\n' ∉ l) ∧ (told lim n e).filterMap failureIn = (failedName e).toList := by
  obtain ⟨h1, h2, h3⟩ := h
  have hr : Quiet rule := ⟨by decide, by decide⟩
  have quiet : (∀ l ∈ told lim n e, Quiet l) → failedName e = none →
      (∀ l ∈ told lim n e, '\n' ∉ l) ∧ (told lim n e).filterMap failureIn = (failedName e).toList := by
    intro hq hn
    refine ⟨fun l hl => (hq l hl).1, ?_⟩
    rw [filterMap_quiet hq, hn]; rfl
  cases e with
  | runStarted name =>
    refine quiet ?_ rfl
    unfold told
    simp only [List.forall_mem_cons]
    refine ⟨?_, hr, by simp⟩
    refine quiet_of_prefix' (a := "starting ".toList) (by decide) (by decide) ?_ (by rw [List.append_assoc, List.append_assoc])
    exact notMem_append (notMem_append (notMem_append (by decide) (h2 _ (by simp [coloredTexts]))) (by decide)) h1
  | runEnded success run fail skip asserts duration =>
    refine quiet ?_ rfl
    unfold told
    simp only [List.forall_mem_cons]
    exact ⟨hr, summary_quiet (h3 _ (by simp [plainTexts])), by simp⟩
  | caseStarted id loc =>
    refine quiet ?_ rfl
    unfold told
    simp only [List.forall_mem_cons]
    refine ⟨?_, by simp⟩
    refine quiet_of_prefix' (a := "starting: ".toList) (by decide) (by decide) ?_ (by rw [List.append_assoc, List.append_assoc])
    exact notMem_append (notMem_append (notMem_append (by decide) (h2 _ (by simp [coloredTexts]))) (by decide))
      (position_without (h3 _ (by simp [plainTexts])))
  | caseEnded id duration =>
    refine quiet ?_ rfl
    unfold told
    simp only [List.forall_mem_cons]
    refine ⟨?_, by simp⟩
    refine quiet_of_prefix' (a := "finished: ".toList) (by decide) (by decide) ?_ (by rw [List.append_assoc])
    refine notMem_append (notMem_append (by decide) (h2 _ (by simp [coloredTexts]))) ?_
    split
    · exact notMem_append (notMem_append (by decide) (h3 _ (by simp [plainTexts]))) (by decide)
    · simp
  | sectionStarted id loc =>
    refine quiet ?_ rfl
    unfold told
    simp only [List.forall_mem_cons]
    refine ⟨?_, by simp⟩
    refine quiet_of_prefix' (a := "entering section: ".toList) (by decide) (by decide) ?_ (by rw [List.append_assoc, List.append_assoc])
    exact notMem_append (notMem_append (notMem_append (by decide) (h2 _ (by simp [coloredTexts]))) (by decide))
      (position_without (h3 _ (by simp [plainTexts])))
  | sectionEnded id =>
    refine quiet ?_ rfl
    unfold told
    simp only [List.forall_mem_cons]
    refine ⟨?_, by simp⟩
    refine quiet_of_prefix' (a := "leaving section: ".toList) (by decide) (by decide) ?_ rfl
    exact notMem_append (by decide) (h2 _ (by simp [coloredTexts]))
  | caseSkipped id place message =>
    refine quiet ?_ rfl
    obtain ⟨ls, e, hq⟩ := entry_quiet "skipped".toList (id := id) (place := place) (data := .message message)
      (fun t ht => h2 t (by simp [coloredTexts, ht])) (h3 _ (by simp [plainTexts]))
      (by simp only [dataTexts, List.forall_mem_cons]; exact ⟨h2 _ (by simp [coloredTexts]), by simp⟩)
    rw [told, e]
    simp only [List.forall_mem_cons]
    refine ⟨?_, hq⟩
    refine quiet_of_prefix' (a := "skipped".toList) (by decide) (by decide) ?_ (by rw [List.append_assoc, List.append_assoc])
    exact notMem_append (notMem_append (notMem_append (by decide) (by decide)) (h2 _ (by simp [coloredTexts, placeTexts]))) (by decide)
  | assertionFailed id place data expected allowed =>
    obtain ⟨ls, e, hq⟩ := entry_quiet (failureKind expected allowed) (id := id) (place := place) (data := data)
      (fun t ht => h2 t (by simp [coloredTexts, ht])) (h3 _ (by simp [plainTexts]))
      (fun t ht => h2 t (by simp [coloredTexts, ht]))
    have hname : '\n' ∉ id.name := h2 _ (by simp [coloredTexts, placeTexts])
    have hk : '\n' ∉ failureKind expected allowed := by cases expected <;> cases allowed <;> decide
    have hl : '\n' ∉ failureKind expected allowed ++ ": running test case \"".toList ++ id.name ++ "\"".toList :=
      notMem_append (notMem_append (notMem_append hk (by decide)) hname) (by decide)
    rw [told, e]
    refine ⟨?_, ?_⟩
    · simp only [List.forall_mem_cons]
      exact ⟨hl, fun l h => (hq l h).1⟩
    · rw [List.filterMap_cons, filterMap_quiet hq]
      by_cases hx : expected = true
      · subst hx
        rw [failureIn_other]
        · rfl
        · rw [List.append_assoc, List.append_assoc, List.take_append_of_le_length (by simp [failureKind])]
          simp [failureKind]
      · by_cases hal : allowed = true
        · subst hal
          rw [failureIn_other]
          · cases expected <;> rfl
          · cases expected
            · rw [List.append_assoc, List.append_assoc, List.take_append_of_le_length (by simp [failureKind])]
              simp [failureKind]
            · exact absurd rfl hx
        · have e1 : expected = false := by simpa using hx
          have e2 : allowed = false := by simpa using hal
          subst e1 e2
          rw [show failureKind false false = "failed".toList from rfl, failureIn_headline]
          rfl
  | assertionSucceeded id place data =>
    refine quiet ?_ rfl
    obtain ⟨ls, e, hq⟩ := entry_quiet "passed".toList (id := id) (place := place) (data := data)
      (fun t ht => h2 t (by simp [coloredTexts, ht])) (h3 _ (by simp [plainTexts]))
      (fun t ht => h2 t (by simp [coloredTexts, ht]))
    rw [told, e]
    simp only [List.forall_mem_cons]
    refine ⟨?_, hq⟩
    refine quiet_of_prefix' (a := "passed".toList) (by decide) (by decide) ?_ (by rw [List.append_assoc, List.append_assoc])
    exact notMem_append (notMem_append (notMem_append (by decide) (by decide)) (h2 _ (by simp [coloredTexts, placeTexts]))) (by decide)
  | listStarted =>
    refine quiet ?_ rfl
    unfold told
    simp only [List.forall_mem_cons]
    exact ⟨⟨by decide, by decide⟩, by simp⟩
  | listEnded =>
    refine quiet ?_ rfl
    unfold told
    simp only [List.forall_mem_cons]
    refine ⟨⟨notMem_append (decimal_without (by decide)) (by decide), failureIn_other ?_⟩, by simp⟩
    intro hc
    cases hd : decimal n with
    | nil => rw [hd] at hc; revert hc; decide
    | cons c r =>
      have := Xml.decimal_isDigit (n := n) (c := c) (by rw [hd]; simp)
      rw [hd] at hc
      simp only [List.cons_append, List.take_succ_cons, List.cons.injEq] at hc
      rw [hc.1] at this
      revert this; decide
  | listed id =>
    refine quiet ?_ rfl
    unfold told
    simp only [List.forall_mem_cons]
    refine ⟨?_, ?_⟩
    · exact quiet_of_prefix (by decide) (by decide) (notMem_append (by decide) (h3 _ (by simp [plainTexts])))
    · split
      · simp
      · simp only [List.forall_mem_cons]
        exact ⟨quiet_of_prefix (by decide) (by decide) (notMem_append (by decide) (h3 _ (by simp [plainTexts]))),
          by simp⟩

theorem toldAll_reads (es : List Event) (h : ∀ e ∈ es, Without lim '\n' e) : ∀ n,
    (∀ l ∈ toldAll lim n es, '\n' ∉ l) ∧ (toldAll lim n es).filterMap failureIn = es.filterMap failedName := by
  induction es with
  | nil => intro n; exact ⟨by simp [toldAll], rfl⟩
  | cons e es ih =>
    intro n
    obtain ⟨k1, k2⟩ := told_reads (n := n) (h e (by simp))
    obtain ⟨i1, i2⟩ := ih (fun x hx => h x (by simp [hx])) (listedAfter n e)
    refine ⟨?_, ?_⟩
    · intro l hl
      rcases List.mem_append.mp hl with hl | hl
      · exact k1 l hl
      · exact i1 l hl
    · rw [toldAll, List.filterMap_append, k2, i2, List.filterMap_cons]
      cases failedName e <;> rfl

end Verif.Report.Console
