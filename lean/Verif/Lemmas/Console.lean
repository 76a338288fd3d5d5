import Verif.Spec.Console
import Verif.Lemmas.Reporter
/-!
# Lemmas about the console reporter
-/
namespace Verif.Report.Console
open Verif Verif.Print Verif.Print.Spec
open Verif.Report.Spec (decimal)
open Verif.Report.Spec.Console

variable {lim : Limits} {color : Bool}

/-! ## What is printed, as pieces that are coloured or not -/

inductive Piece where
  | plain (s : Text)
  | painted (code s : Text)

def render (color : Bool) : Piece → Text
  | .plain s => s
  | .painted code s => if color then code ++ s ++ reset else s

def lit (s : String) : Piece := .plain s.toList

/-- `f` prints the pieces, and does nothing else. -/
def Adds (color : Bool) (f : State → Outcome State) (ps : List Piece) : Prop :=
  ∀ st, f st = .ok { st with out := st.out ++ ps.flatMap (render color) }

theorem Adds.bind {f g : State → Outcome State} {p q : List Piece} (hf : Adds color f p) (hg : Adds color g q) :
    Adds color (fun st => f st >>= g) (p ++ q) := by
  intro st
  show f st >>= g = _
  rw [hf st, Outcome.bind_ok, hg]
  simp

theorem Adds.nil : Adds color (fun st => .ok st) [] := by intro st; simp

theorem Adds.cast {f : State → Outcome State} {p q : List Piece} (hf : Adds color f p) (h : p = q) :
    Adds color f q := h ▸ hf

theorem say_adds (h : lim.message < 2 ^ 64) {args : List Arg} (hfit : ∀ a ∈ args, Fits lim.message a)
    {ps : List Piece} (hp : args.flatMap whole = ps.flatMap (render color)) : Adds color (say lim args) ps := by
  intro st
  obtain ⟨chunks, e, hc⟩ := Props.C34_print lim.message h args hfit
  unfold say
  rw [e, Outcome.bind_ok, hc, hp]
  rfl

theorem say1_adds (s : Text) : Adds color (fun st => .ok (say1 s st)) [.plain s] := by
  intro st; simp [say1, Print.printStr, render]

theorem whole_paint (code s : Text) : whole (paint color code s) = render color (.painted code s) := by
  cases color <;> simp [whole, paint, makeColored, render]

theorem whole_str (s : String) : whole (str s) = render color (lit s) := rfl
theorem whole_text (s : Text) : whole (.str s) = render color (.plain s) := rfl
theorem whole_value (s : Text) : whole (.value s) = render color (.plain s) := rfl

theorem fits_paint {code s : Text} {cap : Nat} (hc : code.length = 7) (hcap : 12 ≤ cap) (hs : s.length + 11 ≤ cap) :
    Fits cap (paint color code s) := by
  have hr : reset.length = 4 := by decide
  cases color
  · refine ⟨?_, ?_⟩ <;> simp [makeColored] <;> omega
  · refine ⟨?_, ?_⟩ <;> simp [makeColored] <;> omega

theorem fits_str (cap : Nat) (s : String) : Fits cap (str s) := trivial

theorem Adds.value {α : Type} {o : Outcome α} {v : α} {b : α → State → Outcome State} {p : List Piece}
    (h : o = .ok v) (hb : Adds color (b v) p) : Adds color (fun st => o >>= fun x => b x st) p := by
  intro st
  show o >>= (fun x => b x st) = _
  rw [h, Outcome.bind_ok, hb]

theorem num_eq {n : Nat} (h : n < 2 ^ 64) : num n = .ok (.value (decimal n)) := by
  unfold num; rw [makeNumber_eq h]; rfl

theorem fits_num {n cap : Nat} (h : n < 2 ^ 64) (hcap : 20 ≤ cap) : Fits cap (.value (decimal n)) :=
  Nat.le_trans (decimal_length h) hcap

/-! ### The parts -/

def sectionPieces (s : SectionId) : List Piece :=
  [lit "          in section \"", .painted highlight1 s.name, lit "\"\n"]

def capturePieces (c : Text) : List Piece := [lit "          with ", .painted highlight1 c, lit "\n"]

def typePieces (id : Id) : List Piece :=
  if id.type = [] then [] else [lit "          for type ", .painted highlight1 id.type, lit "\n"]

def placePieces (id : Id) (place : Place) : List Piece :=
  [lit "running test case \"", .painted highlight1 id.name, lit "\"\n"] ++ place.sections.flatMap sectionPieces ++
    [lit "          ", .plain (label place.type), lit " ", .plain place.loc.file, lit ":",
      .plain (decimal place.loc.line), lit "\n"] ++ typePieces id ++ place.captures.flatMap capturePieces

def actualPieces (type expected actual : Text) : List Piece :=
  if actual = [] then [lit "\n"]
  else if long type expected actual then
    [lit "\n", lit "          ", lit "got: ", .painted highlight2 actual, lit "\n"]
  else [lit ", got: ", .painted highlight2 actual, lit "\n"]

def dataPieces : Data → List Piece
  | .message m => [lit "          ", .painted highlight2 m, lit "\n"]
  | .expression type expected actual =>
    [lit "          ", .painted highlight2 (type ++ "(".toList ++ expected ++ ")".toList)] ++
      actualPieces type expected actual

theorem printSections_adds (hlim : LimitsOk lim) : ∀ (ss : List SectionId),
    (∀ s ∈ ss, s.name.length + 11 ≤ lim.message) →
    Adds color (printSections lim color ss) (ss.flatMap sectionPieces)
  | [], _ => Adds.nil
  | s :: ss, h => by
    obtain ⟨h1, h2, h3, h4⟩ := hlim
    refine Adds.bind (p := sectionPieces s) (say_adds (by omega) ?_ ?_)
      (printSections_adds ⟨h1, h2, h3, h4⟩ ss fun t ht => h t (by simp [ht]))
    · simp only [List.forall_mem_cons]
      exact ⟨fits_str .., fits_paint rfl (by omega) (h s (by simp)), fits_str .., by simp⟩
    · simp [sectionPieces, whole_paint, whole_str (color := color)]

theorem printCaptures_adds (hlim : LimitsOk lim) : ∀ (cs : List Text), (∀ c ∈ cs, c.length + 11 ≤ lim.message) →
    Adds color (printCaptures lim color cs) (cs.flatMap capturePieces)
  | [], _ => Adds.nil
  | c :: cs, h => by
    obtain ⟨h1, h2, h3, h4⟩ := hlim
    refine Adds.bind (p := capturePieces c) (say_adds (by omega) ?_ ?_)
      (printCaptures_adds ⟨h1, h2, h3, h4⟩ cs fun t ht => h t (by simp [ht]))
    · simp only [List.forall_mem_cons]
      exact ⟨fits_str .., fits_paint rfl (by omega) (h c (by simp)), fits_str .., by simp⟩
    · simp [capturePieces, whole_paint, whole_str (color := color)]

theorem printType_adds (hlim : LimitsOk lim) {id : Id} (h : id.type.length + 11 ≤ lim.message) :
    Adds color (printType lim color id) (typePieces id) := by
  obtain ⟨h1, h2, h3, h4⟩ := hlim
  intro st
  unfold printType typePieces
  by_cases he : id.type = []
  · simp [he]
  · rw [if_neg (by simpa using he), if_neg he]
    refine say_adds (by omega) ?_ ?_ st
    · simp only [List.forall_mem_cons]
      exact ⟨fits_str .., fits_paint rfl (by omega) h, fits_str .., by simp⟩
    · simp [whole_paint, whole_str (color := color)]

theorem printLocation_adds (hlim : LimitsOk lim) {id : Id} {place : Place}
    (h : ∀ t ∈ placeTexts id place, t.length + 11 ≤ lim.message) (hn : place.loc.line < 2 ^ 64) :
    Adds color (printLocation lim color id place) (placePieces id place) := by
  have hlim' := hlim
  obtain ⟨h1, h2, h3, h4⟩ := hlim'
  unfold placePieces
  rw [List.append_assoc, List.append_assoc, List.append_assoc]
  refine Adds.bind (say_adds (by omega) ?_ ?_) (Adds.bind (printSections_adds hlim _ ?_)
    (Adds.value (makeNumber_eq hn) (Adds.bind (say_adds (by omega) ?_ ?_)
    (Adds.bind (printType_adds hlim ?_) (printCaptures_adds hlim _ ?_)))))
  · simp only [List.forall_mem_cons]
    exact ⟨fits_str .., fits_paint rfl (by omega) (h _ (by simp [placeTexts])), fits_str .., by simp⟩
  · simp [whole_paint, whole_str (color := color)]
  · intro s hs; exact h _ (by simp only [placeTexts, List.mem_append, List.mem_map]; exact .inl (.inr ⟨s, hs, rfl⟩))
  · simp only [List.forall_mem_cons]
    exact ⟨fits_str .., trivial, fits_str .., trivial, fits_str .., fits_num hn (by omega), fits_str .., by simp⟩
  · simp [whole_str (color := color), whole_text (color := color), whole_value (color := color)]
  · exact h _ (by simp [placeTexts])
  · intro c hc; exact h _ (by simp [placeTexts, hc])

theorem printActual_adds (hlim : LimitsOk lim) {type expected actual : Text} (h : actual.length + 11 ≤ lim.message) :
    Adds color (printActual lim color type expected actual) (actualPieces type expected actual) := by
  obtain ⟨h1, h2, h3, h4⟩ := hlim
  intro st
  unfold printActual actualPieces
  by_cases he : actual = []
  · rw [if_pos (by simpa using he), if_pos he]; exact say1_adds _ st
  · rw [if_neg (by simpa using he), if_neg he]
    by_cases hl : long type expected actual = true
    · rw [if_pos hl, if_pos hl]
      refine say_adds (by omega) ?_ ?_ st
      · simp only [List.forall_mem_cons]
        exact ⟨fits_str .., fits_str .., fits_str .., fits_paint rfl (by omega) h, fits_str .., by simp⟩
      · simp [whole_paint, whole_str (color := color)]
    · rw [if_neg hl, if_neg hl]
      refine say_adds (by omega) ?_ ?_ st
      · simp only [List.forall_mem_cons]
        exact ⟨fits_str .., fits_paint rfl (by omega) h, fits_str .., by simp⟩
      · simp [whole_paint, whole_str (color := color)]

theorem printMessage_adds (hlim : LimitsOk lim) {data : Data}
    (h : ∀ t ∈ dataTexts data, t.length + 11 ≤ lim.message) :
    Adds color (printMessage lim color data) (dataPieces data) := by
  have hlim' := hlim
  obtain ⟨h1, h2, h3, h4⟩ := hlim'
  cases data with
  | message m =>
    refine say_adds (by omega) ?_ ?_
    · simp only [List.forall_mem_cons]
      exact ⟨fits_str .., fits_paint rfl (by omega) (h _ (by simp [dataTexts])), fits_str .., by simp⟩
    · simp [dataPieces, whole_paint, whole_str (color := color)]
  | expression type expected actual =>
    have hc := h _ (by simp only [dataTexts]; exact List.mem_cons_self ..)
    have ha := h actual (by simp [dataTexts])
    obtain ⟨v, e, hv⟩ := Util.appendOrTruncate_holds false (SV.holds_empty lim.message ' ')
      (show lim.message + 3 < sizeT from h1) [type, "(".toList, expected, ")".toList]
    intro st
    unfold printMessage
    simp only []
    rw [e, Outcome.bind_ok]
    have hvc : v.contents = type ++ "(".toList ++ expected ++ ")".toList := by
      rw [hv.contents, if_pos (by simp at hc ⊢; omega)]
      simp
    simp only [hvc]
    refine Adds.bind (p := [lit "          ", .painted highlight2 (type ++ "(".toList ++ expected ++ ")".toList)])
      (say_adds (by omega) ?_ ?_) (printActual_adds hlim ha) st
    · simp only [List.forall_mem_cons]
      exact ⟨fits_str .., fits_paint rfl (by omega) hc, by simp⟩
    · simp [whole_paint, whole_str (color := color)]

theorem fullName_eq (hlim : LimitsOk lim) {id : Id} (h : (Spec.fullName id).length ≤ lim.name) :
    ∃ v, fullName lim id = .ok v ∧ v.contents = Spec.fullName id := by
  obtain ⟨v, e, hv⟩ := Append.variadic_holds false (show lim.name < sizeT by have := hlim.2.1; rw [sizeT_eq]; omega)
    (if id.type.length ≠ 0 then [id.name, " <".toList, id.type, ">".toList] else [id.name])
    (SV.holds_empty lim.name ' ')
  refine ⟨v, ?_, ?_⟩
  · unfold fullName; rw [e]; rfl
  · rw [hv.contents]
    have hf : (if id.type.length ≠ 0 then [id.name, " <".toList, id.type, ">".toList] else [id.name]).flatten =
        Spec.fullName id := by
      unfold Spec.fullName
      by_cases ht : id.type = []
      · simp [ht]
      · simp [ht]
    rw [hf]
    simp only [Verif.Spec.fill, List.nil_append]
    exact List.take_of_length_le h

/-! ### Events -/

def verdictPieces (success : Bool) (run fail asserts : Nat) : List Piece :=
  if success then
    [.painted passColor "success:".toList, lit " all tests passed (", .plain (decimal run), lit " test cases, ",
      .plain (decimal asserts), lit " assertions"]
  else
    [.painted failColor "error:".toList, lit " ", lit (if fail = run then "all" else "some"), lit " tests failed (",
      .plain (decimal fail), lit " out of ", .plain (decimal run), lit " test cases, ", .plain (decimal asserts),
      lit " assertions"]

def skipPieces (skip : Nat) : List Piece :=
  if skip > 0 then [lit ", ", .plain (decimal skip), lit " test cases skipped"] else []

def secondPieces (lim : Limits) (duration : Text) : List Piece :=
  if lim.timings then [lit ", ", .plain duration, lit " seconds"] else []

def finishedPieces (lim : Limits) (duration : Text) : List Piece :=
  if lim.timings then [lit " (", .plain duration, lit "s)\n"] else [lit "\n"]

/-- The pieces printed for an event. -/
def pieces (lim : Limits) (n : Nat) : Event → List Piece
  | .runStarted name =>
    [.painted highlight2 "starting ".toList, .painted highlight1 name, .painted highlight2 " with ".toList,
      .painted highlight1 ("snitch v".toList ++ lim.version ++ "\n".toList),
      lit "==========================================\n"]
  | .runEnded success run fail skip asserts duration =>
    [lit "==========================================\n"] ++ (verdictPieces success run fail asserts ++
      (skipPieces skip ++ (secondPieces lim duration ++ [lit ")\n"])))
  | .caseStarted id loc =>
    [.painted statusColor "starting:".toList, lit " ", .painted highlight1 (Spec.fullName id), lit " at ",
      .plain loc.file, lit ":", .plain (decimal loc.line), lit "\n"]
  | .caseEnded id duration =>
    [.painted statusColor "finished:".toList, lit " ", .painted highlight1 (Spec.fullName id)] ++
      finishedPieces lim duration
  | .sectionStarted id loc =>
    [.painted statusColor "entering section:".toList, lit " ", .painted highlight1 id.name, lit " at ",
      .plain loc.file, lit ":", .plain (decimal loc.line), lit "\n"]
  | .sectionEnded id =>
    [.painted statusColor "leaving section:".toList, lit " ", .painted highlight1 id.name, lit "\n"]
  | .caseSkipped id place message =>
    [.painted skippedColor "skipped: ".toList] ++ (placePieces id place ++
      [lit "          ", .painted highlight2 message, lit "\n"])
  | .assertionFailed id place data expected allowed =>
    [.painted (failureColor expected allowed) (failureLabel expected allowed)] ++
      (placePieces id place ++ dataPieces data)
  | .assertionSucceeded id place data =>
    [.painted passColor "passed: ".toList] ++ (placePieces id place ++ dataPieces data)
  | .listStarted => [lit "Matching test cases:\n"]
  | .listEnded => [.plain (decimal n), lit " matching test cases\n"]
  | .listed id =>
    [lit "  ", .plain (Spec.fullName id), lit "\n"] ++
      if id.tags = [] then [] else [lit "      ", .plain id.tags, lit "\n"]

theorem printVerdict_adds (hlim : LimitsOk lim) {success : Bool} {run fail asserts : Nat} (hr : run < 2 ^ 64)
    (hf : fail < 2 ^ 64) (ha : asserts < 2 ^ 64) :
    Adds color (printVerdict lim color success run fail asserts) (verdictPieces success run fail asserts) := by
  obtain ⟨h1, h2, h3, h4⟩ := hlim
  cases success
  · refine Adds.value (num_eq hf) (Adds.value (num_eq hr) (Adds.value (num_eq ha) (say_adds (by omega) ?_ ?_)))
    · simp only [List.forall_mem_cons]
      exact ⟨fits_paint rfl (by omega) (by simp; omega), fits_str .., fits_str .., fits_str .., fits_num hf (by omega),
        fits_str .., fits_num hr (by omega), fits_str .., fits_num ha (by omega), fits_str .., by simp⟩
    · simp [verdictPieces, whole_paint, whole_str (color := color), whole_value (color := color)]
  · refine Adds.value (num_eq hr) (Adds.value (num_eq ha) (say_adds (by omega) ?_ ?_))
    · simp only [List.forall_mem_cons]
      exact ⟨fits_paint rfl (by omega) (by simp; omega), fits_str .., fits_num hr (by omega), fits_str ..,
        fits_num ha (by omega), fits_str .., by simp⟩
    · simp [verdictPieces, whole_paint, whole_str (color := color), whole_value (color := color)]

theorem printSkips_adds (hlim : LimitsOk lim) {skip : Nat} (h : skip < 2 ^ 64) :
    Adds color (printSkips lim skip) (skipPieces skip) := by
  obtain ⟨h1, h2, h3, h4⟩ := hlim
  intro st
  unfold printSkips skipPieces
  split
  · refine Adds.value (num_eq h) (say_adds (by omega) ?_ ?_) st
    · simp only [List.forall_mem_cons]
      exact ⟨fits_str .., fits_num h (by omega), fits_str .., by simp⟩
    · simp [whole_str (color := color), whole_value (color := color)]
  · simp

theorem printSeconds_adds (hlim : LimitsOk lim) {d : Text} (h : d.length ≤ lim.message) :
    Adds color (printSeconds lim d) (secondPieces lim d) := by
  obtain ⟨h1, h2, h3, h4⟩ := hlim
  intro st
  unfold printSeconds secondPieces
  split
  · refine say_adds (by omega) ?_ ?_ st
    · simp only [List.forall_mem_cons]
      exact ⟨fits_str .., h, fits_str .., by simp⟩
    · simp [whole_str (color := color), whole_value (color := color)]
  · simp

theorem failureLabel_length (expected allowed : Bool) : (failureLabel expected allowed).length ≤ 18 := by
  cases expected <;> cases allowed <;> decide

theorem failureColor_length (expected allowed : Bool) : (failureColor expected allowed).length = 7 := by
  cases expected <;> cases allowed <;> decide

theorem report_eq (hlim : LimitsOk lim) {e : Event} (h : EventOk lim e) {st : State} (hn : st.counter + 1 < 2 ^ 64) :
    report lim color st e =
      .ok ⟨listedAfter st.counter e, st.out ++ (pieces lim st.counter e).flatMap (render color)⟩ := by
  have hlim' := hlim
  obtain ⟨h1, h2, h3, h4⟩ := hlim'
  obtain ⟨c1, c2, c3, c4⟩ := h
  have hm : lim.message < 2 ^ 64 := by omega
  cases e with
  | runStarted name =>
    refine Adds.bind (p := [.painted highlight2 "starting ".toList, .painted highlight1 name,
      .painted highlight2 " with ".toList, .painted highlight1 ("snitch v".toList ++ lim.version ++ "\n".toList)])
      (say_adds hm ?_ ?_) (say1_adds "==========================================\n".toList) st
    · simp only [List.forall_mem_cons]
      exact ⟨fits_paint rfl (by omega) (by simp; omega), fits_paint rfl (by omega) (c1 _ (by simp [coloredTexts])),
        fits_paint rfl (by omega) (by simp; omega), fits_paint rfl (by omega) (by simp; omega), by simp⟩
    · simp [whole_paint]
  | runEnded success run fail skip asserts duration =>
    have := c2 run (by simp [numbers])
    have := c2 fail (by simp [numbers])
    have := c2 skip (by simp [numbers])
    have := c2 asserts (by simp [numbers])
    exact Adds.bind (say1_adds "==========================================\n".toList)
      (Adds.bind (printVerdict_adds hlim ‹_› ‹_› ‹_›) (Adds.bind (printSkips_adds hlim ‹_›)
      (Adds.bind (printSeconds_adds hlim (c4 _ (by simp [durations]))) (say1_adds ")\n".toList)))) st
  | caseStarted id loc =>
    have hn := c2 loc.line (by simp [numbers])
    obtain ⟨v, e, hv⟩ := fullName_eq hlim (c3 (Spec.fullName id) (by simp [fullNames]))
    show (fullName lim id >>= fun name => _) = _
    rw [e, Outcome.bind_ok, hv]
    refine Adds.value (num_eq hn) (say_adds hm ?_ ?_) st
    · simp only [List.forall_mem_cons]
      exact ⟨fits_paint rfl (by omega) (by simp; omega), fits_str ..,
        fits_paint rfl (by omega) (c1 _ (by simp [coloredTexts])), fits_str .., trivial, fits_str ..,
        fits_num hn (by omega), fits_str .., by simp⟩
    · simp [pieces, whole_paint, whole_str (color := color), whole_value (color := color),
        whole_text (color := color)]
  | caseEnded id duration =>
    obtain ⟨v, e, hv⟩ := fullName_eq hlim (c3 (Spec.fullName id) (by simp [fullNames]))
    have hd := c4 duration (by simp [durations])
    have hc := c1 (Spec.fullName id) (by simp [coloredTexts])
    show printFinished lim color id duration st = _
    unfold printFinished
    rw [e, Outcome.bind_ok, hv]
    by_cases ht : lim.timings = true
    · rw [if_pos ht]
      refine say_adds hm ?_ ?_ st
      · simp only [List.forall_mem_cons]
        exact ⟨fits_paint rfl (by omega) (by simp; omega), fits_str .., fits_paint rfl (by omega) hc, fits_str .., hd,
          fits_str .., by simp⟩
      · simp [pieces, finishedPieces, ht, whole_paint, whole_str (color := color), whole_value (color := color)]
    · rw [if_neg ht]
      refine say_adds hm ?_ ?_ st
      · simp only [List.forall_mem_cons]
        exact ⟨fits_paint rfl (by omega) (by simp; omega), fits_str .., fits_paint rfl (by omega) hc, fits_str ..,
          by simp⟩
      · simp [pieces, finishedPieces, ht, whole_paint, whole_str (color := color)]
  | sectionStarted id loc =>
    have hn := c2 loc.line (by simp [numbers])
    refine Adds.value (num_eq hn) (say_adds hm ?_ ?_) st
    · simp only [List.forall_mem_cons]
      exact ⟨fits_paint rfl (by omega) (by simp; omega), fits_str ..,
        fits_paint rfl (by omega) (c1 _ (by simp [coloredTexts])), fits_str .., trivial, fits_str ..,
        fits_num hn (by omega), fits_str .., by simp⟩
    · simp [pieces, whole_paint, whole_str (color := color), whole_value (color := color),
        whole_text (color := color)]
  | sectionEnded id =>
    refine say_adds hm ?_ ?_ st
    · simp only [List.forall_mem_cons]
      exact ⟨fits_paint rfl (by omega) (by simp; omega), fits_str ..,
        fits_paint rfl (by omega) (c1 _ (by simp [coloredTexts])), fits_str .., by simp⟩
    · simp [pieces, whole_paint, whole_str (color := color)]
  | caseSkipped id place message =>
    have hn := c2 place.loc.line (by simp [numbers])
    refine Adds.bind (say_adds hm ?_ ?_) (Adds.bind (printLocation_adds hlim ?_ hn) (say_adds hm ?_ ?_)) st
    · simp only [List.forall_mem_cons]
      exact ⟨fits_paint rfl (by omega) (by simp; omega), by simp⟩
    · simp [whole_paint]
    · intro t ht; exact c1 t (by simp [coloredTexts, ht])
    · simp only [List.forall_mem_cons]
      exact ⟨fits_str .., fits_paint rfl (by omega) (c1 _ (by simp [coloredTexts])), fits_str .., by simp⟩
    · simp [whole_paint, whole_str (color := color)]
  | assertionFailed id place data expected allowed =>
    have hn := c2 place.loc.line (by simp [numbers])
    refine Adds.bind (say_adds hm ?_ ?_) (Adds.bind (printLocation_adds hlim ?_ hn) (printMessage_adds hlim ?_)) st
    · have := failureLabel_length expected allowed
      simp only [List.forall_mem_cons]
      exact ⟨fits_paint (failureColor_length _ _) (by omega) (by omega), by simp⟩
    · simp [whole_paint]
    · intro t ht; exact c1 t (by simp [coloredTexts, ht])
    · intro t ht; exact c1 t (by simp [coloredTexts, ht])
  | assertionSucceeded id place data =>
    have hn := c2 place.loc.line (by simp [numbers])
    refine Adds.bind (say_adds hm ?_ ?_) (Adds.bind (printLocation_adds hlim ?_ hn) (printMessage_adds hlim ?_)) st
    · simp only [List.forall_mem_cons]
      exact ⟨fits_paint rfl (by omega) (by simp; omega), by simp⟩
    · simp [whole_paint]
    · intro t ht; exact c1 t (by simp [coloredTexts, ht])
    · intro t ht; exact c1 t (by simp [coloredTexts, ht])
  | listStarted => simp [report, say1, Print.printStr, listedAfter, pieces, lit, render]
  | listEnded =>
    refine Adds.value (num_eq (by omega)) (say_adds hm ?_ ?_) st
    · simp only [List.forall_mem_cons]
      exact ⟨fits_num (by omega) (by omega), fits_str .., by simp⟩
    · simp [pieces, whole_str (color := color), whole_value (color := color)]
  | listed id =>
    obtain ⟨v, e, hv⟩ := fullName_eq hlim (c3 (Spec.fullName id) (by simp [fullNames]))
    show printListed lim id st = _
    unfold printListed
    rw [e, Outcome.bind_ok, hv, Nat.mod_eq_of_lt (show st.counter + 1 < sizeT from hn)]
    have k1 : Adds color (say lim [str "  ", .str (Spec.fullName id), str "\n"])
        [lit "  ", .plain (Spec.fullName id), lit "\n"] := by
      refine say_adds hm ?_ ?_
      · simp only [List.forall_mem_cons]; exact ⟨fits_str .., trivial, fits_str .., by simp⟩
      · simp [whole_str (color := color), whole_text (color := color)]
    have k2 : Adds color (say lim [str "      ", .str id.tags, str "\n"])
        [lit "      ", .plain id.tags, lit "\n"] := by
      refine say_adds hm ?_ ?_
      · simp only [List.forall_mem_cons]; exact ⟨fits_str .., trivial, fits_str .., by simp⟩
      · simp [whole_str (color := color), whole_text (color := color)]
    dsimp only
    rw [k1, Outcome.bind_ok]
    by_cases ht : id.tags = []
    · rw [if_pos (by simp [ht])]
      simp [pieces, ht, listedAfter]
    · rw [if_neg (by simpa using ht), k2]
      simp [pieces, ht, listedAfter]

end Verif.Report.Console
