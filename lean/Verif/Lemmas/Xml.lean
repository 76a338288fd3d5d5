import Verif.Lemmas.XmlText
/-!
# Lemmas about what the XML reporter prints
-/
namespace Verif.Report.Xml
open Verif Verif.Report Verif.Report.Spec

/-- What a reader has found in what has been printed so far: the elements not yet ended, what is in the
innermost one, and the text `p` (surrounded by white space) after that. -/
def Shows (rep : Rep) (stack : List Pending) (nodes : List Node) (p : Text) : Prop :=
  rep.level = stack.length % sizeT ∧ ∃ body a b, a.all blank = true ∧ b.all blank = true ∧
    rep.out = declaration ++ body ∧
    feed ⟨[], [], .content []⟩ body = some ⟨stack, nodes, .content (a ++ p ++ b)⟩

theorem Shows.more {rep : Rep} {stack stack' : List Pending} {nodes nodes' : List Node} {p p' : Text}
    (h : Shows rep stack nodes p) {level : Nat} {s : Text} (hl : level = stack'.length % sizeT)
    (hs : ∀ a b, a.all blank = true → b.all blank = true →
      ∃ a' b', a'.all blank = true ∧ b'.all blank = true ∧
        feed ⟨stack, nodes, .content (a ++ p ++ b)⟩ s =
          some ⟨stack', nodes', .content (a' ++ p' ++ b')⟩) :
    Shows ⟨level, rep.out ++ s⟩ stack' nodes' p' := by
  obtain ⟨_, body, a, b, ha, hb, ho, hf⟩ := h
  obtain ⟨a', b', ha', hb', hs'⟩ := hs a b ha hb
  exact ⟨hl, body ++ s, a', b', ha', hb', by rw [ho]; simp, by rw [feed_trans hf, hs']⟩

theorem indent_blank (rep : Rep) : (indent rep).all blank = true := by
  rw [List.all_eq_true]
  intro c hc
  simp only [indent, List.mem_replicate] at hc
  rw [hc.2]; rfl

theorem newline_blank : (['\n'] : Text).all blank = true := by decide

theorem textNode_blank {a : Text} (h : a.all blank = true) : textNode a = [] := by
  have := textNode_blanks (a := a) (p := []) (b := []) h rfl
  simpa [show textNode [] = [] from rfl] using this

variable {lim : Limits}

theorem sayArgs_eq (h : lim.message < 2 ^ 64) (as : List (Text × Text)) : ∀ rep : Rep,
    sayArgs lim as rep = .ok { rep with out := rep.out ++ as.flatMap attrText } := by
  induction as with
  | nil => intro rep; simp [sayArgs]
  | cons a as ih =>
    intro rep
    unfold sayArgs
    rw [say_eq h, Outcome.bind_ok, ih]
    simp [attrText]

theorem openTag_shows (h : lim.message < 2 ^ 64) {rep : Rep} {stack : List Pending} {nodes : List Node}
    (hs : Shows rep stack nodes []) {name : Text} {as bs : List (Text × Text)} (hn : NameOk name)
    (ha : AttrsRead as bs) (hnd : (bs.map (·.1)).Nodup) :
    ∃ rep', openTag lim name as rep = .ok rep' ∧ Shows rep' (⟨name, bs, nodes⟩ :: stack) [] [] := by
  unfold openTag
  rw [say_eq h, Outcome.bind_ok, sayArgs_eq h, Outcome.bind_ok, say1_eq]
  refine ⟨_, rfl, ?_⟩
  have hso : rep.out ++ [indent rep, "<".toList, name].flatten ++ as.flatMap attrText ++ ">\n".toList =
      rep.out ++ (indent rep ++ (('<' :: name ++ as.flatMap attrText ++ ['>']) ++ ['\n'])) := by simp
  simp only [hso]
  refine hs.more ?_ ?_
  · rw [hs.1, List.length_cons, sizeT_eq]; omega
  · intro a b ha' hb'
    refine ⟨[], ['\n'], rfl, newline_blank, ?_⟩
    have hbl : (a ++ [] ++ b ++ indent rep).all blank = true := by
      simp only [List.all_append, Bool.and_eq_true, List.append_nil]
      exact ⟨⟨ha', hb'⟩, indent_blank rep⟩
    rw [feed_trans (blank_legal (indent_blank rep) _ _ _), feed_trans (feed_open hn ha hnd),
      textNode_blank hbl, blank_legal newline_blank]
    simp

theorem node_shows (h : lim.message < 2 ^ 64) {rep : Rep} {stack : List Pending} {nodes : List Node}
    (hs : Shows rep stack nodes []) {name : Text} {as bs : List (Text × Text)} (hn : NameOk name)
    (ha : AttrsRead as bs) (hnd : (bs.map (·.1)).Nodup) :
    ∃ rep', node lim name as rep = .ok rep' ∧ Shows rep' stack (nodes ++ [.elem name bs []]) [] := by
  unfold node
  rw [say_eq h, Outcome.bind_ok, sayArgs_eq h, Outcome.bind_ok, say1_eq]
  refine ⟨_, rfl, ?_⟩
  have hso : rep.out ++ [indent rep, "<".toList, name].flatten ++ as.flatMap attrText ++ "/>\n".toList =
      rep.out ++ (indent rep ++ (('<' :: name ++ as.flatMap attrText ++ ['/', '>']) ++ ['\n'])) := by simp
  simp only [hso]
  refine hs.more hs.1 ?_
  · intro a b ha' hb'
    refine ⟨[], ['\n'], rfl, newline_blank, ?_⟩
    have hbl : (a ++ [] ++ b ++ indent rep).all blank = true := by
      simp only [List.all_append, Bool.and_eq_true, List.append_nil]
      exact ⟨⟨ha', hb'⟩, indent_blank rep⟩
    rw [feed_trans (blank_legal (indent_blank rep) _ _ _), feed_trans (feed_empty hn ha hnd),
      textNode_blank hbl, blank_legal newline_blank]
    simp

theorem print_shows (h : lim.message < 2 ^ 64) {rep : Rep} {stack : List Pending} {nodes : List Node}
    (hs : Shows rep stack nodes []) {raw t : Text} (ht : TextReads raw t) :
    ∃ rep', print lim raw rep = .ok rep' ∧ Shows rep' stack nodes t := by
  unfold print
  rw [say_eq h]
  refine ⟨_, rfl, ?_⟩
  have hso : rep.out ++ [indent rep, raw, "\n".toList].flatten =
      rep.out ++ (indent rep ++ (raw ++ ['\n'])) := by simp
  simp only [hso]
  refine hs.more hs.1 ?_
  intro a b ha' hb'
  refine ⟨a ++ b ++ indent rep, ['\n'], ?_, newline_blank, ?_⟩
  · simp only [List.all_append, Bool.and_eq_true]
    exact ⟨⟨ha', hb'⟩, indent_blank rep⟩
  · rw [feed_trans (blank_legal (indent_blank rep) _ _ _), feed_trans (ht _ _ _),
      blank_legal newline_blank]
    simp

theorem close_shows (h : lim.message < 2 ^ 64) {rep : Rep} {p : Pending} {stack : List Pending}
    {nodes : List Node} {t : Text} (hs : Shows rep (p :: stack) nodes t) (hn : NameOk p.name) :
    ∃ rep', close lim p.name rep = .ok rep' ∧
      Shows rep' stack (p.before ++ [.elem p.name p.attrs (nodes ++ textNode t)]) [] := by
  unfold close
  simp only
  rw [say_eq h]
  refine ⟨_, rfl, ?_⟩
  have hso : rep.out ++ [indent { rep with level := subSize rep.level 1 }, "</".toList, p.name,
      ">\n".toList].flatten =
      rep.out ++ (indent { rep with level := subSize rep.level 1 } ++
        (('<' :: '/' :: p.name ++ ['>']) ++ ['\n'])) := by simp
  simp only [hso]
  refine hs.more ?_ ?_
  · rw [hs.1, List.length_cons, subSize_level]
  · intro a b ha' hb'
    refine ⟨[], ['\n'], rfl, newline_blank, ?_⟩
    have hbl : (b ++ indent { rep with level := subSize rep.level 1 }).all blank = true := by
      simp only [List.all_append, Bool.and_eq_true]
      exact ⟨hb', indent_blank _⟩
    rw [feed_trans (blank_legal (indent_blank _) _ _ _), feed_trans (feed_close hn),
      blank_legal newline_blank, List.append_assoc _ b, textNode_blanks ha' hbl]
    simp

/-- `open`, `print`, `close`. -/
theorem element_shows (h : lim.message < 2 ^ 64) {rep : Rep} {stack : List Pending} {nodes : List Node}
    (hs : Shows rep stack nodes []) {name : Text} {as bs : List (Text × Text)} (hn : NameOk name)
    (ha : AttrsRead as bs) (hnd : (bs.map (·.1)).Nodup) {raw t : Text} (ht : TextReads raw t) :
    ∃ r1 r2 r3, openTag lim name as rep = .ok r1 ∧ print lim raw r1 = .ok r2 ∧
      close lim name r2 = .ok r3 ∧ Shows r3 stack (nodes ++ [.elem name bs (textNode t)]) [] := by
  obtain ⟨r1, e1, h1⟩ := openTag_shows h hs hn ha hnd
  obtain ⟨r2, e2, h2⟩ := print_shows h h1 ht
  obtain ⟨r3, e3, h3⟩ := close_shows h h2 hn
  exact ⟨r1, r2, r3, e1, e2, e3, by simpa using h3⟩

theorem openClose_shows (h : lim.message < 2 ^ 64) {rep : Rep} {stack : List Pending} {nodes : List Node}
    (hs : Shows rep stack nodes []) {name : Text} (hn : NameOk name) {raw t : Text} (ht : TextReads raw t)
    (h0 : raw = [] → t = []) :
    ∃ rep', openClose lim name raw rep = .ok rep' ∧
      Shows rep' stack (nodes ++ [.elem name [] (textNode t)]) [] := by
  unfold openClose
  by_cases hr : raw = []
  · rw [if_pos (by simp [hr])]
    have : textNode t = [] := by rw [h0 hr]; rfl
    rw [this]
    exact node_shows h hs hn .nil (by simp)
  · rw [if_neg (by simp [hr]), say_eq h]
    refine ⟨_, rfl, ?_⟩
    have hso : rep.out ++ [indent rep, "<".toList, name, ">".toList, raw, "</".toList, name,
        ">\n".toList].flatten =
        rep.out ++ (indent rep ++ (('<' :: name ++ ([] : List (Text × Text)).flatMap attrText ++ ['>']) ++
          (raw ++ (('<' :: '/' :: name ++ ['>']) ++ ['\n'])))) := by simp
    simp only [hso]
    refine hs.more hs.1 ?_
    intro a b ha' hb'
    refine ⟨[], ['\n'], rfl, newline_blank, ?_⟩
    have hbl : (a ++ [] ++ b ++ indent rep).all blank = true := by
      simp only [List.all_append, Bool.and_eq_true, List.append_nil]
      exact ⟨⟨ha', hb'⟩, indent_blank rep⟩
    have e := feed_close (p := ⟨name, [], nodes⟩) (stack := stack) (nodes := []) (t := [] ++ t) hn
    rw [feed_trans (blank_legal (indent_blank rep) _ _ _), feed_trans (feed_open hn .nil (by simp)),
      textNode_blank hbl, List.append_nil, feed_trans (ht _ _ _), feed_trans e, blank_legal newline_blank]
    simp

/-! ## Events -/

theorem makeString_eq {n : Nat} (h : n < 2 ^ 64) : makeString n = .ok (decimal n) := makeNumber_eq h

theorem attrsRead_location {loc : Location} (h : LocationOk lim loc) :
    AttrsRead [("filename".toList, loc.file.flatMap entity), ("line".toList, decimal loc.line)]
      (Spec.locationAttrs loc) :=
  .cons (by decide) (attrReads_entities h.1.1) (.cons (by decide) (attrReads_decimal _) .nil)

theorem yesNo_reads (b : Bool) : AttrReads (yesNo b) (yesNo b) := by
  cases b <;> exact attrReads_self (by decide) (by decide)

theorem locationArgs_eq (hlim : LimitsOk lim) {loc : Location} (h : LocationOk lim loc) :
    locationArgs lim loc =
      .ok [("filename".toList, loc.file.flatMap entity), ("line".toList, decimal loc.line)] := by
  unfold locationArgs
  rw [makeEscaped_eq hlim.1 h.1.2, Outcome.bind_ok, makeString_eq h.2, Outcome.bind_ok]; rfl

theorem attrsRead_duration {d : Text} (h : Plain d) :
    AttrsRead (durationArgs lim d) (durationAttrs lim d) := by
  unfold durationArgs durationAttrs
  cases lim.timings with
  | false => exact .nil
  | true => exact .cons (by decide) (attrReads_plain h) .nil

theorem countArgs_eq {c : Counts} (h : CountsOk c) : countArgs c = .ok (countAttrs c) := by
  obtain ⟨h1, h2⟩ := h
  unfold countArgs countAttrs
  rw [subSize_eq h1 (by omega), subSize_eq (by omega) (by omega), makeString_eq (by omega),
    Outcome.bind_ok, makeString_eq (by omega), Outcome.bind_ok, makeString_eq (by omega),
    Outcome.bind_ok]
  rfl

theorem attrsRead_counts (c : Counts) : AttrsRead (countAttrs c) (countAttrs c) :=
  .cons (by decide) (attrReads_decimal _) (.cons (by decide) (attrReads_decimal _)
    (.cons (by decide) (attrReads_decimal _) .nil))

theorem message_lt (hlim : LimitsOk lim) : lim.message < 2 ^ 64 := by have := hlim.1; omega

theorem reportCaptures_shows (hlim : LimitsOk lim) (cs : List Text) : ∀ {rep : Rep}
    {stack : List Pending} {nodes : List Node}, Shows rep stack nodes [] →
    (∀ c ∈ cs, Short lim.message c) →
    ∃ rep', reportCaptures lim cs rep = .ok rep' ∧
      Shows rep' stack (nodes ++ cs.map infoNode) [] := by
  induction cs with
  | nil => intro rep stack nodes hs _; exact ⟨rep, rfl, by simpa using hs⟩
  | cons c cs ih =>
    intro rep stack nodes hs hc
    have hc0 := hc c (by simp)
    obtain ⟨r1, r2, r3, e1, e2, e3, h3⟩ := element_shows (message_lt hlim) hs
      (name := "Info".toList) (by decide) .nil (by simp) (textReads_entities hc0.1)
    obtain ⟨r4, e4, h4⟩ := ih h3 (fun x hx => hc x (by simp [hx]))
    refine ⟨r4, ?_, by simpa [infoNode] using h4⟩
    unfold reportCaptures
    rw [e1, Outcome.bind_ok, makeEscaped_eq hlim.1 hc0.2, Outcome.bind_ok, e2, Outcome.bind_ok, e3,
      Outcome.bind_ok, e4]

theorem location_nodup (loc : Location) : ((Spec.locationAttrs loc).map (·.1)).Nodup := by
  show ["filename".toList, "line".toList].Nodup
  decide

theorem reportMessage_shows (hlim : LimitsOk lim) {rep : Rep} {stack : List Pending} {nodes : List Node}
    (hs : Shows rep stack nodes []) {loc : Location} (hl : LocationOk lim loc) {m : Text}
    (hm : Short lim.message m) (ok : Bool) :
    ∃ rep', reportMessage lim loc m ok rep = .ok rep' ∧
      Shows rep' stack (nodes ++ [assertionNode loc ok (.message m)]) [] := by
  obtain ⟨r1, r2, r3, e1, e2, e3, h3⟩ := element_shows (message_lt hlim) hs
    (name := if ok then "Success".toList else "Failure".toList) (by cases ok <;> decide)
    (attrsRead_location hl) (location_nodup loc) (textReads_entities hm.1)
  refine ⟨r3, ?_, h3⟩
  unfold reportMessage
  simp only
  rw [makeEscaped_eq hlim.1 hl.1.2, Outcome.bind_ok, makeString_eq hl.2, Outcome.bind_ok, e1,
    Outcome.bind_ok, makeEscaped_eq hlim.1 hm.2, Outcome.bind_ok, e2, Outcome.bind_ok, e3]

theorem reportExpression_shows (hlim : LimitsOk lim) {rep : Rep} {stack : List Pending}
    {nodes : List Node} (hs : Shows rep stack nodes []) {loc : Location} (hl : LocationOk lim loc)
    {type expected actual : Text} (ht : Plain type) (he : Short lim.message expected)
    (ha : Short lim.message actual) (ok : Bool) :
    ∃ rep', reportExpression lim loc type expected actual ok rep = .ok rep' ∧
      Shows rep' stack (nodes ++ [assertionNode loc ok (.expression type expected actual)]) [] := by
  have hcap := message_lt hlim
  have hshown : Short lim.message (if !actual.isEmpty then actual else expected) := by
    split <;> assumption
  obtain ⟨r0, e0, h0⟩ := openTag_shows hcap hs (name := "Expression".toList) (by decide)
    (.cons (k := "success".toList) (by decide) (yesNo_reads ok)
      (.cons (k := "type".toList) (by decide) (attrReads_plain ht) (attrsRead_location hl)))
    (show ["success".toList, "type".toList, "filename".toList, "line".toList].Nodup by decide)
  obtain ⟨r1, r2, r3, e1, e2, e3, h3⟩ := element_shows hcap h0
    (name := "Original".toList) (by decide) .nil (by simp) (textReads_entities he.1)
  obtain ⟨r4, r5, r6, e4, e5, e6, h6⟩ := element_shows hcap h3
    (name := "Expanded".toList) (by decide) .nil (by simp) (textReads_entities hshown.1)
  obtain ⟨r7, e7, h7⟩ := close_shows hcap h6 (show NameOk "Expression".toList by decide)
  refine ⟨r7, ?_, ?_⟩
  · unfold reportExpression
    rw [makeEscaped_eq hlim.1 hl.1.2, Outcome.bind_ok, makeString_eq hl.2, Outcome.bind_ok]
    unfold yesNo at e0
    rw [e0, Outcome.bind_ok, e1, Outcome.bind_ok, makeEscaped_eq hlim.1 he.2, Outcome.bind_ok, e2,
      Outcome.bind_ok, e3, Outcome.bind_ok, e4, Outcome.bind_ok, makeEscaped_eq hlim.1 hshown.2,
      Outcome.bind_ok, e5, Outcome.bind_ok, e6, Outcome.bind_ok]
    exact e7
  · have : (if (!actual.isEmpty) = true then actual else expected) =
        if actual = [] then expected else actual := by
      cases actual <;> simp
    rw [this] at h7
    simpa [assertionNode, textNode, trim] using h7

theorem reportAssertion_shows (hlim : LimitsOk lim) {rep : Rep} {stack : List Pending}
    {nodes : List Node} (hs : Shows rep stack nodes []) {captures : List Text} {loc : Location}
    {data : Data} (hc : ∀ c ∈ captures, Short lim.message c) (hl : LocationOk lim loc)
    (hd : DataOk lim data) (ok : Bool) :
    ∃ rep', reportAssertion lim captures loc data ok rep = .ok rep' ∧
      Shows rep' stack (nodes ++ (captures.map infoNode ++ [assertionNode loc ok data])) [] := by
  obtain ⟨r1, e1, h1⟩ := reportCaptures_shows hlim captures hs hc
  rw [← List.append_assoc]
  unfold reportAssertion
  rw [e1, Outcome.bind_ok]
  cases data with
  | message m => exact reportMessage_shows hlim h1 hl hd ok
  | expression type expected actual => exact reportExpression_shows hlim h1 hl hd.1 hd.2.1 hd.2.2 ok

theorem leaf_shows (hlim : LimitsOk lim) {rep : Rep} {stack : List Pending} {nodes : List Node}
    (hs : Shows rep stack nodes []) {e : Event} {l : List Node} (hl : leafNodes e = some l)
    (he : EventOk lim e) :
    ∃ rep', report lim rep e = .ok rep' ∧ Shows rep' stack (nodes ++ l) [] := by
  cases e with
  | assertionFailed id captures loc data ex al =>
    simp only [leafNodes, Option.some.injEq] at hl
    subst hl
    exact reportAssertion_shows hlim hs he.1 he.2.1 he.2.2 false
  | assertionSucceeded id captures loc data =>
    simp only [leafNodes, Option.some.injEq] at hl
    subst hl
    exact reportAssertion_shows hlim hs he.1 he.2.1 he.2.2 true
  | caseSkipped id captures loc message =>
    simp only [leafNodes, Option.some.injEq] at hl
    subst hl
    obtain ⟨r1, r2, r3, e1, e2, e3, h3⟩ := element_shows (message_lt hlim) hs (name := "Skip".toList)
      (by decide) (attrsRead_location he.1) (location_nodup loc) (textReads_plain he.2)
    refine ⟨r3, ?_, h3⟩
    simp only [report]
    rw [locationArgs_eq hlim he.1, Outcome.bind_ok, e1, Outcome.bind_ok, e2, Outcome.bind_ok, e3]
  | _ => simp [leafNodes] at hl

theorem section_shows (hlim : LimitsOk lim) {rep : Rep} {stack : List Pending} {nodes : List Node}
    (hs : Shows rep stack nodes []) {id : SectionId} {loc : Location}
    (he : EventOk lim (.sectionStarted id loc)) :
    ∃ rep', report lim rep (.sectionStarted id loc) = .ok rep' ∧
      Shows rep' (⟨"Section".toList, ("name".toList, attr id.name) :: Spec.locationAttrs loc, nodes⟩ ::
        stack) [] [] := by
  obtain ⟨r, e, h⟩ := openTag_shows (message_lt hlim) hs (name := "Section".toList) (by decide)
    (.cons (k := "name".toList) (by decide) (attrReads_entities he.1.1) (attrsRead_location he.2))
    (show ["name".toList, "filename".toList, "line".toList].Nodup by decide)
  refine ⟨r, ?_, h⟩
  simp only [report]
  rw [makeEscaped_eq hlim.1 he.1.2, Outcome.bind_ok, locationArgs_eq hlim he.2, Outcome.bind_ok]
  exact e

theorem duration_keys (d : Text) : (durationAttrs lim d).map (·.1) =
    if lim.timings then ["durationInSeconds".toList] else [] := by
  unfold durationAttrs; cases lim.timings <;> rfl

theorem sectionEnd_shows (hlim : LimitsOk lim) {rep : Rep} {stack : List Pending} {nodes before : List Node}
    {attrs : List (Text × Text)}
    (hs : Shows rep (⟨"Section".toList, attrs, before⟩ :: stack) nodes []) {id : SectionId}
    {loc : Location} {skipped : Bool} {counts : Counts} {d : Text}
    (he : EventOk lim (.sectionEnded id loc skipped counts d)) :
    ∃ rep', report lim rep (.sectionEnded id loc skipped counts d) = .ok rep' ∧
      Shows rep' stack (before ++ [.elem "Section".toList attrs (nodes ++
        [.elem "OverallResults".toList (countAttrs counts ++ [("skipped".toList, yesNo skipped)] ++
          durationAttrs lim d) []])]) [] := by
  obtain ⟨r1, e1, h1⟩ := node_shows (message_lt hlim) hs (name := "OverallResults".toList) (by decide)
    (((attrsRead_counts counts).append (.cons (k := "skipped".toList) (by decide) (yesNo_reads skipped)
      .nil)).append (attrsRead_duration he.2)) (by
        rw [List.map_append, duration_keys]
        show (["successes".toList, "failures".toList, "expectedFailures".toList, "skipped".toList] ++
          if lim.timings then ["durationInSeconds".toList] else []).Nodup
        cases lim.timings <;> decide)
  obtain ⟨r2, e2, h2⟩ := close_shows (message_lt hlim) h1 (show NameOk "Section".toList by decide)
  refine ⟨r2, ?_, ?_⟩
  · simp only [report]
    rw [countArgs_eq he.1, Outcome.bind_ok]
    unfold yesNo at e1
    rw [e1, Outcome.bind_ok]
    exact e2
  · simpa [textNode, trim] using h2

theorem caseStart_shows (hlim : LimitsOk lim) {rep : Rep} {stack : List Pending} {nodes : List Node}
    (hs : Shows rep stack nodes []) {id : Id} {loc : Location}
    (he : EventOk lim (.caseStarted id loc)) :
    ∃ rep', report lim rep (.caseStarted id loc) = .ok rep' ∧
      Shows rep' (⟨"TestCase".toList, ("name".toList, attr (Spec.fullName id)) ::
        ("tags".toList, attr id.tags) :: Spec.locationAttrs loc, nodes⟩ :: stack) [] [] := by
  obtain ⟨r, e, h⟩ := openTag_shows (message_lt hlim) hs (name := "TestCase".toList) (by decide)
    (.cons (k := "name".toList) (by decide) (attrReads_entities he.1.1)
      (.cons (k := "tags".toList) (by decide) (attrReads_entities he.2.1.1)
        (attrsRead_location he.2.2)))
    (show ["name".toList, "tags".toList, "filename".toList, "line".toList].Nodup by decide)
  refine ⟨r, ?_, h⟩
  simp only [report]
  rw [makeFullName_eq hlim.2.1 he.1.2, Outcome.bind_ok, makeEscaped_eq hlim.1 he.2.1.2,
    Outcome.bind_ok, locationArgs_eq hlim he.2.2, Outcome.bind_ok]
  exact e

theorem caseEnd_shows (hlim : LimitsOk lim) {rep : Rep} {stack : List Pending} {nodes before : List Node}
    {attrs : List (Text × Text)}
    (hs : Shows rep (⟨"TestCase".toList, attrs, before⟩ :: stack) nodes []) {id : Id}
    {loc : Location} {state : State} {d : Text} {us : Nat}
    (he : EventOk lim (.caseEnded id loc state d us)) :
    ∃ rep', report lim rep (.caseEnded id loc state d us) = .ok rep' ∧
      Shows rep' stack (before ++ [.elem "TestCase".toList attrs (nodes ++
        [.elem "OverallResult".toList ([("success".toList, yesNo (state ≠ .failed)),
          ("skips".toList, decimal (if state = .skipped then 1 else 0))] ++ durationAttrs lim d) []])])
        [] := by
  obtain ⟨r1, e1, h1⟩ := node_shows (message_lt hlim) hs (name := "OverallResult".toList) (by decide)
    (AttrsRead.append (.cons (k := "success".toList) (by decide) (yesNo_reads (state ≠ .failed))
      (.cons (k := "skips".toList) (by decide) (attrReads_decimal (if state = .skipped then 1 else 0))
      .nil)) (attrsRead_duration he)) (by
        rw [List.map_append, duration_keys]
        show (["success".toList, "skips".toList] ++
          if lim.timings then ["durationInSeconds".toList] else []).Nodup
        cases lim.timings <;> decide)
  obtain ⟨r2, e2, h2⟩ := close_shows (message_lt hlim) h1 (show NameOk "TestCase".toList by decide)
  refine ⟨r2, ?_, ?_⟩
  · simp only [report]
    have a1 : (if state = .failed then "false".toList else "true".toList) = yesNo (state ≠ .failed) := by
      cases state <;> rfl
    have a2 : (if state = .skipped then "1".toList else "0".toList) =
        decimal (if state = .skipped then 1 else 0) := by
      cases state <;> rfl
    rw [a1, a2, e1, Outcome.bind_ok]
    exact e2
  · simpa [textNode, trim] using h2

theorem reportAll_append (a b : List Event) : ∀ rep : Rep,
    reportAll lim (a ++ b) rep = (reportAll lim a rep).bind (reportAll lim b) := by
  induction a with
  | nil => intro rep; rfl
  | cons e a ih =>
    intro rep
    simp only [List.cons_append, reportAll]
    cases report lim rep e with
    | ok r => exact ih r
    | _ => rfl

theorem reportAll_trans {rep rep' : Rep} {a b : List Event} (h : reportAll lim a rep = .ok rep') :
    reportAll lim (a ++ b) rep = reportAll lim b rep' := by
  rw [reportAll_append, h]; rfl

theorem reportAll_cons {rep rep' : Rep} {e : Event} {b : List Event} (h : report lim rep e = .ok rep') :
    reportAll lim (e :: b) rep = reportAll lim b rep' := by
  simp only [reportAll]; rw [h, Outcome.bind_ok]

theorem tells_shows (hlim : LimitsOk lim) {es : List Event} {ns : List Node} (h : Tells lim es ns) :
    ∀ {rep : Rep} {stack : List Pending} {nodes : List Node}, Shows rep stack nodes [] →
    (∀ e ∈ es, EventOk lim e) →
    ∃ rep', reportAll lim es rep = .ok rep' ∧ Shows rep' stack (nodes ++ ns) [] := by
  induction h with
  | nil => intro rep stack nodes hs _; exact ⟨rep, rfl, by simpa using hs⟩
  | leaf hl _ ih =>
    intro rep stack nodes hs he
    obtain ⟨r1, e1, h1⟩ := leaf_shows hlim hs hl (he _ (List.mem_cons_self ..))
    obtain ⟨r2, e2, h2⟩ := ih h1 (fun x hx => he x (by simp [hx]))
    exact ⟨r2, by rw [reportAll_cons e1, e2], by simpa using h2⟩
  | «section» _ _ ih1 ih2 =>
    intro rep stack nodes hs he
    obtain ⟨r1, e1, h1⟩ := section_shows hlim hs (he _ (List.mem_append_left _ (List.mem_cons_self ..)))
    obtain ⟨r2, e2, h2⟩ := ih1 h1 (fun x hx => he x (by simp [hx]))
    obtain ⟨r3, e3, h3⟩ := sectionEnd_shows hlim h2 (he _ (List.mem_append_right _ (List.mem_cons_self ..)))
    obtain ⟨r4, e4, h4⟩ := ih2 h3 (fun x hx => he x (by simp [hx]))
    refine ⟨r4, ?_, by simpa using h4⟩
    rw [List.cons_append, reportAll_cons e1, reportAll_trans e2, reportAll_cons e3, e4]

theorem tellsCases_shows (hlim : LimitsOk lim) {es : List Event} {ns : List Node}
    (h : TellsCases lim es ns) :
    ∀ {rep : Rep} {stack : List Pending} {nodes : List Node}, Shows rep stack nodes [] →
    (∀ e ∈ es, EventOk lim e) →
    ∃ rep', reportAll lim es rep = .ok rep' ∧ Shows rep' stack (nodes ++ ns) [] := by
  induction h with
  | nil => intro rep stack nodes hs _; exact ⟨rep, rfl, by simpa using hs⟩
  | case hin _ ih2 =>
    intro rep stack nodes hs he
    obtain ⟨r1, e1, h1⟩ := caseStart_shows hlim hs (he _ (List.mem_append_left _ (List.mem_cons_self ..)))
    obtain ⟨r2, e2, h2⟩ := tells_shows hlim hin h1 (fun x hx => he x (by simp [hx]))
    obtain ⟨r3, e3, h3⟩ := caseEnd_shows hlim h2 (he _ (List.mem_append_right _ (List.mem_cons_self ..)))
    obtain ⟨r4, e4, h4⟩ := ih2 h3 (fun x hx => he x (by simp [hx]))
    refine ⟨r4, ?_, by simpa using h4⟩
    rw [List.cons_append, reportAll_cons e1, reportAll_trans e2, reportAll_cons e3, e4]

/-! ## The run -/

theorem start_shows (hcap : lim.message < 2 ^ 64) (extra : Text) (hx : extra.all blank = true) :
    ∃ rep, print lim (declaration ++ extra) {} = .ok rep ∧ Shows rep [] [] [] := by
  unfold print
  rw [say_eq hcap]
  refine ⟨_, rfl, rfl, extra ++ ['\n'], extra ++ ['\n'], [], ?_, rfl, ?_, ?_⟩
  · simp only [List.all_append, Bool.and_eq_true]; exact ⟨hx, newline_blank⟩
  · simp [indent]
  · have hb : (extra ++ ['\n']).all blank = true := by
      simp only [List.all_append, Bool.and_eq_true]; exact ⟨hx, newline_blank⟩
    rw [blank_legal hb]; simp

theorem plain_append {a b : Text} (ha : Plain a) (hb : Plain b) : Plain (a ++ b) := by
  unfold Plain at *; rw [List.all_append, ha, hb]; rfl

theorem runStart_shows (hlim : LimitsOk lim) {name : Text} {filters : List Text}
    (he : EventOk lim (.runStarted name filters)) :
    ∃ rep', report lim {} (.runStarted name filters) = .ok rep' ∧
      Shows rep' [⟨"Catch2TestRun".toList, [("name".toList, attr name), ("rng-seed".toList, "0".toList),
        ("xml-format-version".toList, "3".toList),
        ("catch2-version".toList, attr (lim.version ++ ".snitch".toList)),
        ("filters".toList, attr (quoted filters))], []⟩] [] [] := by
  obtain ⟨r0, e0, h0⟩ := start_shows (message_lt hlim) ['\n'] newline_blank
  obtain ⟨r1, e1, h1⟩ := openTag_shows (message_lt hlim) h0 (name := "Catch2TestRun".toList) (by decide)
    (.cons (k := "name".toList) (by decide) (attrReads_entities he.1.1)
      (.cons (k := "rng-seed".toList) (by decide)
        (attrReads_self (s := "0".toList) (by decide) (by decide))
        (.cons (k := "xml-format-version".toList) (by decide)
          (attrReads_self (s := "3".toList) (by decide) (by decide))
          (.cons (k := "catch2-version".toList) (by decide)
            (attrReads_plain (plain_append hlim.2.2 (b := ".snitch".toList) (by decide)))
            (.cons (k := "filters".toList) (by decide) (attrReads_entities he.2.1) .nil)))))
    (show ["name".toList, "rng-seed".toList, "xml-format-version".toList, "catch2-version".toList,
      "filters".toList].Nodup by decide)
  refine ⟨r1, ?_, h1⟩
  have hd : declaration ++ ['\n'] = "<?xml version=\"1.0\" encoding=\"UTF-8\"?>\n".toList := by decide
  rw [hd] at e0
  simp only [report]
  rw [e0, Outcome.bind_ok, makeEscaped_eq hlim.1 he.1.2, Outcome.bind_ok,
    makeFilters_eq hlim.1 he.2.2, Outcome.bind_ok, e1]

theorem runEnd_shows (hlim : LimitsOk lim) {rep : Rep} {nodes : List Node}
    {attrs : List (Text × Text)} (hs : Shows rep [⟨"Catch2TestRun".toList, attrs, []⟩] nodes [])
    {name : Text} {filters : List Text} {run fail allowedFail skip : Nat} {counts : Counts}
    (he : EventOk lim (.runEnded name filters run fail allowedFail skip counts)) :
    ∃ rep', report lim rep (.runEnded name filters run fail allowedFail skip counts) = .ok rep' ∧
      Shows rep' [] [.elem "Catch2TestRun".toList attrs (nodes ++
        [.elem "OverallResults".toList (countAttrs counts ++ [("skips".toList, decimal skip)]) [],
        .elem "OverallResultsCases".toList [("successes".toList, decimal (run - fail - allowedFail)),
          ("failures".toList, decimal fail), ("expectedFailures".toList, decimal allowedFail),
          ("skips".toList, decimal skip)] []])] [] := by
  obtain ⟨h1, h2, h3, h4⟩ := he
  obtain ⟨r1, e1, s1⟩ := node_shows (message_lt hlim) hs (name := "OverallResults".toList) (by decide)
    ((attrsRead_counts counts).append (.cons (k := "skips".toList) (by decide)
      (attrReads_decimal skip) .nil))
    (show ["successes".toList, "failures".toList, "expectedFailures".toList, "skips".toList].Nodup by decide)
  obtain ⟨r2, e2, s2⟩ := node_shows (message_lt hlim) s1 (name := "OverallResultsCases".toList)
    (by decide) (.cons (k := "successes".toList) (by decide) (attrReads_decimal (run - fail - allowedFail))
      (.cons (k := "failures".toList) (by decide) (attrReads_decimal fail)
      (.cons (k := "expectedFailures".toList) (by decide) (attrReads_decimal allowedFail)
      (.cons (k := "skips".toList) (by decide) (attrReads_decimal skip) .nil))))
    (show ["successes".toList, "failures".toList, "expectedFailures".toList, "skips".toList].Nodup by decide)
  obtain ⟨r3, e3, s3⟩ := close_shows (message_lt hlim) s2 (show NameOk "Catch2TestRun".toList by decide)
  refine ⟨r3, ?_, by simpa [textNode, trim] using s3⟩
  simp only [report]
  rw [countArgs_eq h4, Outcome.bind_ok, makeString_eq h2, Outcome.bind_ok, e1, Outcome.bind_ok]
  unfold caseArgs
  rw [subSize_eq h1 (by omega), subSize_eq (by omega) (by omega), makeString_eq (by omega),
    Outcome.bind_ok, makeString_eq (by omega), Outcome.bind_ok, makeString_eq (by omega),
    Outcome.bind_ok, makeString_eq h2, Outcome.bind_ok]
  simp only [Outcome.pure_eq, Outcome.bind_ok]
  rw [e2, Outcome.bind_ok]
  exact e3

theorem shows_document {rep : Rep} {name : Text} {attrs : List (Text × Text)} {children : List Node}
    (h : Shows rep [] [.elem name attrs children] []) :
    rep.level = 0 ∧ document rep.out = some (.elem name attrs children) := by
  obtain ⟨h0, body, a, b, ha, hb, ho, hf⟩ := h
  refine ⟨by simpa using h0, ?_⟩
  unfold document
  rw [ho, if_pos (by rw [List.isPrefixOf_iff_prefix]; exact List.prefix_append _ _), List.drop_left, hf]
  have ht : trim (a ++ [] ++ b) = [] := by rw [trim_blanks ha hb]; rfl
  simp only [Option.bind_some, root, ht]

theorem listed_shows (hlim : LimitsOk lim) {rep : Rep} {stack : List Pending} {nodes : List Node}
    (hs : Shows rep stack nodes []) {id : Id} {loc : Location} (he : EventOk lim (.listed id loc)) :
    ∃ rep', report lim rep (.listed id loc) = .ok rep' ∧
      Shows rep' stack (nodes ++ [listedNode id loc]) [] := by
  obtain ⟨h1, h2, h3, h4⟩ := he
  have hcap := message_lt hlim
  have hnil : ∀ s : Text, s.flatMap entity = [] → s = [] := by
    intro s hs
    have := length_entities s
    rw [hs] at this
    exact List.length_eq_zero_iff.mp (by simpa using this)
  obtain ⟨r0, e0, s0⟩ := openTag_shows hcap hs (name := "TestCase".toList) (by decide) .nil (by simp)
  obtain ⟨r1, e1, s1⟩ := openClose_shows hcap s0 (name := "Name".toList) (by decide)
    (textReads_entities h1.1) (hnil _)
  obtain ⟨r2, e2, s2⟩ := openClose_shows hcap s1 (name := "ClassName".toList) (by decide)
    (textReads_entities h2.1) (hnil _)
  obtain ⟨r3, e3, s3⟩ := openClose_shows hcap s2 (name := "Tags".toList) (by decide)
    (textReads_entities h3.1) (hnil _)
  obtain ⟨r4, e4, s4⟩ := openTag_shows hcap s3 (name := "SourceInfo".toList) (by decide) .nil (by simp)
  obtain ⟨r5, e5, s5⟩ := openClose_shows hcap s4 (name := "File".toList) (by decide)
    (textReads_entities h4.1.1) (hnil _)
  obtain ⟨r6, e6, s6⟩ := openClose_shows hcap s5 (name := "Line".toList) (by decide)
    (textReads_decimal loc.line) (fun h => h)
  obtain ⟨r7, e7, s7⟩ := close_shows hcap s6 (show NameOk "SourceInfo".toList by decide)
  obtain ⟨r8, e8, s8⟩ := close_shows hcap s7 (show NameOk "TestCase".toList by decide)
  refine ⟨r8, ?_, ?_⟩
  · simp only [report, reportListed]
    rw [e0, Outcome.bind_ok, makeFullName_eq hlim.2.1 h1.2, Outcome.bind_ok, e1, Outcome.bind_ok,
      makeEscaped_eq hlim.1 h2.2, Outcome.bind_ok, e2, Outcome.bind_ok, makeEscaped_eq hlim.1 h3.2,
      Outcome.bind_ok, e3, Outcome.bind_ok, e4, Outcome.bind_ok, makeEscaped_eq hlim.1 h4.1.2,
      Outcome.bind_ok, e5, Outcome.bind_ok, makeString_eq h4.2, Outcome.bind_ok, e6, Outcome.bind_ok,
      e7, Outcome.bind_ok]
    exact e8
  · simpa [listedNode, show textNode [] = [] from rfl] using s8

end Verif.Report.Xml
