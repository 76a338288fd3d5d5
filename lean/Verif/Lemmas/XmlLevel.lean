import Verif.Lemmas.XmlText
/-!
# Lemmas about the XML reporter on any events: it never fails, and how the indentation changes
-/
namespace Verif.Report.Xml
open Verif Verif.Report Verif.Report.Spec
open Verif.Spec (escaped)

theorem escapeStages_total {cap : Nat} (hcap : cap + 3 < sizeT) (ps : List (Char × Text))
    (h : ∀ p ∈ ps, 2 ≤ p.2.length) : ∀ {v : Str} {s : Text}, v.Holds cap s →
    ∃ v' s' b, escapeStages (ps.map fun p => ([p.1], p.2)) v = .ok (v', b) ∧ v'.Holds cap s' := by
  induction ps with
  | nil => intro v s hv; exact ⟨v, s, true, rfl, hv⟩
  | cons p ps ih =>
    intro v s hv
    have hsz : v.size = s.length := hv.2.1
    obtain ⟨v1, s1, e1, hv1, _⟩ := Util.escapeAllOrTruncate_holds hcap (h p (by simp)) hv
      (c := p.1) (fuel := v.size + 1) (by omega)
    simp only [List.map_cons, escapeStages, escapeStage]
    rw [e1]
    simp only [Outcome.bind_ok]
    by_cases hf : (escaped p.1 p.2 s).length ≤ cap
    · obtain ⟨v2, s2, b, e2, hv2⟩ := ih (fun q hq => h q (by simp [hq])) hv1
      exact ⟨v2, s2, b, by simp only [hf, decide_true, if_true]; exact e2, hv2⟩
    · exact ⟨v1, s1, false, by simp [hf], hv1⟩

theorem makeEscaped_total {cap : Nat} (hcap : cap + 3 < 2 ^ 64) (s : Text) :
    ∃ t, makeEscaped cap s = .ok t ∧ t.length ≤ cap := by
  obtain ⟨v, e, hv⟩ := Util.appendOrTruncate_holds false (SV.holds_empty cap ' ') hcap [s]
  obtain ⟨v', s', b, e', hv'⟩ := escapeStages_total hcap [('&', "&amp;".toList), ('"', "&quot;".toList),
    ('\'', "&apos;".toList), ('<', "&lt;".toList), ('>', "&gt;".toList)] (by decide) hv
  rw [← stages_eq] at e'
  unfold makeEscaped
  rw [e, Outcome.bind_ok]
  dsimp only
  rw [e', Outcome.bind_ok]
  exact ⟨_, rfl, by rw [hv'.contents]; exact hv'.le⟩

theorem makeFullName_total {lim : Limits} (hcap : lim.name + 3 < 2 ^ 64) (id : Id) :
    ∃ t, makeFullName lim id = .ok t ∧ t.length ≤ lim.name := by
  obtain ⟨v, e, hv⟩ := Append.variadic_holds false (show lim.name < sizeT by rw [sizeT_eq]; omega)
    (if id.type.length ≠ 0 then [id.name, " <".toList, id.type, ">".toList] else [id.name])
    (SV.holds_empty lim.name ' ')
  obtain ⟨v', s', b, e', hv'⟩ := escapeStages_total hcap [('&', "&amp;".toList), ('"', "&quot;".toList),
    ('\'', "&apos;".toList), ('<', "&lt;".toList), ('>', "&gt;".toList)] (by decide) hv
  rw [← stages_eq] at e'
  unfold makeFullName Report.fullName
  rw [e, Outcome.bind_ok]
  dsimp only
  rw [Outcome.pure_eq, Outcome.bind_ok, e', Outcome.bind_ok]
  exact ⟨_, rfl, by rw [hv'.contents]; exact hv'.le⟩

theorem filtersLoop_total {cap : Nat} (hcap : cap + 3 < 2 ^ 64) (fs : List Text) :
    ∀ (b : Bool) {v : Str} {l : Text}, v.Holds cap l →
    ∃ v' l', filtersLoop fs b v = .ok v' ∧ v'.Holds cap l' := by
  induction fs with
  | nil => intro b v l hv; exact ⟨v, l, rfl, hv⟩
  | cons f fs ih =>
    intro b v l hv
    obtain ⟨v1, e, hv1⟩ := Util.appendOrTruncate_holds false hv hcap
      [if b then "\"".toList else " \"".toList, f, "\"".toList]
    obtain ⟨v2, l2, e2, hv2⟩ := ih false hv1
    exact ⟨v2, l2, by rw [filtersLoop, e, Outcome.bind_ok]; exact e2, hv2⟩

theorem makeFilters_total {lim : Limits} (hcap : lim.message + 3 < 2 ^ 64) (fs : List Text) :
    ∃ t, makeFilters lim fs = .ok t ∧ t.length ≤ lim.message := by
  obtain ⟨v, l, e, hv⟩ := filtersLoop_total hcap fs true (SV.holds_empty lim.message ' ')
  obtain ⟨v', s', b, e', hv'⟩ := escapeStages_total hcap [('&', "&amp;".toList), ('"', "&quot;".toList),
    ('\'', "&apos;".toList), ('<', "&lt;".toList), ('>', "&gt;".toList)] (by decide) hv
  rw [← stages_eq] at e'
  unfold makeFilters
  rw [e, Outcome.bind_ok, e', Outcome.bind_ok]
  exact ⟨_, rfl, by rw [hv'.contents]; exact hv'.le⟩

/-- An action that succeeds and changes the level by `f`. -/
def Lvl (f : Nat → Nat) (a : Rep → Outcome Rep) : Prop := ∀ rep, ∃ rep', a rep = .ok rep' ∧ rep'.level = f rep.level

theorem Lvl.bind {f g : Nat → Nat} {a b : Rep → Outcome Rep} (ha : Lvl f a) (hb : Lvl g b) :
    Lvl (fun n => g (f n)) (fun rep => a rep >>= b) := by
  intro rep
  obtain ⟨r1, e1, h1⟩ := ha rep
  obtain ⟨r2, e2, h2⟩ := hb r1
  exact ⟨r2, by simp only [e1, Outcome.bind_ok]; exact e2, by rw [h2, h1]⟩

theorem Lvl.ret : Lvl id (fun rep => Outcome.ok rep) := fun rep => ⟨rep, rfl, rfl⟩

theorem Lvl.value {α : Type} {f : Nat → Nat} {o : Outcome α} {v : α} {b : α → Rep → Outcome Rep} (h : o = .ok v)
    (hb : Lvl f (b v)) : Lvl f (fun rep => o >>= fun x => b x rep) := by
  intro rep; simp only [h, Outcome.bind_ok]; exact hb rep

variable {lim : Limits}

theorem say_lvl (h : lim.message < 2 ^ 64) (f : Rep → List Text) : Lvl id (fun rep => say lim (f rep) rep) := by
  intro rep; exact ⟨_, say_eq h (f rep) rep, rfl⟩

theorem sayArgs_lvl (h : lim.message < 2 ^ 64) (as : List (Text × Text)) : Lvl id (sayArgs lim as) := by
  induction as with
  | nil => exact Lvl.ret
  | cons a as ih =>
    intro rep
    unfold sayArgs
    exact (say_lvl h (fun _ => _)).bind ih rep

theorem openTag_lvl (h : lim.message < 2 ^ 64) (name : Text) (as : List (Text × Text)) :
    Lvl (fun n => (n + 1) % sizeT) (openTag lim name as) := by
  intro rep
  unfold openTag
  rw [say_eq h, Outcome.bind_ok]
  obtain ⟨r1, e1, h1⟩ := sayArgs_lvl h as { rep with out := rep.out ++ [indent rep, "<".toList, name].flatten }
  rw [e1, Outcome.bind_ok, say1_eq]
  exact ⟨_, rfl, by dsimp only; rw [h1]; rfl⟩

theorem node_lvl (h : lim.message < 2 ^ 64) (name : Text) (as : List (Text × Text)) :
    Lvl id (node lim name as) := by
  intro rep
  unfold node
  rw [say_eq h, Outcome.bind_ok]
  obtain ⟨r1, e1, h1⟩ := sayArgs_lvl h as { rep with out := rep.out ++ [indent rep, "<".toList, name].flatten }
  rw [e1, Outcome.bind_ok, say1_eq]
  exact ⟨_, rfl, by dsimp only; rw [h1]⟩

theorem close_lvl (h : lim.message < 2 ^ 64) (name : Text) :
    Lvl (fun n => subSize n 1) (close lim name) := by
  intro rep; exact ⟨_, say_eq h _ _, rfl⟩

theorem print_lvl (h : lim.message < 2 ^ 64) (s : Text) : Lvl id (print lim s) := say_lvl h _

theorem openClose_lvl (h : lim.message < 2 ^ 64) (name s : Text) : Lvl id (openClose lim name s) := by
  unfold openClose
  by_cases hs : s.isEmpty
  · simp only [hs, if_true]; exact node_lvl h name []
  · simp only [hs]; exact say_lvl h _

theorem Lvl.cast {f g : Nat → Nat} {a : Rep → Outcome Rep} (h : Lvl f a) (e : ∀ n, f n = g n) : Lvl g a := by
  have : f = g := funext e
  rwa [← this]

theorem captures_lvl (hlim : lim.message + 3 < 2 ^ 64) (cs : List Text) :
    ∀ rep, rep.level < sizeT → ∃ rep', reportCaptures lim cs rep = .ok rep' ∧ rep'.level = rep.level := by
  have h : lim.message < 2 ^ 64 := by omega
  induction cs with
  | nil => intro rep _; exact ⟨rep, rfl, rfl⟩
  | cons c cs ih =>
    intro rep hl
    unfold reportCaptures
    obtain ⟨t, ht, _⟩ := makeEscaped_total hlim c
    obtain ⟨r1, e1, h1⟩ := openTag_lvl h "Info".toList [] rep
    obtain ⟨r2, e2, h2⟩ := print_lvl h t r1
    obtain ⟨r3, e3, h3⟩ := close_lvl h "Info".toList r2
    have hl3 : r3.level = rep.level := by
      rw [h3, h2, h1]; show subSize ((rep.level + 1) % sizeT) 1 = _
      rw [subSize_level, Nat.mod_eq_of_lt hl]
    obtain ⟨r4, e4, h4⟩ := ih r3 (by omega)
    refine ⟨r4, ?_, by omega⟩
    rw [e1, Outcome.bind_ok, ht, Outcome.bind_ok, e2, Outcome.bind_ok, e3, Outcome.bind_ok, e4]

theorem message_lvl (hlim : lim.message + 3 < 2 ^ 64) {loc : Location} (hloc : loc.line < 2 ^ 64)
    (m : Text) (b : Bool) (rep : Rep) (hl : rep.level < sizeT) :
    ∃ rep', reportMessage lim loc m b rep = .ok rep' ∧ rep'.level = rep.level := by
  have h : lim.message < 2 ^ 64 := by omega
  unfold reportMessage
  obtain ⟨t, ht, _⟩ := makeEscaped_total hlim m
  obtain ⟨f, hf, _⟩ := makeEscaped_total hlim loc.file
  have hn : makeString loc.line = .ok (decimal loc.line) := makeNumber_eq hloc
  obtain ⟨r1, e1, h1⟩ := openTag_lvl h (if b then "Success".toList else "Failure".toList)
    [("filename".toList, f), ("line".toList, decimal loc.line)] rep
  obtain ⟨r2, e2, h2⟩ := print_lvl h t r1
  obtain ⟨r3, e3, h3⟩ := close_lvl h (if b then "Success".toList else "Failure".toList) r2
  refine ⟨r3, ?_, ?_⟩
  · dsimp only
    rw [hf, Outcome.bind_ok, hn, Outcome.bind_ok, e1, Outcome.bind_ok, ht, Outcome.bind_ok, e2,
      Outcome.bind_ok, e3]
  · rw [h3, h2, h1]; show subSize ((rep.level + 1) % sizeT) 1 = _
    rw [subSize_level, Nat.mod_eq_of_lt hl]

theorem expression_lvl (hlim : lim.message + 3 < 2 ^ 64) {loc : Location} (hloc : loc.line < 2 ^ 64)
    (type expected actual : Text) (b : Bool) (rep : Rep) (hl : rep.level < sizeT) :
    ∃ rep', reportExpression lim loc type expected actual b rep = .ok rep' ∧ rep'.level = rep.level := by
  have h : lim.message < 2 ^ 64 := by omega
  unfold reportExpression
  obtain ⟨f, hf, _⟩ := makeEscaped_total hlim loc.file
  obtain ⟨t1, ht1, _⟩ := makeEscaped_total hlim expected
  obtain ⟨t2, ht2, _⟩ := makeEscaped_total hlim (if !actual.isEmpty then actual else expected)
  have hn : makeString loc.line = .ok (decimal loc.line) := makeNumber_eq hloc
  obtain ⟨r1, e1, h1⟩ := openTag_lvl h "Expression".toList
    [("success".toList, if b then "true".toList else "false".toList), ("type".toList, type),
      ("filename".toList, f), ("line".toList, decimal loc.line)] rep
  obtain ⟨r2, e2, h2⟩ := openTag_lvl h "Original".toList [] r1
  obtain ⟨r3, e3, h3⟩ := print_lvl h t1 r2
  obtain ⟨r4, e4, h4⟩ := close_lvl h "Original".toList r3
  obtain ⟨r5, e5, h5⟩ := openTag_lvl h "Expanded".toList [] r4
  obtain ⟨r6, e6, h6⟩ := print_lvl h t2 r5
  obtain ⟨r7, e7, h7⟩ := close_lvl h "Expanded".toList r6
  obtain ⟨r8, e8, h8⟩ := close_lvl h "Expression".toList r7
  refine ⟨r8, ?_, ?_⟩
  · rw [hf, Outcome.bind_ok, hn, Outcome.bind_ok, e1, Outcome.bind_ok, e2, Outcome.bind_ok, ht1,
      Outcome.bind_ok, e3, Outcome.bind_ok, e4, Outcome.bind_ok, e5, Outcome.bind_ok, ht2,
      Outcome.bind_ok, e6, Outcome.bind_ok, e7, Outcome.bind_ok, e8]
  · have hs : ∀ n, n < sizeT → subSize ((n + 1) % sizeT) 1 = n := by
      intro n hn; rw [subSize_level, Nat.mod_eq_of_lt hn]
    have hm : (rep.level + 1) % sizeT < sizeT := Nat.mod_lt _ (by decide)
    have a1 : r4.level = r1.level := by
      rw [h4, h3, h2]; exact hs _ (by rw [h1]; exact hm)
    have a2 : r7.level = r4.level := by
      rw [h7, h6, h5]; exact hs _ (by rw [a1, h1]; exact hm)
    rw [h8, a2, a1, h1]; exact hs _ hl

theorem assertion_lvl (hlim : lim.message + 3 < 2 ^ 64) {loc : Location} (hloc : loc.line < 2 ^ 64)
    (caps : List Text) (data : Data) (b : Bool) (rep : Rep) (hl : rep.level < sizeT) :
    ∃ rep', reportAssertion lim caps loc data b rep = .ok rep' ∧ rep'.level = rep.level := by
  unfold reportAssertion
  obtain ⟨r1, e1, h1⟩ := captures_lvl hlim caps rep hl
  rw [e1, Outcome.bind_ok]
  cases data with
  | message m =>
    obtain ⟨r2, e2, h2⟩ := message_lvl hlim hloc m b r1 (by omega)
    exact ⟨r2, e2, by omega⟩
  | expression t e a =>
    obtain ⟨r2, e2, h2⟩ := expression_lvl hlim hloc t e a b r1 (by omega)
    exact ⟨r2, e2, by omega⟩

theorem subSize_lt (a b : Nat) : subSize a b < 2 ^ 64 := by
  unfold subSize; exact Nat.mod_lt _ (by decide)

theorem countArgs_total {c : Counts} (h2 : c.failed < 2 ^ 64) (h3 : c.allowed < 2 ^ 64) :
    ∃ as, countArgs c = .ok as := by
  unfold countArgs makeString
  rw [makeNumber_eq (subSize_lt _ _), Outcome.bind_ok, makeNumber_eq h2, Outcome.bind_ok,
    makeNumber_eq h3, Outcome.bind_ok]
  exact ⟨_, rfl⟩

theorem caseArgs_total {run fail allowedFail skip : Nat} (h1 : fail < 2 ^ 64) (h2 : allowedFail < 2 ^ 64)
    (h3 : skip < 2 ^ 64) : ∃ as, caseArgs run fail allowedFail skip = .ok as := by
  unfold caseArgs makeString
  rw [makeNumber_eq (subSize_lt _ _), Outcome.bind_ok, makeNumber_eq h1, Outcome.bind_ok,
    makeNumber_eq h2, Outcome.bind_ok, makeNumber_eq h3, Outcome.bind_ok]
  exact ⟨_, rfl⟩

theorem locationArgs_total (hlim : lim.message + 3 < 2 ^ 64) {loc : Location} (h : loc.line < 2 ^ 64) :
    ∃ as, locationArgs lim loc = .ok as := by
  obtain ⟨f, hf, _⟩ := makeEscaped_total hlim loc.file
  unfold locationArgs makeString
  rw [hf, Outcome.bind_ok, makeNumber_eq h, Outcome.bind_ok]
  exact ⟨_, rfl⟩

/-- The level after an event. -/
def after (e : Event) (n : Nat) : Nat :=
  if begins e then (n + 1) % sizeT else if ends e then subSize n 1 else n

theorem report_lvl (hm : lim.message + 3 < 2 ^ 64) (hn : lim.name + 3 < 2 ^ 64) (e : Event)
    (hs : SizesOk e) (rep : Rep) (hl : rep.level < sizeT) :
    ∃ rep', report lim rep e = .ok rep' ∧ rep'.level = after e rep.level := by
  have h : lim.message < 2 ^ 64 := by omega
  cases e with
  | runStarted name filters =>
    obtain ⟨t1, a1, _⟩ := makeEscaped_total hm name
    obtain ⟨t2, a2, _⟩ := makeFilters_total hm filters
    obtain ⟨r1, e1, h1⟩ := print_lvl h "<?xml version=\"1.0\" encoding=\"UTF-8\"?>\n".toList rep
    simp only [report]
    rw [e1, Outcome.bind_ok, a1, Outcome.bind_ok, a2, Outcome.bind_ok]
    obtain ⟨r2, e2, h2⟩ := openTag_lvl h "Catch2TestRun".toList [("name".toList, t1),
      ("rng-seed".toList, "0".toList), ("xml-format-version".toList, "3".toList),
      ("catch2-version".toList, lim.version ++ ".snitch".toList), ("filters".toList, t2)] r1
    exact ⟨r2, e2, by rw [h2, h1]; simp [after, begins]⟩
  | runEnded _ _ run fail allowedFail skip c =>
    obtain ⟨s1, s2, s3, s4, s5, s6, s7⟩ := hs
    obtain ⟨as, a1⟩ := countArgs_total s6 s7
    obtain ⟨bs, a2⟩ := caseArgs_total (run := run) s2 s3 s4
    have a3 : makeString skip = .ok (decimal skip) := makeNumber_eq s4
    simp only [report]
    obtain ⟨r1, e1, h1⟩ := node_lvl h "OverallResults".toList (as ++ [("skips".toList, decimal skip)]) rep
    obtain ⟨r2, e2, h2⟩ := node_lvl h "OverallResultsCases".toList bs r1
    obtain ⟨r3, e3, h3⟩ := close_lvl h "Catch2TestRun".toList r2
    rw [a1, Outcome.bind_ok, a3, Outcome.bind_ok, e1, Outcome.bind_ok, a2, Outcome.bind_ok, e2,
      Outcome.bind_ok]
    exact ⟨r3, e3, by rw [h3, h2, h1]; simp [after, begins, ends]⟩
  | caseStarted id loc =>
    obtain ⟨t1, a1, _⟩ := makeFullName_total hn id
    obtain ⟨t2, a2, _⟩ := makeEscaped_total hm id.tags
    obtain ⟨as, a3⟩ := locationArgs_total hm hs
    simp only [report]
    rw [a1, Outcome.bind_ok, a2, Outcome.bind_ok, a3, Outcome.bind_ok]
    obtain ⟨r2, e2, h2⟩ := openTag_lvl h "TestCase".toList
      ([("name".toList, t1), ("tags".toList, t2)] ++ as) rep
    exact ⟨r2, e2, by rw [h2]; simp [after, begins]⟩
  | caseEnded _ _ state d _ =>
    simp only [report]
    obtain ⟨r1, e1, h1⟩ := node_lvl h "OverallResult".toList
      ([("success".toList, if state = .failed then "false".toList else "true".toList),
        ("skips".toList, if state = .skipped then "1".toList else "0".toList)] ++ durationArgs lim d) rep
    obtain ⟨r3, e3, h3⟩ := close_lvl h "TestCase".toList r1
    rw [e1, Outcome.bind_ok]
    exact ⟨r3, e3, by rw [h3, h1]; simp [after, begins, ends]⟩
  | sectionStarted id loc =>
    obtain ⟨t2, a2, _⟩ := makeEscaped_total hm id.name
    obtain ⟨as, a3⟩ := locationArgs_total hm hs
    simp only [report]
    rw [a2, Outcome.bind_ok, a3, Outcome.bind_ok]
    obtain ⟨r2, e2, h2⟩ := openTag_lvl h "Section".toList ([("name".toList, t2)] ++ as) rep
    exact ⟨r2, e2, by rw [h2]; simp [after, begins]⟩
  | sectionEnded _ _ skipped c d =>
    obtain ⟨s5, s6, s7⟩ := hs
    obtain ⟨as, a1⟩ := countArgs_total s6 s7
    simp only [report]
    obtain ⟨r1, e1, h1⟩ := node_lvl h "OverallResults".toList (as ++
      [("skipped".toList, if skipped then "true".toList else "false".toList)] ++ durationArgs lim d) rep
    obtain ⟨r3, e3, h3⟩ := close_lvl h "Section".toList r1
    rw [a1, Outcome.bind_ok, e1, Outcome.bind_ok]
    exact ⟨r3, e3, by rw [h3, h1]; simp [after, begins, ends]⟩
  | assertionFailed _ caps loc data _ _ => 
    obtain ⟨r, e, h⟩ := assertion_lvl hm hs caps data false rep hl
    exact ⟨r, e, by rw [h]; simp [after, begins, ends]⟩
  | assertionSucceeded _ caps loc data => 
    obtain ⟨r, e, h⟩ := assertion_lvl hm hs caps data true rep hl
    exact ⟨r, e, by rw [h]; simp [after, begins, ends]⟩
  | caseSkipped cid caps loc m =>
    obtain ⟨as, a3⟩ := locationArgs_total hm hs
    simp only [report]
    obtain ⟨r1, e1, h1⟩ := openTag_lvl h "Skip".toList as rep
    obtain ⟨r2, e2, h2⟩ := print_lvl h m r1
    obtain ⟨r3, e3, h3⟩ := close_lvl h "Skip".toList r2
    rw [a3, Outcome.bind_ok, e1, Outcome.bind_ok, e2, Outcome.bind_ok]
    refine ⟨r3, e3, ?_⟩
    have hx : after (.caseSkipped cid caps loc m) rep.level = rep.level := by simp [after, begins, ends]
    rw [hx, h3, h2, h1]; show subSize ((rep.level + 1) % sizeT) 1 = rep.level
    rw [subSize_level, Nat.mod_eq_of_lt hl]
  | listStarted _ _ =>
    simp only [report]
    obtain ⟨r1, e1, h1⟩ := print_lvl h "<?xml version=\"1.0\" encoding=\"UTF-8\"?>".toList rep
    rw [e1, Outcome.bind_ok]
    obtain ⟨r2, e2, h2⟩ := openTag_lvl h "MatchingTests".toList [] r1
    exact ⟨r2, e2, by rw [h2, h1]; simp [after, begins]⟩
  | listEnded _ _ =>
    obtain ⟨r3, e3, h3⟩ := close_lvl h "MatchingTests".toList rep
    exact ⟨r3, e3, by rw [h3]; simp [after, begins, ends]⟩
  | listed id loc =>
    obtain ⟨t1, a1, _⟩ := makeFullName_total hn id
    obtain ⟨t2, a2, _⟩ := makeEscaped_total hm id.fixture
    obtain ⟨t3, a3, _⟩ := makeEscaped_total hm id.tags
    obtain ⟨t4, a4, _⟩ := makeEscaped_total hm loc.file
    have a5 : makeString loc.line = .ok (decimal loc.line) := makeNumber_eq hs
    simp only [report, reportListed]
    obtain ⟨r0, e0, h0⟩ := openTag_lvl h "TestCase".toList [] rep
    obtain ⟨r1, e1, h1⟩ := openClose_lvl h "Name".toList t1 r0
    obtain ⟨r2, e2, h2⟩ := openClose_lvl h "ClassName".toList t2 r1
    obtain ⟨r3, e3, h3⟩ := openClose_lvl h "Tags".toList t3 r2
    obtain ⟨r4, e4, h4⟩ := openTag_lvl h "SourceInfo".toList [] r3
    obtain ⟨r5, e5, h5⟩ := openClose_lvl h "File".toList t4 r4
    obtain ⟨r6, e6, h6⟩ := openClose_lvl h "Line".toList (decimal loc.line) r5
    obtain ⟨r7, e7, h7⟩ := close_lvl h "SourceInfo".toList r6
    obtain ⟨r8, e8, h8⟩ := close_lvl h "TestCase".toList r7
    rw [e0, Outcome.bind_ok, a1, Outcome.bind_ok, e1, Outcome.bind_ok, a2, Outcome.bind_ok, e2,
      Outcome.bind_ok, a3, Outcome.bind_ok, e3, Outcome.bind_ok, e4, Outcome.bind_ok, a4, Outcome.bind_ok,
      e5, Outcome.bind_ok, a5, Outcome.bind_ok, e6, Outcome.bind_ok, e7, Outcome.bind_ok]
    refine ⟨r8, e8, ?_⟩
    have hs : ∀ n, n < sizeT → subSize ((n + 1) % sizeT) 1 = n := by
      intro n hn; rw [subSize_level, Nat.mod_eq_of_lt hn]
    have hmod : (rep.level + 1) % sizeT < sizeT := Nat.mod_lt _ (by decide)
    have b1 : r3.level = (rep.level + 1) % sizeT := by rw [h3, h2, h1, h0]; rfl
    have b2 : r7.level = r3.level := by
      rw [h7, h6, h5, h4]; exact hs _ (by rw [b1]; exact hmod)
    have hx : after (.listed id loc) rep.level = rep.level := by simp [after, begins, ends]
    rw [hx, h8, b2, b1]; exact hs _ hl

theorem after_lt (e : Event) {n : Nat} (h : n < sizeT) : after e n < sizeT := by
  unfold after
  split
  · exact Nat.mod_lt _ (by decide)
  · split
    · exact subSize_lt _ _
    · exact h

theorem reportAll_lvl (hm : lim.message + 3 < 2 ^ 64) (hn : lim.name + 3 < 2 ^ 64) (es : List Event) :
    ∀ rep, rep.level < sizeT → (∀ e ∈ es, SizesOk e) →
    ∃ rep', reportAll lim es rep = .ok rep' ∧ rep'.level < sizeT ∧
      (rep'.level + es.countP ends) % sizeT = (rep.level + es.countP begins) % sizeT := by
  induction es with
  | nil => intro rep hl _; exact ⟨rep, rfl, hl, rfl⟩
  | cons e es ih =>
    intro rep hl hs
    obtain ⟨r1, e1, h1⟩ := report_lvl hm hn e (hs e (by simp)) rep hl
    obtain ⟨r2, e2, h2, h3⟩ := ih r1 (by rw [h1]; exact after_lt e hl) (fun x hx => hs x (by simp [hx]))
    refine ⟨r2, by simp only [reportAll]; rw [e1, Outcome.bind_ok]; exact e2, h2, ?_⟩
    rw [List.countP_cons, List.countP_cons]
    have : (begins e = true ∧ ends e = false ∧ r1.level = (rep.level + 1) % sizeT) ∨
        (begins e = false ∧ ends e = true ∧ r1.level = subSize rep.level 1) ∨
        (begins e = false ∧ ends e = false ∧ r1.level = rep.level) := by
      rw [h1]
      cases e <;> simp [after, begins, ends]
    have hsz := sizeT_eq
    simp only [hsz] at h3 this ⊢
    rcases this with ⟨a, b, c⟩ | ⟨a, b, c⟩ | ⟨a, b, c⟩ <;> simp only [a, b]
    · rw [c] at h3; simp only [Bool.false_eq_true, if_true, if_false]; omega
    · have : subSize rep.level 1 = (rep.level + (2 ^ 64 - 1)) % 2 ^ 64 := rfl
      rw [c, this] at h3; simp only [Bool.false_eq_true, if_true, if_false]; omega
    · rw [c] at h3; simp only [Bool.false_eq_true, if_false]; omega

end Verif.Report.Xml
