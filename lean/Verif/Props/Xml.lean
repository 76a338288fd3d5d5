import Verif.Lemmas.Xml
import Verif.Lemmas.XmlLevel
import Verif.Lemmas.Told
import Verif.Props.Registry
/-!
# C40, C41: the XML report

What is read from the report is said with an XML reader (Verif/Spec/Xml.lean) that knows nothing about
the reporter.
-/
namespace Verif.Props
open Verif Verif.Report Verif.Report.Spec
open Verif.Report.Xml (reportAll makeEscaped)

/-! ## C41 -/

theorem decode_entity (c : Char) (r : Text) : decode (entity c ++ r) = (decode r).map (c :: ·) := by
  unfold entity
  split
  · rename_i h; subst h; rfl
  split
  · rename_i h; subst h; rfl
  split
  · rename_i h; subst h; rfl
  split
  · rename_i h; subst h; rfl
  split
  · rename_i h; subst h; rfl
  rename_i h1 h2 h3 h4 h5
  show decode (c :: r) = _
  rw [decode.eq_def (c :: r)]
  split <;> simp_all

theorem decode_entities (s : Text) : decode (s.flatMap entity) = some s := by
  induction s with
  | nil => rfl
  | cons c s ih => rw [List.flatMap_cons, decode_entity, ih]; rfl

/-- **C41**. If the text, with its special characters written as entities, fits, then what is printed has
no special character other than at the start of an entity, and decoding it gives back the text. -/
theorem C41_decodes {cap : Nat} (hcap : cap + 3 < 2 ^ 64) {s : Text}
    (h : (s.flatMap entity).length ≤ cap) : ∃ t, makeEscaped cap s = .ok t ∧ decode t = some s :=
  ⟨_, Xml.makeEscaped_eq hcap h, decode_entities s⟩

/-- **C41**. Distinct texts stay distinct. -/
theorem C41_injective {cap : Nat} (hcap : cap + 3 < 2 ^ 64) {s t : Text}
    (hs : (s.flatMap entity).length ≤ cap) (ht : (t.flatMap entity).length ≤ cap)
    (h : makeEscaped cap s = makeEscaped cap t) : s = t := by
  obtain ⟨u, e1, d1⟩ := C41_decodes hcap hs
  obtain ⟨v, e2, d2⟩ := C41_decodes hcap ht
  rw [e1, e2] at h
  cases h
  rw [d1] at d2
  exact Option.some.inj d2

/-- **C41**, **C54**. Nothing goes wrong with longer texts as long as they have no special characters: they
are cut with the usual mark. -/
theorem C41_cut {cap : Nat} (hcap : cap + 3 < 2 ^ 64) {s : Text}
    (h : ∀ c ∈ s, c ∉ ['&', '"', '\'', '<', '>']) : makeEscaped cap s = .ok (Verif.Spec.cut cap s) := by
  have hfix : ∀ t : Text, (∀ c ∈ t, c ∉ ['&', '"', '\'', '<', '>']) → t.flatMap entity = t := by
    intro t ht
    induction t with
    | nil => rfl
    | cons c t ih =>
      rw [List.flatMap_cons, ih fun x hx => ht x (by simp [hx])]
      have := ht c (by simp)
      simp only [List.mem_cons, List.not_mem_nil, not_or] at this
      simp [entity, this]
  obtain ⟨v, e, hv⟩ := Util.appendOrTruncate_holds false (SV.holds_empty cap ' ') hcap [s]
  have hc : (if ([] : Text).length + [s].flatten.length ≤ cap then [] ++ [s].flatten
      else ([] ++ [s].flatten).take (cap - 3) ++ Verif.Spec.marker cap) = Verif.Spec.cut cap s := by
    simp [Verif.Spec.cut]
  rw [hc] at hv
  have hclean : ∀ c ∈ Verif.Spec.cut cap s, c ∉ ['&', '"', '\'', '<', '>'] := by
    intro c hc
    unfold Verif.Spec.cut at hc
    split at hc
    · exact h c hc
    · rcases List.mem_append.mp hc with hc | hc
      · exact h c (List.mem_of_mem_take hc)
      · simp only [Verif.Spec.marker, List.mem_replicate] at hc
        rw [hc.2]; decide
  obtain ⟨v', e', hv'⟩ := Xml.escapeStages_entity hcap hv (by rw [hfix _ hclean]; exact hv.le)
  unfold makeEscaped
  rw [e, Outcome.bind_ok]
  dsimp only
  rw [e', Outcome.bind_ok]
  show Outcome.ok _ = _
  rw [hv'.contents, hfix _ hclean]

example : makeEscaped 40 "a<b> \"&\" c'".toList =
    .ok "a&lt;b&gt; &quot;&amp;&quot; c&apos;".toList := by decide
example : decode "a&lt;b&gt; &quot;&amp;&quot; c&apos;".toList = some "a<b> \"&\" c'".toList := by decide
example : decode "a<b".toList = none ∧ decode "a&b".toList = none ∧ decode "'".toList = none := by decide
example : ("a<b> \"&\" c'".toList.flatMap entity).length ≤ 40 := by decide

/-- **C41** does not hold for texts that do not fit: the escaping stops at the first entity that has to be
cut, and later kinds of special characters are printed as they are. (Capacity 9; the same happens with the
actual capacity of 1024 and longer texts.) -/
theorem C41_not_when_cut : makeEscaped 9 "<&&".toList = .ok "<&amp;...".toList ∧
    decode "<&amp;...".toList = none ∧
    makeEscaped 7 "&<".toList = .ok "&amp...".toList ∧ decode "&amp...".toList = none := by
  decide

/-! ## C40 -/

/-- **C40**. For any events of a run in which the events of test cases and of sections are properly
nested, with texts the reporter can handle: the report is an XML document with one root element, which
has one element per test case (with nested elements for the sections, assertions, captures and skips in
it) and the totals, with the values from the events as attributes and texts, and the indentation returns
to zero. -/
theorem C40_document {lim : Report.Limits} (hlim : LimitsOk lim) {es : List Event} {ns : List Node}
    (h : TellsCases lim es ns) {name name' : Text} {filters filters' : List Text}
    {run fail allowedFail skip : Nat} {c : Counts}
    (hok : ∀ e ∈ Event.runStarted name filters :: es ++
      [.runEnded name' filters' run fail allowedFail skip c], EventOk lim e) :
    ∃ rep, reportAll lim (Event.runStarted name filters :: es ++
        [.runEnded name' filters' run fail allowedFail skip c]) {} = .ok rep ∧ rep.level = 0 ∧
      document rep.out = some (runNode lim name filters ns run fail allowedFail skip c) := by
  obtain ⟨r1, e1, h1⟩ := Xml.runStart_shows hlim (hok (.runStarted name filters) (by simp))
  obtain ⟨r2, e2, h2⟩ := Xml.tellsCases_shows hlim h h1 (fun e he => hok e (by simp [he]))
  rw [List.nil_append] at h2
  obtain ⟨r3, e3, h3⟩ := Xml.runEnd_shows hlim h2
    (hok (.runEnded name' filters' run fail allowedFail skip c) (by simp))
  refine ⟨r3, ?_, Xml.shows_document h3⟩
  rw [List.cons_append]
  rw [Xml.reportAll_cons e1, Xml.reportAll_trans e2]
  simp only [reportAll]
  rw [e3]; rfl

/-- The listing of any tests is an XML document with one element per listed test, in order. -/
theorem C40_listing {lim : Report.Limits} (hlim : LimitsOk lim) (tests : List (Id × Location))
    (name name' : Text) (filters filters' : List Text)
    (hok : ∀ t ∈ tests, EventOk lim (.listed t.1 t.2)) :
    ∃ rep, reportAll lim (Event.listStarted name filters :: tests.map (fun t => .listed t.1 t.2) ++
        [.listEnded name' filters']) {} = .ok rep ∧ rep.level = 0 ∧
      document rep.out = some (.elem "MatchingTests".toList []
        (tests.map fun t => listedNode t.1 t.2)) := by
  have hcap : lim.message < 2 ^ 64 := by have := hlim.1; omega
  obtain ⟨r0, e0, h0⟩ := Xml.start_shows hcap (lim := lim) [] rfl
  rw [List.append_nil] at e0
  obtain ⟨r1, e1, h1⟩ := Xml.openTag_shows hcap h0 (name := "MatchingTests".toList) (by decide) .nil
    (by simp)
  have key : ∀ (ts : List (Id × Location)) {rep : Rep} {stack : List Pending} {nodes : List Node},
      Xml.Shows rep stack nodes [] → (∀ t ∈ ts, EventOk lim (.listed t.1 t.2)) →
      ∃ rep', reportAll lim (ts.map (fun t => .listed t.1 t.2)) rep = .ok rep' ∧
        Xml.Shows rep' stack (nodes ++ ts.map fun t => listedNode t.1 t.2) [] := by
    intro ts
    induction ts with
    | nil => intro rep stack nodes hs _; exact ⟨rep, rfl, by simpa using hs⟩
    | cons t ts ih =>
      intro rep stack nodes hs ht
      obtain ⟨r1, e1, h1⟩ := Xml.listed_shows hlim hs (ht t (by simp))
      obtain ⟨r2, e2, h2⟩ := ih h1 (fun x hx => ht x (by simp [hx]))
      exact ⟨r2, by rw [List.map_cons, Xml.reportAll_cons e1]; exact e2, by simpa using h2⟩
  obtain ⟨r2, e2, h2⟩ := key tests h1 hok
  obtain ⟨r3, e3, h3⟩ := Xml.close_shows hcap h2 (show Xml.NameOk "MatchingTests".toList by decide)
  refine ⟨r3, ?_, ?_⟩
  · rw [List.cons_append]
    have e4 : Xml.report lim {} (.listStarted name filters) = .ok r1 := by
      simp only [Xml.report]
      have : Xml.print lim "<?xml version=\"1.0\" encoding=\"UTF-8\"?>".toList {} = .ok r0 := e0
      rw [this, Outcome.bind_ok]; exact e1
    rw [Xml.reportAll_cons e4, Xml.reportAll_trans e2]
    simp only [reportAll, Xml.report]; rw [e3]; rfl
  · exact Xml.shows_document (by simpa [show textNode [] = [] from rfl] using h3)

/-- **C40**. The report of an actual run of the registry, whatever verbosity was asked for: if the section
events of every test are properly nested, the report is an XML document with one root element whose
children are one element per selected test, in registration order and carrying its full name and whether it was
a success, followed by the totals of the run. -/
theorem C40_run [Run.MessageLimit] {rl : Reg.Limits} {v fuel : Nat} {pred : Filter.TestId → Outcome Bool}
    {cases cases' : List Reg.Case} {log : List Run.Event} {success : Bool}
    (h : Reg.runSelected rl fuel pred cases = some (.ok (cases', log, success)))
    (hinit : rl.cfg.verbosity = Xml.initVerbosity v)
    (hn : ∀ c ∈ cases, pred c.test.id = .ok true → ∀ r, Run.run rl.cfg fuel c.test = some (.ok r) →
      Nested (Run.Spec.sectionMarks r.log))
    {lim : Report.Limits} (hlim : LimitsOk lim) {es : List Event} (ht : ToldAll log es)
    (hok : ∀ e ∈ es, EventOk lim e) :
    ∃ rep tests name filters run fail allowedFail skip a f al,
      reportAll lim es {} = .ok rep ∧ rep.level = 0 ∧
      document rep.out = some (runNode lim name filters tests run fail allowedFail skip ⟨a, f, al⟩) ∧
      tests.map testName = (cases.filter fun c => decide (pred c.test.id = .ok true)).map
        (fun c => some (attr (fullName ⟨c.test.id.name, c.test.id.tags, c.test.id.type, []⟩))) ∧
      (∃ rs : List Run.TS, ((cases.filter fun c => decide (pred c.test.id = .ok true)).map fun c => Run.run rl.cfg fuel c.test) =
          rs.map (fun r => some (.ok r)) ∧
        tests.map testSuccess = rs.map fun r => some (yesNo (decide (r.state ≠ .failed)))) ∧
      log.getLast? = some (.runEnded run fail allowedFail skip a f al success) ∧
      es.head? = some (.runStarted name filters) := by
  have hv : 2 ≤ rl.cfg.verbosity := by rw [hinit]; unfold Xml.initVerbosity; split <;> omega
  obtain ⟨rs, h1, h2, -⟩ := C29_run h
  rw [h2 (by omega)] at ht ⊢
  obtain ⟨e1, e2, rfl, t1, t2⟩ := ht.append_inv
  rw [List.singleton_append] at t1
  obtain ⟨e3, e4, rfl, t3, t4⟩ := t1.cons_inv
  obtain ⟨e5, e6, rfl, t5, t6⟩ := t2.cons_inv
  cases t6
  cases t3
  cases t5
  rename_i name filters name' filters'
  obtain ⟨ns, k1, k2, k3⟩ := tells_cases lim (cfg := rl.cfg) (fuel := fuel) (by omega)
    ((cases.filter fun c => decide (pred c.test.id = .ok true)).map (·.test)) (rs := rs)
    (by rw [List.map_map]; exact h1) (by
      intro r hr
      have : some (.ok r) ∈ (cases.filter fun c => decide (pred c.test.id = .ok true)).map
          fun c => Run.run rl.cfg fuel c.test := by
        rw [h1]; exact List.mem_map.mpr ⟨r, hr, rfl⟩
      obtain ⟨c, hc, hc'⟩ := List.mem_map.mp this
      obtain ⟨hc1, hc2⟩ := List.mem_filter.mp hc
      exact hn c hc1 (by simpa using hc2) r hc') t4
  obtain ⟨rep, d1, d2, d3⟩ := C40_document hlim k1 (name := name) (name' := name')
    (filters := filters) (filters' := filters') (run := rs.length) (fail := Reg.Spec.count .failed rs)
    (allowedFail := Reg.Spec.count .allowedFail rs) (skip := Reg.Spec.count .skipped rs)
    (c := ⟨Reg.Spec.total (·.asserts) rs, Reg.Spec.total (·.failures) rs, Reg.Spec.total (·.allowed) rs⟩)
    (by
      intro e he
      apply hok
      simpa using he)
  refine ⟨rep, ns, name, filters, _, _, _, _, _, _, _, ?_, d2, d3, ?_, ⟨rs, h1, k3⟩, ?_, ?_⟩
  · simpa using d1
  · rw [k2, List.map_map]; rfl
  · exact List.getLast?_concat
  · simp

/-- **C40** for tests that nothing interrupts: there the section events are properly nested. -/
theorem C40_run_calm [Run.MessageLimit] {rl : Reg.Limits} {v fuel : Nat} {pred : Filter.TestId → Outcome Bool}
    {cases cases' : List Reg.Case} {log : List Run.Event} {success : Bool}
    (h : Reg.runSelected rl fuel pred cases = some (.ok (cases', log, success)))
    (hinit : rl.cfg.verbosity = Xml.initVerbosity v)
    (hc : ∀ c ∈ cases, pred c.test.id = .ok true → ∃ tags, Props.Fits rl.cfg c.test tags ∧
      Run.Spec.Always Run.Spec.Calm c.test.body ∧ Run.Spec.passCount c.test.body.first ≤ fuel)
    {lim : Report.Limits} (hlim : LimitsOk lim) {es : List Event} (ht : ToldAll log es)
    (hok : ∀ e ∈ es, EventOk lim e) :
    ∃ rep node, reportAll lim es {} = .ok rep ∧ rep.level = 0 ∧ document rep.out = some node := by
  have hv : 2 ≤ rl.cfg.verbosity := by rw [hinit]; unfold Xml.initVerbosity; split <;> omega
  obtain ⟨rep, _, _, _, _, _, _, _, _, _, _, e, hl, hd, -⟩ := C40_run h hinit (by
    intro c hc1 hc2 r hr
    obtain ⟨tags, hf, hcalm, hfuel⟩ := hc c hc1 hc2
    obtain ⟨s, e, hm⟩ := C21_section_events hf hcalm hfuel
    rw [hr] at e
    cases e
    rw [hm, if_pos hv]
    exact nested_brackets _) hlim ht hok
  exact ⟨rep, _, e, hl, hd⟩

/-- **C40** for tests that end early at a statement: there, too, the section events are properly nested
(the sections that are open are closed). -/
theorem C40_nested_abort [Run.MessageLimit] {cfg : Run.Cfg} {t : Run.TestCase} {tags : List Filter.ParsedTag}
    (hf : Props.Fits cfg t tags) (ht : Run.Spec.Always Run.Spec.Tidy t.body) {fs : List Run.Spec.Frame} {m : Run.Stmt}
    {k : Run.Prog} (hb : t.body.first = Run.Spec.plug fs (.stmt m k)) (hm : Run.Spec.endsTest m = true)
    {fuel : Nat} (hfuel : 1 ≤ fuel) :
    ∃ s, Run.run cfg fuel t = some (.ok s) ∧ Nested (Run.Spec.sectionMarks s.log) := by
  obtain ⟨s, e, _, hs⟩ := C22_abort_at hf ht hb hm hfuel
  refine ⟨s, e, ?_⟩
  rw [hs]
  split
  · exact nested_mirror _
  · exact .nil

/-- **C40**. Whatever the events and the texts, the reporter does not fail, and the level of indentation
counts what has begun and not ended: it is zero after any events with as many ends as beginnings. -/
theorem C40_level {lim : Report.Limits} (hm : lim.message + 3 < 2 ^ 64) (hn : lim.name + 3 < 2 ^ 64)
    (es : List Event) (hs : ∀ e ∈ es, SizesOk e) :
    ∃ rep, reportAll lim es {} = .ok rep ∧
      (es.countP begins = es.countP ends → rep.level = 0) ∧
      (es.countP ends ≤ es.countP begins → es.countP begins < 2 ^ 64 →
        rep.level = es.countP begins - es.countP ends) := by
  obtain ⟨rep, e, hl, h⟩ := Xml.reportAll_lvl hm hn es {} (by decide) hs
  have hsz := sizeT_eq
  rw [hsz] at hl
  simp only [hsz, Nat.zero_add] at h
  refine ⟨rep, e, ?_, ?_⟩
  · intro heq
    rw [heq] at h
    omega
  · intro h1 h2
    omega

/-! ### Examples -/

/-- The default limits (CMakeLists.txt 9, 10, VERSION). -/
def xmlLimits : Report.Limits := { message := 1024, name := 1024, version := "1.3.2".toList, timings := true }

example : LimitsOk xmlLimits := by unfold LimitsOk xmlLimits; decide

/-- A run of one test with a section in which an assertion fails. -/
def xmlEvents : List Event :=
  [.caseStarted ⟨"a < b".toList, "[x]".toList, "int".toList, []⟩ ⟨"f.cpp".toList, 10⟩,
    .sectionStarted ⟨"\"s\"".toList, []⟩ ⟨"f.cpp".toList, 11⟩,
    .assertionFailed ⟨"a < b".toList, "[x]".toList, "int".toList, []⟩ ["i := 1".toList] ⟨"f.cpp".toList, 12⟩
      (.expression "CHECK".toList "a && b".toList "1 && 0".toList) false false,
    .sectionEnded ⟨"\"s\"".toList, []⟩ ⟨"f.cpp".toList, 11⟩ false ⟨1, 1, 0⟩ "1e-3".toList,
    .caseSkipped ⟨"a < b".toList, "[x]".toList, "int".toList, []⟩ [] ⟨"f.cpp".toList, 14⟩ "why not".toList,
    .caseEnded ⟨"a < b".toList, "[x]".toList, "int".toList, []⟩ ⟨"f.cpp".toList, 10⟩ .failed "2e-3".toList 2000]

def xmlStart : Event := .runStarted "prog".toList ["a*".toList, "~b".toList]
def xmlEnd : Event := .runEnded "prog".toList [] 1 1 0 0 ⟨1, 1, 0⟩

/-- What it is told as. -/
def xmlNode : Node :=
  .elem "TestCase".toList [("name".toList, "a < b <int>".toList), ("tags".toList, "[x]".toList),
      ("filename".toList, "f.cpp".toList), ("line".toList, "10".toList)]
    [.elem "Section".toList [("name".toList, "\"s\"".toList), ("filename".toList, "f.cpp".toList),
        ("line".toList, "11".toList)]
      [.elem "Info".toList [] [.text "i := 1".toList],
        .elem "Expression".toList [("success".toList, "false".toList), ("type".toList, "CHECK".toList),
            ("filename".toList, "f.cpp".toList), ("line".toList, "12".toList)]
          [.elem "Original".toList [] [.text "a && b".toList],
            .elem "Expanded".toList [] [.text "1 && 0".toList]],
        .elem "OverallResults".toList [("successes".toList, "0".toList), ("failures".toList, "1".toList),
          ("expectedFailures".toList, "0".toList), ("skipped".toList, "false".toList),
          ("durationInSeconds".toList, "1e-3".toList)] []],
      .elem "Skip".toList [("filename".toList, "f.cpp".toList), ("line".toList, "14".toList)]
        [.text "why not".toList],
      .elem "OverallResult".toList [("success".toList, "false".toList), ("skips".toList, "0".toList),
        ("durationInSeconds".toList, "2e-3".toList)] []]

theorem xmlEvents_told : TellsCases xmlLimits xmlEvents [xmlNode] := by
  have h := TellsCases.case (lim := xmlLimits)
    (id := ⟨"a < b".toList, "[x]".toList, "int".toList, []⟩) (loc := ⟨"f.cpp".toList, 10⟩)
    (id' := ⟨"a < b".toList, "[x]".toList, "int".toList, []⟩) (loc' := ⟨"f.cpp".toList, 10⟩)
    (state := .failed) (d := "2e-3".toList) (us := 2000)
    (Tells.section (id := ⟨"\"s\"".toList, []⟩) (loc := ⟨"f.cpp".toList, 11⟩)
      (id' := ⟨"\"s\"".toList, []⟩) (loc' := ⟨"f.cpp".toList, 11⟩) (skipped := false)
      (counts := ⟨1, 1, 0⟩) (d := "1e-3".toList)
      (.leaf (e := .assertionFailed ⟨"a < b".toList, "[x]".toList, "int".toList, []⟩ ["i := 1".toList]
        ⟨"f.cpp".toList, 12⟩ (.expression "CHECK".toList "a && b".toList "1 && 0".toList) false false)
        rfl .nil)
      (.leaf (e := .caseSkipped ⟨"a < b".toList, "[x]".toList, "int".toList, []⟩ []
        ⟨"f.cpp".toList, 14⟩ "why not".toList) rfl .nil))
    .nil
  exact h

theorem xmlEvents_ok : ∀ e ∈ xmlStart :: xmlEvents ++ [xmlEnd], EventOk xmlLimits e := by
  simp only [xmlStart, xmlEvents, xmlEnd, List.cons_append, List.nil_append, List.forall_mem_cons,
    EventOk, LocationOk, DataOk, CountsOk, xmlLimits]
  refine ⟨by decide, ?_, ?_, ?_, ?_, ?_, ?_, ?_, by simp⟩
  all_goals decide

example : ∃ rep, reportAll xmlLimits (xmlStart :: xmlEvents ++ [xmlEnd]) {} = .ok rep ∧ rep.level = 0 ∧
    document rep.out = some (runNode xmlLimits "prog".toList ["a*".toList, "~b".toList] [xmlNode]
      1 1 0 0 ⟨1, 1, 0⟩) :=
  C40_document (by unfold LimitsOk xmlLimits; decide) xmlEvents_told xmlEvents_ok

/-- A registered test with a section with two leaf sections. -/
def xmlCases : List Reg.Case :=
  [{ test := mkTest "t" "[x]" (.sec 1 2 (.sec 2 3 .done (.sec 3 4 .done .done)) .done) }]

/-- The events of its run. -/
def xmlLog : List Run.Event :=
  [.runStarted, .caseStarted ⟨"t".toList, "[x]".toList, []⟩, .sectionStarted 1, .sectionStarted 2,
    .sectionEnded 2 false 0 0 0, .sectionStarted 3, .sectionEnded 3 false 0 0 0,
    .sectionEnded 1 false 0 0 0, .caseEnded ⟨"t".toList, "[x]".toList, []⟩ 1 0 0 .success,
    .runEnded 1 0 0 0 1 0 0 true]

/-- The registry after the run. -/
def xmlCases' : List Reg.Case := xmlCases.map fun c => { c with state := .success }

theorem xmlRun [Run.MessageLimit] : Reg.runSelected (defaultLimits 2) 5 (Filter.selectDefault 256) xmlCases =
    some (.ok (xmlCases', xmlLog, true)) := by rfl

/-- What the reporter is told about it. -/
def xmlTold : List Event :=
  [.runStarted "prog".toList [], .caseStarted ⟨"t".toList, "[x]".toList, [], []⟩ ⟨"f.cpp".toList, 1⟩,
    .sectionStarted ⟨"s".toList, []⟩ ⟨"f.cpp".toList, 2⟩,
    .sectionStarted ⟨"a".toList, []⟩ ⟨"f.cpp".toList, 3⟩,
    .sectionEnded ⟨"a".toList, []⟩ ⟨"f.cpp".toList, 3⟩ false ⟨0, 0, 0⟩ "0e+0".toList,
    .sectionStarted ⟨"b".toList, []⟩ ⟨"f.cpp".toList, 4⟩,
    .sectionEnded ⟨"b".toList, []⟩ ⟨"f.cpp".toList, 4⟩ false ⟨0, 0, 0⟩ "0e+0".toList,
    .sectionEnded ⟨"s".toList, []⟩ ⟨"f.cpp".toList, 2⟩ false ⟨0, 0, 0⟩ "0e+0".toList,
    .caseEnded ⟨"t".toList, "[x]".toList, [], []⟩ ⟨"f.cpp".toList, 1⟩ .success "0e+0".toList 0,
    .runEnded "prog".toList [] 1 0 0 0 ⟨1, 0, 0⟩]

theorem xmlTold_told : ToldAll xmlLog xmlTold :=
  .cons (.runStarted ..) (.cons (.caseStarted ⟨"t".toList, "[x]".toList, []⟩ _ _) (.cons (.sectionStarted ..)
    (.cons (.sectionStarted ..) (.cons (.sectionEnded ..) (.cons (.sectionStarted ..)
    (.cons (.sectionEnded ..) (.cons (.sectionEnded ..)
    (.cons (.caseEnded ⟨"t".toList, "[x]".toList, []⟩ _ _ _ _ _ _ _ _ _ rfl)
      (.cons (.runEnded ..) .nil)))))))))

theorem xmlTold_ok : ∀ e ∈ xmlTold, EventOk xmlLimits e := by
  simp only [xmlTold, List.forall_mem_cons, EventOk, LocationOk, DataOk, CountsOk, xmlLimits]
  refine ⟨?_, ?_, ?_, ?_, ?_, ?_, ?_, ?_, ?_, ?_, by simp⟩
  all_goals decide

open Defaults in
example : ∃ rep node, reportAll xmlLimits xmlTold {} = .ok rep ∧ rep.level = 0 ∧
    document rep.out = some node := by
  refine C40_run_calm xmlRun (v := 0) rfl ?_ (by unfold LimitsOk xmlLimits; decide) xmlTold_told xmlTold_ok
  intro c hc _
  simp only [xmlCases, List.mem_singleton] at hc
  subst hc
  exact ⟨_, ⟨Run.alike_one _, Run.always_one (by decide), Run.always_one (by decide), rfl⟩,
    Run.always_one (by simp [Run.Spec.Calm]), by decide⟩

/-- A listing. -/
example : ∃ rep, reportAll xmlLimits [.listStarted "p".toList [],
    .listed ⟨"<>".toList, "[x]".toList, [], "F".toList⟩ ⟨"f.cpp".toList, 3⟩, .listEnded "p".toList []] {} =
      .ok rep ∧ rep.level = 0 ∧ document rep.out = some (.elem "MatchingTests".toList []
        [listedNode ⟨"<>".toList, "[x]".toList, [], "F".toList⟩ ⟨"f.cpp".toList, 3⟩]) := by
  have h := C40_listing (lim := xmlLimits) (by unfold LimitsOk xmlLimits; decide)
    [(⟨"<>".toList, "[x]".toList, [], "F".toList⟩, ⟨"f.cpp".toList, 3⟩)] "p".toList "p".toList [] [] (by
      simp only [List.forall_mem_cons, EventOk, LocationOk, xmlLimits]
      refine ⟨?_, by simp⟩
      decide)
  exact h

/-! ## C54: where the report is not well-formed -/

/-- What is read from the report of some events, if the reporter does not fail. -/
def readBack (lim : Report.Limits) (es : List Event) : Outcome (Option Node) :=
  match reportAll lim es {} with
  | .ok rep => .ok (document rep.out)
  | .abort => .abort
  | .ub => .ub

/-- Whether the reporter is done and the report cannot be read. -/
def unreadable (lim : Report.Limits) (es : List Event) : Bool :=
  match readBack lim es with
  | .ok none => true
  | _ => false

/-- **C54** fails: the message of a skip is printed as it is: with `SKIP("a<b")` the report is not an XML document. -/
theorem C54_not_skip_message : unreadable { xmlLimits with message := 20, name := 20 }
    [.runStarted "p".toList [], .caseStarted ⟨"t".toList, [], [], []⟩ ⟨"f".toList, 1⟩,
      .caseSkipped ⟨"t".toList, [], [], []⟩ [] ⟨"f".toList, 2⟩ "a<b".toList,
      .caseEnded ⟨"t".toList, [], [], []⟩ ⟨"f".toList, 1⟩ .skipped "0".toList 0,
      .runEnded "p".toList [] 1 0 0 1 ⟨0, 0, 0⟩] = true := by
  decide +kernel

/-- **C54** fails: a message that does not fit once it is escaped: the report is not an XML document. (Capacity 9.) -/
theorem C54_not_when_cut : unreadable { xmlLimits with message := 9, name := 20 }
    [.runStarted "p".toList [], .caseStarted ⟨"t".toList, [], [], []⟩ ⟨"f".toList, 1⟩,
      .assertionFailed ⟨"t".toList, [], [], []⟩ [] ⟨"f".toList, 2⟩ (.message "<&&".toList) false false,
      .caseEnded ⟨"t".toList, [], [], []⟩ ⟨"f".toList, 1⟩ .failed "0".toList 0,
      .runEnded "p".toList [] 1 1 0 0 ⟨1, 1, 0⟩] = true := by
  decide +kernel

/-- **C54**, **C40**: the events of a test whose section is started but not ended (as for `SKIP_CHECK`, Props/Sections.lean): the report is
not an XML document. -/
theorem C54_not_unbalanced : unreadable { xmlLimits with message := 20, name := 20 }
    [.runStarted "p".toList [], .caseStarted ⟨"t".toList, [], [], []⟩ ⟨"f".toList, 1⟩,
      .sectionStarted ⟨"s".toList, []⟩ ⟨"f".toList, 2⟩,
      .caseEnded ⟨"t".toList, [], [], []⟩ ⟨"f".toList, 1⟩ .failed "0".toList 0,
      .runEnded "p".toList [] 1 1 0 0 ⟨1, 1, 0⟩] = true := by
  decide +kernel

end Verif.Props
