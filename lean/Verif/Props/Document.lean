import Verif.Lemmas.Document
import Verif.Props.Events
import Verif.Props.SectionEnds
/-!
# C83: what the XML document says about a run
-/
namespace Verif.Props
open Verif.Events Verif.Events.Spec Verif.Report Verif.Report.Spec

/-- How many of these tests end in this way. -/
def ending [Run.MessageLimit] (tags : Reg.Case → List Text) (st : Run.CaseState) (parts : List (Reg.Case × Node)) : Nat :=
  (parts.filter fun p => Run.Spec.verdictOf p.1.test (tags p.1) = st).length

private theorem elements [Run.MessageLimit] (src : Source) (rl : Report.Limits) {lim : Reg.Limits} {fuel v : Nat} (hv : 2 ≤ v)
    (tags : Reg.Case → List Text) : ∀ parts : List Part, (∀ p ∈ parts, Sound lim fuel p.test.test (tags p.test)) →
    (∀ p ∈ parts, Run.run { lim.cfg with verbosity := v } fuel p.test.test = some (.ok p.result) ∧
        p.result.state = Run.Spec.verdictOf p.test.test (tags p.test) ∧ Tells src p.test.test p.result p.events) →
    (∀ p ∈ parts, Nested (Run.Spec.sectionMarks p.result.log)) →
    ∃ qs : List (Reg.Case × Node), qs.map (·.1) = parts.map (·.test) ∧
      TellsCases rl ((parts.flatMap (·.events)).map Event.report) (qs.map (·.2)) ∧
      (∀ q ∈ qs, TestElement src rl v q.1.test (tags q.1) q.2) ∧
      qs.map (fun q => timeIn q.2) = (testDurations (parts.flatMap (·.events))).map
        (fun d => if rl.timings then some (attr d.text) else none) ∧
      ∀ more, (sectionDurations [] (parts.flatMap (·.events) ++ more)).map (·.map (shownTime rl)) =
        qs.map (fun q => sectionTimesIn q.2) ++ (sectionDurations [] more).map (·.map (shownTime rl)) := by
  intro parts
  induction parts with
  | nil => intro _ _ _; exact ⟨[], rfl, .nil, by simp, rfl, fun _ => rfl⟩
  | cons p parts ih =>
    intro hs hp hn
    obtain ⟨qs, h1, h2, h3, h4, h5⟩ := ih (fun q hq => hs q (by simp [hq])) (fun q hq => hp q (by simp [hq]))
      (fun q hq => hn q (by simp [hq]))
    have hs := hs p (by simp)
    obtain ⟨hr, hst, ht⟩ := hp p (by simp)
    obtain ⟨ps, hps, hmay, hshould⟩ := special_of_tagged hs.tags
    obtain ⟨s, e, _, hl⟩ := C67_verdict (cfg := { lim.cfg with verbosity := v }) hs.alike hs.sections hs.captures hs.tags hs.tidy hs.fuel
    rw [hr] at e
    cases e
    obtain ⟨n, k1, k2, ⟨d, k3, k4⟩, ds, k5, k6⟩ := element_of_test src rl (cfg := { lim.cfg with verbosity := v }) hv hs.alike hs.sections hs.captures hps
      hs.tidy hmay hshould hr hst hl (hn p (by simp)) ht
    refine ⟨(p.test, n) :: qs, by simp [h1], ?_, ?_, ?_, ?_⟩
    · rw [List.flatMap_cons, List.map_append, List.map_cons]
      exact tellsCases_append k1 h2
    · intro q hq
      rcases List.mem_cons.1 hq with rfl | hq
      · exact k2
      · exact h3 q hq
    · unfold testDurations at h4 k3 ⊢
      rw [List.flatMap_cons, List.filterMap_append, k3, List.map_cons, h4, List.singleton_append, List.map_cons, k4]
    · intro more
      rw [List.flatMap_cons, List.append_assoc, k5, List.map_cons, h5, List.map_cons, k6]
      rfl

/-- **C83** (verbosity). With the XML reporter the verbosity of the run is the one asked for, but at least high. -/
theorem C83_verbosity {reporters : List Text} {init : Nat → Nat → Nat} {config : Cli.Config} {ts : List Cli.Spec.Token}
    {i : Nat} (hi : Configure.Spec.choice reporters (Cli.Spec.given "--reporter" ts) = some i)
    (hinit : init i = Xml.initVerbosity) :
    verbosityOfRun reporters init config ts =
      max ((Cli.Spec.verbosityOf (Cli.Spec.given "--verbosity" ts)).getD config.verbosity) 2 := by
  unfold verbosityOfRun
  rw [hi, Option.some_or]
  dsimp only
  rw [hinit]
  unfold Xml.initVerbosity
  split <;> omega

private theorem verbosity_xml {reporters : List Text} {init : Nat → Nat → Nat} {config : Cli.Config} {ts : List Cli.Spec.Token}
    {i : Nat} (hi : Configure.Spec.choice reporters (Cli.Spec.given "--reporter" ts) = some i)
    (hinit : init i = Xml.initVerbosity) : 2 ≤ verbosityOfRun reporters init config ts := by
  unfold verbosityOfRun
  rw [hi, Option.some_or]
  dsimp only
  rw [hinit]
  unfold Xml.initVerbosity
  split <;> omega

/-- **C83** (the document). With the XML reporter, if the texts fit in its buffers and the section events of every test are properly
nested (see `C83_nested_partial`): the report is a document with the name of the program and the filters, an element for each selected
test in the order of registration, which says all that `TestElement` demands, the durations told of the test and of its sections, and the numbers of tests of each kind and of
assertions. -/
theorem C83_document [Run.MessageLimit] (src : Source) {lim : Reg.Limits} {fuel maxArgs : Nat} (reporters : List Text)
    (init : Nat → Nat → Nat) (config : Cli.Config) (argv0 : Text) {argv : List Text} {cases : List Reg.Case}
    (hlen : argv.length ≤ maxArgs) (tags : Reg.Case → List Text) (hcases : ∀ c ∈ cases, Sound lim fuel c.test (tags c))
    {ts : List Cli.Spec.Token} (hts : Cli.Spec.tokens argv = some ts) (hn : (Cli.Spec.optionNames ts).Nodup)
    (hno : ∀ l ∈ listing, l ∉ Cli.Spec.optionNames ts) {i : Nat}
    (hi : Configure.Spec.choice reporters (Cli.Spec.given "--reporter" ts) = some i)
    (hinit : init i = Xml.initVerbosity)
    (hnest : ∀ c ∈ cases, ∀ v r, 2 ≤ v → Run.run { lim.cfg with verbosity := v } fuel c.test = some (.ok r) →
      Nested (Run.Spec.sectionMarks r.log))
    {rl : Report.Limits} (hrl : LimitsOk rl) :
    ∃ (code v : Nat) (es : List Events.Event) (sel : Reg.Case → Bool) (name : Text),
      Events.main src lim fuel maxArgs reporters init config argv0 argv cases = some (.ok (code, es.map .event)) ∧
      v = verbosityOfRun reporters init config ts ∧
      (∀ c ∈ cases, sel c = true ↔
        Verif.Spec.Selected (Cli.Spec.positionalsOf ts) ⟨Reg.Spec.fullName c.test.id, tags c⟩) ∧
      (∃ file, Cli.Spec.IsFileName argv0 file ∧ Cli.Spec.IsStem file name) ∧
      ((∀ e ∈ es, EventOk rl e.report) →
        ∃ (rep : Rep) (tests : List (Reg.Case × Node)) (counts : Counts),
          Xml.reportAll rl (es.map Event.report) {} = .ok rep ∧
          document rep.out = some (runNode rl name (Cli.Spec.positionalsOf ts) (tests.map (·.2)) tests.length
            (ending tags .failed tests) (ending tags .allowedFail tests) (ending tags .skipped tests) counts) ∧
          tests.map (·.1) = cases.filter sel ∧
          (∀ p ∈ tests, TestElement src rl v p.1.test (tags p.1) p.2) ∧
          (tests.map fun p => timeIn p.2) = (testDurations es).map
            (fun d => if rl.timings then some (attr d.text) else none) ∧
          (tests.map fun p => sectionTimesIn p.2) = (sectionDurations [] es).map (·.map (shownTime rl)) ∧
          counts.all = (tests.map fun p => assertions p.1.test (tags p.1)).sum ∧
          counts.failed = (es.filterMap failedFlags).count (false, false) ∧
          counts.failed + counts.allowed = (es.filterMap failedFlags).length) := by
  have hv2 : 2 ≤ verbosityOfRun reporters init config ts := verbosity_xml hi hinit
  obtain ⟨v, pred, cases', log, success, es, parts, run, fail, allowedFail, skip, counts, d, hv, hsel, hrun, hreg, hmain, hes,
    hlog, hparts, hp⟩ := main_told src reporters init config argv0 hlen tags hcases hts hn hno
  obtain ⟨code, v', es', sel, name, parts', k1, k2, k3, k4, k5, k6, k7, k8⟩ := C80_run_partial src reporters init config argv0
    hlen tags hcases hts hn hno
  rw [hmain] at k1
  simp only [Option.some.injEq, Outcome.ok.injEq, Prod.mk.injEq] at k1
  obtain ⟨rfl, hl⟩ := k1
  obtain rfl : es = es' := (List.map_inj_right fun a b h => by cases h; rfl).1 hl
  rw [← hv] at hv2 k2
  obtain rfl : v = v' := k2.symm
  obtain ⟨counts', d', e, c1, c2, c3⟩ := k8 (by omega)
  have hes' := hes
  rw [if_pos (by omega), if_pos (by omega), List.singleton_append] at hes'
  rw [hes', List.cons_append, List.cons_append, List.cons.injEq] at e
  obtain ⟨e1, e2⟩ := e
  obtain ⟨e2, e3⟩ := List.append_inj' e2 rfl
  cases e1
  simp only [List.cons.injEq, Events.Event.runEnded.injEq, and_true, true_and] at e3
  obtain ⟨rfl, rfl, rfl, rfl, rfl, -, -⟩ := e3
  have hfilter : cases.filter (fun c => decide (pred c.test.id = .ok true)) = cases.filter sel := by
    refine List.filter_congr fun c hc => ?_
    obtain ⟨b, hb, hb'⟩ := hsel c hc
    rw [Bool.eq_iff_iff, k3 c hc, ← hb', hb]
    cases b <;> simp
  have hmem : ∀ p ∈ parts, p.test ∈ cases := by
    intro p hpm
    have : p.test ∈ parts.map (·.test) := List.mem_map.2 ⟨p, hpm, rfl⟩
    rw [hparts] at this
    exact (List.mem_filter.1 this).1
  refine ⟨_, v, es, sel, _, hmain, hv, k3, k4, fun hok => ?_⟩
  obtain ⟨qs, q1, q2, q3, q4, q5⟩ := elements src rl hv2 tags parts (fun p hpm => hcases _ (hmem p hpm)) hp
    (fun p hpm => hnest _ (hmem p hpm) v _ hv2 (hp p hpm).1)
  have hrep : es.map Event.report = .runStarted (Cli.extractExecutable argv0) (Cli.Spec.positionalsOf ts) ::
      (parts.flatMap (·.events)).map Event.report ++ [.runEnded (Cli.extractExecutable argv0) (Cli.Spec.positionalsOf ts)
        parts'.length (howMany tags .failed parts') (howMany tags .allowedFail parts') (howMany tags .skipped parts') counts] := by
    rw [hes']
    simp [Event.report]
  have hok' : ∀ e ∈ es.map Event.report, EventOk rl e := by simpa using hok
  rw [hrep] at hok'
  obtain ⟨rep, r1, -, r2⟩ := C40_document hrl q2 hok'
  have hq : qs.map (·.1) = parts'.map (·.1) := by rw [q1, hparts, hfilter, k5]
  have hhow : ∀ st, howMany tags st parts' = ending tags st qs := by
    intro st
    have h1 : howMany tags st parts' = ((parts'.map (·.1)).filter fun c => Run.Spec.verdictOf c.test (tags c) = st).length := by
      rw [List.filter_map, List.length_map]; rfl
    have h2 : ending tags st qs = ((qs.map (·.1)).filter fun c => Run.Spec.verdictOf c.test (tags c) = st).length := by
      rw [List.filter_map, List.length_map]; rfl
    rw [h1, h2, hq]
  have hlen' : parts'.length = qs.length := by
    have := congrArg List.length hq
    simpa using this.symm
  refine ⟨rep, qs, counts, by rw [hrep]; exact r1, ?_, by rw [hq, k5], q3, ?_, ?_, ?_, c2, c3⟩
  · rw [r2, hhow, hhow, hhow, hlen']
  · rw [q4, hes']
    unfold testDurations
    simp
  · rw [hes', List.cons_append, sectionDurations, q5]
    · simp [sectionDurations]
    all_goals intros; contradiction
  · rw [c1]
    have h1 : (parts'.map fun p => assertions p.1.test (tags p.1)) = (parts'.map (·.1)).map fun c => assertions c.test (tags c) := by
      rw [List.map_map]; rfl
    have h2 : (qs.map fun p => assertions p.1.test (tags p.1)) = (qs.map (·.1)).map fun c => assertions c.test (tags c) := by
      rw [List.map_map]; rfl
    rw [h1, h2, hq]

/-- **C83**, **C21** (partial: missing are bodies in which a section contains two leaf sections; without an exception these are fine
too, see `C21_section_events`, but otherwise not, see `C21_abort_after_unfinished_section`). The section events of a test whose sections are executed
once are properly nested, whatever happens in it. -/
theorem C83_nested_partial [Run.MessageLimit] {cfg : Run.Cfg} {t : Run.TestCase} {tags : List Filter.ParsedTag}
    (hf : Fits cfg t tags) (ht : Run.Spec.Always Run.Spec.Tidy t.body) (ho : Run.Spec.Always Run.Spec.Once t.body) (hv : 2 ≤ cfg.verbosity) {fuel : Nat}
    (hfuel : Run.Spec.passCount t.body.first ≤ fuel) :
    ∃ s, Run.run cfg fuel t = some (.ok s) ∧ Nested (Run.Spec.sectionMarks s.log) := by
  obtain ⟨s, hs, hlog⟩ := C19_meaning hf ht hfuel
  exact ⟨s, hs, once_nested hf.alike hf.sections hf.captures hf.tags ht ho hv hlog⟩

/-- An element that says what `TestElement` demands of a test whose sections are executed once has everything in exactly the
sections in which it happens. -/
private theorem contents_of_element [Run.MessageLimit] {src : Source} {rl : Report.Limits} {cfg : Run.Cfg} {t : Run.TestCase}
    {tags : List Text} (ha : Run.Spec.Alike t.body)
    (hd : Run.Spec.Always (Run.Spec.secDepth · ≤ cfg.maxNested) t.body)
    (hc : Run.Spec.Always (Run.Spec.capDepth · ≤ cfg.maxCaptures) t.body)
    (htags : Reg.Spec.Tagged cfg.maxTag t.id tags) (ht : Run.Spec.Always Run.Spec.Tidy t.body) (ho : Run.Spec.Always Run.Spec.Once t.body)
    (hv : 2 ≤ cfg.verbosity) {n : Node} (h : TestElement src rl cfg.verbosity t tags n) :
    contents n = placed (toldOf src cfg.verbosity t tags) := by
  obtain ⟨inside, d, rfl, h1, -⟩ := h
  obtain ⟨ps, hps, hmay, hshould⟩ := special_of_tagged htags
  obtain ⟨s, hs, hlog⟩ := C19_meaning (cfg := cfg) (t := t) ⟨ha, hd, hc, hps⟩ ht (Nat.le_refl _)
  have hin := Run.told_of_items (log := s.log) hv hlog fun x hx => Run.exact_told ht ho x hx
  rw [Run.toldInside_iff, hlog, hshould] at hin
  have := along_placed src _ [] hin
  unfold contents
  dsimp only
  rw [List.dropLast_concat, located_walk, h1]
  exact this

/-- **C83** (places; partial: missing are tests in which a section contains two leaf sections, where the claim is false, see
`C83_told_in_other_section`). If in all tests each section is executed once, the report is a document in which the element of
each selected test has all assertions (with the captures that hold) and skips of the test, each in exactly the sections in which
it happens. -/
theorem C83_places_partial [Run.MessageLimit] (src : Source) {lim : Reg.Limits} {fuel maxArgs : Nat} (reporters : List Text)
    (init : Nat → Nat → Nat) (config : Cli.Config) (argv0 : Text) {argv : List Text} {cases : List Reg.Case}
    (hlen : argv.length ≤ maxArgs) (tags : Reg.Case → List Text) (hcases : ∀ c ∈ cases, Sound lim fuel c.test (tags c))
    {ts : List Cli.Spec.Token} (hts : Cli.Spec.tokens argv = some ts) (hn : (Cli.Spec.optionNames ts).Nodup)
    (hno : ∀ l ∈ listing, l ∉ Cli.Spec.optionNames ts) {i : Nat}
    (hi : Configure.Spec.choice reporters (Cli.Spec.given "--reporter" ts) = some i)
    (hinit : init i = Xml.initVerbosity) (honce : ∀ c ∈ cases, Run.Spec.Always Run.Spec.Once c.test.body)
    {rl : Report.Limits} (hrl : LimitsOk rl) :
    ∃ (code : Nat) (es : List Events.Event) (sel : Reg.Case → Bool),
      Events.main src lim fuel maxArgs reporters init config argv0 argv cases = some (.ok (code, es.map .event)) ∧
      (∀ c ∈ cases, sel c = true ↔
        Verif.Spec.Selected (Cli.Spec.positionalsOf ts) ⟨Reg.Spec.fullName c.test.id, tags c⟩) ∧
      ((∀ e ∈ es, EventOk rl e.report) →
        ∃ (rep : Rep) (tests : List (Reg.Case × Node)) (a : Attrs) (totals : List Node),
          Xml.reportAll rl (es.map Event.report) {} = .ok rep ∧
          document rep.out = some (.elem "Catch2TestRun".toList a (tests.map (·.2) ++ totals)) ∧
          tests.map (·.1) = cases.filter sel ∧
          ∀ p ∈ tests, contents p.2 = placed (toldOf src (verbosityOfRun reporters init config ts) p.1.test (tags p.1))) := by
  obtain ⟨code, v, es, sel, name, h1, hv, h2, h3, h4⟩ := C83_document src reporters init config argv0 hlen tags hcases hts hn hno
    hi hinit (by
      intro c hc v r hv hr
      have hs := hcases c hc
      obtain ⟨ps, hps, _, _⟩ := special_of_tagged hs.tags
      obtain ⟨s, e, hs'⟩ := C83_nested_partial (cfg := { lim.cfg with verbosity := v }) (t := c.test)
        ⟨hs.alike, hs.sections, hs.captures, hps⟩ hs.tidy (honce c hc) hv hs.fuel
      rw [hr] at e
      cases e
      exact hs') hrl
  refine ⟨code, es, sel, h1, h2, fun hok => ?_⟩
  obtain ⟨rep, tests, counts, k1, k2, k3, k4, -⟩ := h4 hok
  refine ⟨rep, tests, _, _, k1, k2, k3, fun p hp => ?_⟩
  have hmem : p.1 ∈ cases := by
    have : p.1 ∈ tests.map (·.1) := List.mem_map.2 ⟨p, hp, rfl⟩
    rw [k3] at this
    exact (List.mem_filter.1 this).1
  have hs := hcases _ hmem
  rw [← hv]
  exact contents_of_element (cfg := { lim.cfg with verbosity := v }) hs.alike hs.sections hs.captures hs.tags hs.tidy (honce _ hmem)
    (by rw [hv]; exact verbosity_xml hi hinit) (k4 p hp)

/-! ## Examples -/

open Defaults in
/-- The tests of C55: the check that fails is in the element of its section. -/
example : ∃ rep tests a totals, Xml.reportAll teamcityLimits (exampleEvents.map Event.report) {} = .ok rep ∧
    document rep.out = some (.elem "Catch2TestRun".toList a (tests ++ totals)) ∧
    tests.map contents = [[], [([[("name".toList, "s".toList), ("filename".toList, "f.cpp".toList), ("line".toList, "1".toList)]],
      assertionNode ⟨"f.cpp".toList, 2⟩ false (.expression "CHECK".toList "a[0] == 1".toList "x".toList))]] := by
  obtain ⟨code, es, sel, h1, h2, h3⟩ := C83_places_partial exampleSource
    (maxArgs := 1024) exampleReporters exampleInit (initialConfig false) "bin/prog.exe".toList
    (argv := ["-r", "xml"].map String.toList) (by decide) teamcityTags teamcity_sound (ts := _) rfl (by decide) (by decide)
    (i := 2) (by decide) rfl (by
      intro c hc
      simp only [teamcityCases, List.mem_cons, List.not_mem_nil, or_false] at hc
      rcases hc with rfl | rfl | rfl <;> exact Run.always_one (by simp [Run.Spec.Once, Run.Spec.leaves]))
    (rl := teamcityLimits) (by unfold LimitsOk teamcityLimits; decide)
  rw [exampleMain_reporter "xml" (by simp)] at h1
  simp only [Option.some.injEq, Outcome.ok.injEq, Prod.mk.injEq] at h1
  obtain ⟨rfl, hl⟩ := h1
  obtain rfl : exampleEvents = es := (List.map_inj_right fun a b h => by cases h; rfl).1 hl
  obtain ⟨rep, tests, a, totals, k1, k2, k3, k4⟩ := h3 (by
    simp only [exampleEvents, List.forall_mem_cons]
    refine ⟨?_, ?_, ?_, ?_, ?_, ?_, ?_, ?_, ?_, by simp⟩
    all_goals simp only [Event.report, EventOk, LocationOk, DataOk, CountsOk, Short, Plain]
    all_goals decide)
  refine ⟨rep, tests.map (·.2), a, totals, k1, k2, ?_⟩
  have hsel : teamcityCases.filter sel = [teamcityCases[0], teamcityCases[2]] := by
    have s0 : sel teamcityCases[0] = true := (h2 _ (by simp [teamcityCases])).2 ⟨by simp [Cli.Spec.positionalsOf], by
      rintro ⟨x, hx, _⟩; cases hx⟩
    have s1 : sel teamcityCases[1] ≠ true := fun h => by
      obtain ⟨f, hf, _⟩ := ((h2 _ (by simp [teamcityCases])).1 h).2 ⟨".".toList, by decide, by simp [Verif.Spec.Hides]⟩
      cases hf
    have s2 : sel teamcityCases[2] = true := (h2 _ (by simp [teamcityCases])).2 ⟨by simp [Cli.Spec.positionalsOf], by
      rintro ⟨x, hx, h⟩
      have : x = "x".toList := List.mem_singleton.1 hx
      subst this
      exact absurd h (by simp [Verif.Spec.Hides])⟩
    show [teamcityCases[0], teamcityCases[1], teamcityCases[2]].filter sel = _
    simp [s0, s1, s2]
  rw [hsel] at k3
  match tests, k3, k4 with
  | [(_, n), (_, m)], k3, k4 =>
    simp only [List.map_cons, List.map_nil, List.cons.injEq, and_true] at k3
    obtain ⟨rfl, rfl⟩ := k3
    simp only [List.forall_mem_cons] at k4
    rw [List.map_cons, List.map_cons, List.map_cons, List.map_cons, k4.1, k4.2.1]
    rfl

/-- A program with the test of `C82_told_in_other_section`. -/
def beforeCases : List Reg.Case := [{ test := mkTest "t" "" beforeBody }]

theorem before_sound : ∀ c ∈ beforeCases, Sound (defaultLimits 1) 5 c.test [] := by
  intro c hc
  simp only [beforeCases, List.mem_singleton] at hc
  subst hc
  exact sound_same rfl (by decide) ⟨by decide, by simp, by simp [Verif.Spec.Hides]⟩
    (by simp [mkTest, beforeBody, Run.Spec.Tidy]) (by decide) (by decide) (by decide)

/-- What this program tells with `-r xml`. -/
def beforeEvents : List Events.Event :=
  let id : Id := ⟨"t".toList, [], [], []⟩
  let loc (n : Nat) : Location := ⟨"f.cpp".toList, n⟩
  let d : Duration := ⟨"0.5".toList, 500000⟩
  let failed : Events.Event := .assertionFailed id ⟨[], [], loc 1, .exact⟩ (.expression "CHECK".toList "a[0] == 1".toList []) false false
  [.runStarted "prog".toList [], .caseStarted id (loc 1), failed, .sectionStarted ⟨"s".toList, []⟩ (loc 10),
    .sectionStarted ⟨"s".toList, []⟩ (loc 11), .sectionEnded ⟨"s".toList, []⟩ (loc 11) false ⟨0, 0, 0⟩ d, failed,
    .sectionStarted ⟨"s".toList, []⟩ (loc 12), .sectionEnded ⟨"s".toList, []⟩ (loc 12) false ⟨0, 0, 0⟩ d,
    .sectionEnded ⟨"s".toList, []⟩ (loc 10) false ⟨0, 0, 0⟩ d, .caseEnded id (loc 1) ⟨3, 2, 0⟩ .failed d false false,
    .runEnded "prog".toList [] 1 1 0 0 ⟨3, 2, 0⟩ d false]

open Defaults in
set_option maxRecDepth 20000 in
/-- **C83** (violated). In the document about this program, a check that is in no section is found in the element of a section. -/
theorem C83_told_in_other_section : ∃ (es : List Events.Event) (rep : Rep) (n : Node) (a : Attrs) (totals : List Node),
    Events.main exampleSource (defaultLimits 1) 5 1024 exampleReporters exampleInit (initialConfig false) "prog".toList
      (["-r", "xml"].map String.toList) beforeCases = some (.ok (1, es.map .event)) ∧
    Xml.reportAll teamcityLimits (es.map Event.report) {} = .ok rep ∧
    document rep.out = some (.elem "Catch2TestRun".toList a (n :: totals)) ∧
    (contents n).map (·.1) = [[], [sectionAttrs (exampleSource.sec 10)]] ∧
    (placed (toldOf exampleSource 2 (mkTest "t" "" beforeBody) [])).map (·.1) = [[], []] := by
  obtain ⟨code, v, es, sel, name, h1, hv, h2, h3, h4⟩ := C83_document exampleSource
    (maxArgs := 1024) exampleReporters exampleInit (initialConfig false) "prog".toList
    (argv := ["-r", "xml"].map String.toList) (by decide) (fun _ => []) before_sound (ts := _) rfl (by decide) (by decide)
    (i := 2) (by decide) rfl (fun c hc v r _ hr => nested_of_calm (before_sound c hc) (by
      simp only [beforeCases, List.mem_singleton] at hc
      subst hc
      exact Run.always_one (by simp [beforeBody, Run.Spec.Calm, Run.Spec.calmStmt])) hr)
    (rl := teamcityLimits) (by unfold LimitsOk teamcityLimits; decide)
  have hv' : v = 2 := by rw [hv]; decide
  subst hv'
  have hl : Events.main exampleSource (defaultLimits 1) 5 1024 exampleReporters exampleInit (initialConfig false)
      "prog".toList (["-r", "xml"].map String.toList) beforeCases = some (.ok (1, beforeEvents.map .event)) := rfl
  have hok : ∀ e ∈ beforeEvents, EventOk teamcityLimits e.report := by
    simp only [beforeEvents, List.forall_mem_cons]
    refine ⟨?_, ?_, ?_, ?_, ?_, ?_, ?_, ?_, ?_, ?_, ?_, ?_, by simp⟩
    all_goals simp only [Event.report, EventOk, LocationOk, DataOk, CountsOk, Short, Plain]
    all_goals decide
  rw [hl] at h1
  simp only [Option.some.injEq, Outcome.ok.injEq, Prod.mk.injEq] at h1
  obtain ⟨rfl, e⟩ := h1
  obtain rfl : beforeEvents = es := (List.map_inj_right fun a b h => by cases h; rfl).1 e
  obtain ⟨rep, tests, counts, k1, k2, k3, k4, -⟩ := h4 hok
  have hsel : beforeCases.filter sel = beforeCases := by
    have := (h2 { test := mkTest "t" "" beforeBody } (by simp [beforeCases])).2 ⟨by simp [Cli.Spec.positionalsOf], by
      rintro ⟨x, hx, _⟩; cases hx⟩
    simp [beforeCases, this]
  rw [hsel] at k3
  match tests, k3, k4, k2 with
  | [(_, n)], k3, k4, k2 =>
    simp only [List.map_cons, List.map_nil, beforeCases, List.cons.injEq, and_true] at k3
    subst k3
    refine ⟨beforeEvents, rep, n, _, _, hl, k1, k2, ?_, by decide⟩
    obtain ⟨inside, d, e, w, -⟩ := k4 ({ test := mkTest "t" "" beforeBody }, n) List.mem_cons_self
    dsimp only at e
    rw [e]
    show (locatedAll [] (inside ++ [_]).dropLast).map (·.1) = _
    rw [List.dropLast_concat, located_walk, w]
    rfl

/-- The verbosity is raised from the initial one, normal, to high; full is kept. -/
example : verbosityOfRun exampleReporters exampleInit (initialConfig false)
      ((Cli.Spec.tokens (["-r", "xml"].map String.toList)).getD []) = 2 ∧
    verbosityOfRun exampleReporters exampleInit (initialConfig false)
      ((Cli.Spec.tokens (["-r", "xml", "-v", "full"].map String.toList)).getD []) = 3 :=
  ⟨(C83_verbosity (i := 2) (by decide) rfl).trans (by decide), (C83_verbosity (i := 2) (by decide) rfl).trans (by decide)⟩

end Verif.Props
