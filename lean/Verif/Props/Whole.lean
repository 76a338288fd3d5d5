import Verif.Lemmas.Whole
import Verif.Props.Narration
import Verif.Props.File
/-!
# C87: from the command line to the report, wherever it goes
-/
namespace Verif.Props
open Verif.Whole Verif.Whole.Spec Verif.Report Verif.Report.Spec Verif.Events Verif.Events.Spec

/-- The exit status of a run. -/
theorem code_iff [Run.MessageLimit] (src : Source) {lim : Reg.Limits} {fuel maxArgs : Nat} (reporters : List Text)
    (init : Nat → Nat → Nat) (config : Cli.Config) (argv0 : Text) {argv : List Text} {cases : List Reg.Case}
    (hlen : argv.length ≤ maxArgs) (tags : Reg.Case → List Text) (hcases : ∀ c ∈ cases, Sound lim fuel c.test (tags c))
    {ts : List Cli.Spec.Token} (hts : Cli.Spec.tokens argv = some ts) (hn : (Cli.Spec.optionNames ts).Nodup)
    (hno : ∀ l ∈ listing, l ∉ Cli.Spec.optionNames ts) {code : Nat} {es : List Events.Event}
    (hm : Events.main src lim fuel maxArgs reporters init config argv0 argv cases = some (.ok (code, es.map .event)))
    {sel : Reg.Case → Bool} (hsel : ∀ c ∈ cases, sel c = true ↔
        Verif.Spec.Selected (Cli.Spec.positionalsOf ts) ⟨Reg.Spec.fullName c.test.id, tags c⟩) :
    (code = 0 ∨ code = 1) ∧
      (code = 0 ↔ ∀ c ∈ cases, sel c = true → Run.Spec.verdictOf c.test (tags c) ≠ .failed) := by
  obtain ⟨_, _, _, _, success, es', _, _, _, _, _, _, _, _, _, _, h1, h2, _⟩ := main_told src reporters init config argv0
    hlen tags hcases hts hn hno
  obtain ⟨code', out, sel', v, g1, g2, g3, g4, _⟩ := C67_program reporters init config argv0 hlen tags hcases hts hn hno
  rw [h2] at hm
  rw [h1] at g1
  simp only [Option.some.injEq, Outcome.ok.injEq, Prod.mk.injEq] at hm g1
  obtain rfl : code' = code := by rw [← hm.1, ← g1.1]
  refine ⟨g3, g4.trans ⟨fun h c hc hs => h c hc ((g2 c hc).2 ((hsel c hc).1 hs)), fun h c hc hs => h c hc ((hsel c hc).2
    ((g2 c hc).1 hs))⟩⟩

/-- **C87** (console reporter). For a well-formed command line that asks for a run, without `-r` or with the console
reporter: the tests that run are those selected; the exit status is 0 exactly if none of them fails; and, if the texts fit in
the buffers, the lines of C84 are the whole of the file named with `--out`, or else follow the remarks about the command line
on the standard output. In colour, they do once colour codes are taken away. -/
theorem C87_console [Run.MessageLimit] {p : Program} (hr : Roomy p) (hrl : Console.LimitsOk p.rl) {fuel : Nat}
    {opens : Text → Bool} (argv0 : Text) {argv : List Text} (hlen : argv.length ≤ p.maxArgs) (tags : Reg.Case → List Text)
    (hcases : ∀ c ∈ p.cases, Sound p.lim fuel c.test (tags c))
    {ts : List Cli.Spec.Token} (hts : Cli.Spec.tokens argv = some ts) (hn : (Cli.Spec.optionNames ts).Nodup)
    (hno : ∀ l ∈ listing, l ∉ Cli.Spec.optionNames ts) (ho : Writable p.maxPath opens ts)
    (hk : kindFor p ts = .console) :
    ∃ (code : Nat) (es : List Events.Event) (sel : Reg.Case → Bool) (name : Text) (tests : List (Reg.Case × Text))
      (duration : Text),
      Events.main p.src p.lim fuel p.maxArgs (p.reporters.map (·.1)) (Whole.init p) (Whole.config p) argv0 argv p.cases =
        some (.ok (code, es.map .event)) ∧
      (∀ c ∈ p.cases, sel c = true ↔
        Verif.Spec.Selected (Cli.Spec.positionalsOf ts) ⟨Reg.Spec.fullName c.test.id, tags c⟩) ∧
      (code = 0 ∨ code = 1) ∧
      (code = 0 ↔ ∀ c ∈ p.cases, sel c = true → Run.Spec.verdictOf c.test (tags c) ≠ .failed) ∧
      (∃ file, Cli.Spec.IsFileName argv0 file ∧ Cli.Spec.IsStem file name) ∧
      tests.map (·.1) = p.cases.filter sel ∧
      (2 ≤ verbosityIn p ts → tests.map (·.2) = (testDurations es).map (·.text)) ∧
      (1 ≤ verbosityIn p ts → [duration] = (runDurations es).map (·.text)) ∧
      ((∀ e ∈ es, Console.EventOk p.rl e.console) → es.length < 2 ^ 64 →
        ((settled p ts).1.withColor = true → ∀ e ∈ es, Console.Without p.rl '\x1b' e.console) →
        ∃ w report, Whole.main p fuel opens argv0 argv = some (.ok (code, w)) ∧ Delivered p argv ts report w ∧
          (if (settled p ts).1.withColor then Console.strip report else report) =
            Console.unlines (reportLines p.src p.rl (verbosityIn p ts) name tags tests (decide (code = 0)) duration)) := by
  obtain ⟨code, es, sel, name, tests, duration, h1, h2, h3, h4, d1, d2, h5⟩ := C84_report p.src (p.reporters.map (·.1))
    (Whole.init p) (Whole.config p) argv0 hlen tags hcases hts hn hno hrl
  obtain ⟨g1, g2⟩ := code_iff p.src _ _ _ argv0 hlen tags hcases hts hn hno h1 h2
  rw [verbosityOfRun_eq] at d1 d2
  refine ⟨code, es, sel, name, tests, duration, h1, h2, g1, g2, h3, h4, d1, d2, fun k1 k2 k3 => ?_⟩
  obtain ⟨⟨st, e1, e2⟩, hc⟩ := h5 k1 k2
  rw [verbosityOfRun_eq] at e2 hc
  cases hcol : (settled p ts).1.withColor with
  | false =>
    obtain ⟨w, m1, m2⟩ := main_events hr hlen hts hn ho h1 (d := .console st) (by
      rw [hk, Kind.new, reportAll_console, hcol, e1]
      rfl)
    exact ⟨w, st.out, m1, m2, e2⟩
  | true =>
    obtain ⟨st', e1', e2'⟩ := hc (k3 hcol)
    obtain ⟨w, m1, m2⟩ := main_events hr hlen hts hn ho h1 (d := .console st') (by
      rw [hk, Kind.new, reportAll_console, hcol, e1']
      rfl)
    exact ⟨w, st'.out, m1, m2, e2'⟩

/-- The reporter chosen is registered. -/
private theorem choice_of_kind {p : Program} {ts : List Cli.Spec.Token} {k : Kind} (hk : kindFor p ts = k)
    (hne : k ≠ .console) : ∃ i, Configure.Spec.choice (p.reporters.map (·.1)) (Cli.Spec.given "--reporter" ts) = some i ∧
      Whole.init p i = fun v => if v < 2 then 2 else v := by
  unfold kindFor at hk
  split at hk
  · exact absurd hk.symm hne
  · rename_i i hi
    split at hk
    · exact absurd hk.symm hne
    · rename_i r hr
      refine ⟨i, hi, ?_⟩
      funext v
      unfold Whole.init
      rw [hr]
      dsimp only
      rw [if_neg (by rw [hk]; exact hne)]

/-- **C87** (TeamCity reporter). As `C87_console`, with the messages of C85. -/
theorem C87_teamcity [Run.MessageLimit] {p : Program} (hr : Roomy p) (hrl : TeamCity.LimitsOk p.rl) {fuel : Nat}
    {opens : Text → Bool} (argv0 : Text) {argv : List Text} (hlen : argv.length ≤ p.maxArgs) (tags : Reg.Case → List Text)
    (hcases : ∀ c ∈ p.cases, Sound p.lim fuel c.test (tags c))
    {ts : List Cli.Spec.Token} (hts : Cli.Spec.tokens argv = some ts) (hn : (Cli.Spec.optionNames ts).Nodup)
    (hno : ∀ l ∈ listing, l ∉ Cli.Spec.optionNames ts) (ho : Writable p.maxPath opens ts)
    (hk : kindFor p ts = .teamcity) :
    ∃ (code : Nat) (es : List Events.Event) (sel : Reg.Case → Bool) (name : Text) (tests : List (Reg.Case × Nat)),
      Events.main p.src p.lim fuel p.maxArgs (p.reporters.map (·.1)) (Whole.init p) (Whole.config p) argv0 argv p.cases =
        some (.ok (code, es.map .event)) ∧
      (∀ c ∈ p.cases, sel c = true ↔
        Verif.Spec.Selected (Cli.Spec.positionalsOf ts) ⟨Reg.Spec.fullName c.test.id, tags c⟩) ∧
      (code = 0 ∨ code = 1) ∧
      (code = 0 ↔ ∀ c ∈ p.cases, sel c = true → Run.Spec.verdictOf c.test (tags c) ≠ .failed) ∧
      (∃ file, Cli.Spec.IsFileName argv0 file ∧ Cli.Spec.IsStem file name) ∧
      tests.map (·.1) = p.cases.filter sel ∧ tests.map (·.2) = (testDurations es).map (·.micros) ∧
      ((∀ e ∈ es, TeamCity.EventOk p.rl e.report) →
        ∃ w report, Whole.main p fuel opens argv0 argv = some (.ok (code, w)) ∧ Delivered p argv ts report w ∧
          TeamCity.messages report = some (reportMessages p.src p.rl (verbosityIn p ts) name (Cli.Spec.positionalsOf ts)
            tags tests)) := by
  obtain ⟨i, hi, hinit⟩ := choice_of_kind hk (by decide)
  obtain ⟨code, es, sel, name, tests, h1, h2, h3, h4, d1, h5⟩ := C85_report p.src (p.reporters.map (·.1))
    (Whole.init p) (Whole.config p) argv0 hlen tags hcases hts hn hno hi hinit hrl
  obtain ⟨g1, g2⟩ := code_iff p.src _ _ _ argv0 hlen tags hcases hts hn hno h1 h2
  refine ⟨code, es, sel, name, tests, h1, h2, g1, g2, h3, h4, d1, fun k1 => ?_⟩
  obtain ⟨rep, e1, e2⟩ := h5 k1
  rw [verbosityOfRun_eq] at e2
  obtain ⟨w, m1, m2⟩ := main_events hr hlen hts hn ho h1 (d := .teamcity rep) (by
    rw [hk, Kind.new, reportAll_teamcity, e1]
    rfl)
  exact ⟨w, rep.out, m1, m2, e2⟩

/-- **C87** (XML reporter). As `C87_console`, with the document of C83. -/
theorem C87_xml [Run.MessageLimit] {p : Program} (hr : Roomy p) (hrl : Report.Spec.LimitsOk p.rl) {fuel : Nat}
    {opens : Text → Bool} (argv0 : Text) {argv : List Text} (hlen : argv.length ≤ p.maxArgs) (tags : Reg.Case → List Text)
    (hcases : ∀ c ∈ p.cases, Sound p.lim fuel c.test (tags c))
    {ts : List Cli.Spec.Token} (hts : Cli.Spec.tokens argv = some ts) (hn : (Cli.Spec.optionNames ts).Nodup)
    (hno : ∀ l ∈ listing, l ∉ Cli.Spec.optionNames ts) (ho : Writable p.maxPath opens ts)
    (hk : kindFor p ts = .xml)
    (hnest : ∀ c ∈ p.cases, ∀ v r, 2 ≤ v → Run.run { p.lim.cfg with verbosity := v } fuel c.test = some (.ok r) →
      Nested (Run.Spec.sectionMarks r.log)) :
    ∃ (code : Nat) (es : List Events.Event) (sel : Reg.Case → Bool) (name : Text),
      Events.main p.src p.lim fuel p.maxArgs (p.reporters.map (·.1)) (Whole.init p) (Whole.config p) argv0 argv p.cases =
        some (.ok (code, es.map .event)) ∧
      (∀ c ∈ p.cases, sel c = true ↔
        Verif.Spec.Selected (Cli.Spec.positionalsOf ts) ⟨Reg.Spec.fullName c.test.id, tags c⟩) ∧
      (code = 0 ∨ code = 1) ∧
      (code = 0 ↔ ∀ c ∈ p.cases, sel c = true → Run.Spec.verdictOf c.test (tags c) ≠ .failed) ∧
      (∃ file, Cli.Spec.IsFileName argv0 file ∧ Cli.Spec.IsStem file name) ∧
      ((∀ e ∈ es, Report.Spec.EventOk p.rl e.report) →
        ∃ (w : Output.State) (report : Text) (tests : List (Reg.Case × Node)) (counts : Counts),
          Whole.main p fuel opens argv0 argv = some (.ok (code, w)) ∧ Delivered p argv ts report w ∧
          document report = some (runNode p.rl name (Cli.Spec.positionalsOf ts) (tests.map (·.2)) tests.length
            (ending tags .failed tests) (ending tags .allowedFail tests) (ending tags .skipped tests) counts) ∧
          tests.map (·.1) = p.cases.filter sel ∧
          (∀ q ∈ tests, TestElement p.src p.rl (verbosityIn p ts) q.1.test (tags q.1) q.2) ∧
          (tests.map fun q => timeIn q.2) = (testDurations es).map
            (fun d => if p.rl.timings then some (attr d.text) else none) ∧
          (tests.map fun q => sectionTimesIn q.2) = (sectionDurations [] es).map (·.map (shownTime p.rl)) ∧
          counts.all = (tests.map fun q => assertions q.1.test (tags q.1)).sum ∧
          counts.failed = (es.filterMap failedFlags).count (false, false) ∧
          counts.failed + counts.allowed = (es.filterMap failedFlags).length) := by
  obtain ⟨i, hi, hinit⟩ := choice_of_kind hk (by decide)
  obtain ⟨code, v, es, sel, name, h1, hv, h2, h3, h5⟩ := C83_document p.src (p.reporters.map (·.1))
    (Whole.init p) (Whole.config p) argv0 hlen tags hcases hts hn hno hi hinit hnest hrl
  obtain ⟨g1, g2⟩ := code_iff p.src _ _ _ argv0 hlen tags hcases hts hn hno h1 h2
  rw [verbosityOfRun_eq] at hv
  subst hv
  refine ⟨code, es, sel, name, h1, h2, g1, g2, h3, fun k1 => ?_⟩
  obtain ⟨rep, tests, counts, e1, e2, e3⟩ := h5 k1
  obtain ⟨w, m1, m2⟩ := main_events hr hlen hts hn ho h1 (d := .xml rep) (by
    rw [hk, Kind.new, reportAll_xml, e1]
    rfl)
  exact ⟨w, rep.out, tests, counts, m1, m2, e2, e3⟩

/-- **C87** (refused). A command line that is not well-formed: exit status 1, no test is run, no file is opened, and the
standard output has a line for every complaint and the help text. -/
theorem C87_refused [Run.MessageLimit] {p : Program} (hr : Roomy p) (fuel : Nat) (opens : Text → Bool) (argv0 : Text)
    {argv : List Text} (hlen : argv.length ≤ p.maxArgs) (hw : ¬ Cli.Spec.WellFormed argv) :
    ∃ w, Whole.main p fuel opens argv0 argv = some (.ok (1, w)) ∧
      Shows w ((Cli.Spec.complaints [] argv).flatMap (Cli.Spec.complaintLine p.rl.message (Cli.Spec.colorFor p.color argv)) ++
        ("\n".toList ++ Cli.Spec.helpText p.rl.message (Cli.Spec.colorFor p.color argv) p.rl.version argv0)) none :=
  main_refused hr fuel opens argv0 hlen hw

/-- **C87** (no file). If the file asked for cannot be opened, or its path is too long, the program ends in the assertion
handler before any test is run. (For a path just one character too long: `C39_path_unterminated`.) -/
theorem C87_unwritable [Run.MessageLimit] {p : Program} (hr : Roomy p) (fuel : Nat) {opens : Text → Bool} (argv0 : Text)
    {argv : List Text} (hlen : argv.length ≤ p.maxArgs) {ts : List Cli.Spec.Token} (hts : Cli.Spec.tokens argv = some ts)
    (hn : (Cli.Spec.optionNames ts).Nodup) {path : Text} (hg : Cli.Spec.given "--out" ts = some path)
    (hbad : p.maxPath + 1 < path.length ∨ (path.length ≤ p.maxPath ∧ '\x00' ∉ path ∧ opens path = false)) :
    Whole.main p fuel opens argv0 argv = some .abort := by
  refine main_unwritable hr fuel argv0 hlen hts hn hg ?_
  obtain ⟨h1, h2⟩ := Props.C39_errors p.maxPath hr.path {} path (opens path)
  rcases hbad with h | ⟨h, h0, ho⟩
  · exact h1 h
  · rw [ho]; exact h2 h h0

/-! ## Examples -/

/-- A program with the tests of C55 and the reporters that come with the framework. -/
def exampleProgram : Program where
  rl := teamcityLimits
  lim := defaultLimits 1
  maxArgs := 1024
  maxPath := 1024
  color := false
  verbosity := 1
  reporters := [("console".toList, .console), ("teamcity".toList, .teamcity), ("xml".toList, .xml)]
  src := exampleSource
  cases := teamcityCases

theorem exampleProgram_roomy : Roomy exampleProgram := ⟨by decide, by decide, by decide⟩

open Defaults in
set_option maxRecDepth 20000 in
theorem exampleProgram_events (argv : List Text) (h : argv ∈ [["-v", "high", "-o", "f"], ["-r", "teamcity", "-x"],
      ["-r", "xml", "-o", "f"], ["-v", "high", "--color", "always"], ["-r", "xml", "-x"]].map (·.map String.toList)) :
    Events.main exampleProgram.src exampleProgram.lim 5 exampleProgram.maxArgs (exampleProgram.reporters.map (·.1))
      (Whole.init exampleProgram) (Whole.config exampleProgram) "bin/prog.exe".toList argv exampleProgram.cases =
        some (.ok (1, exampleEvents.map .event)) := by
  simp only [List.map_cons, List.map_nil, List.mem_cons, List.not_mem_nil, or_false] at h
  rcases h with rfl | rfl | rfl | rfl | rfl <;> rfl

open Defaults in
/-- The hypotheses of `C87_console` hold for it with `-v high -o f`: the file `f` has the lines of the report, and there is
nothing on the standard output. -/
theorem exampleProgram_to_file : ∃ w name tests d, Whole.main exampleProgram 5 (fun _ => true) "bin/prog.exe".toList
      (["-v", "high", "-o", "f"].map String.toList) = some (.ok (1, w)) ∧
    Shows w [] (some ("f".toList, Console.unlines (reportLines exampleSource teamcityLimits 2 name teamcityTags tests
      false d))) ∧ tests.map (·.1) = [teamcityCases[0], teamcityCases[2]] := by
  obtain ⟨code, es, sel, name, tests, d, h1, h2, -, -, -, h4, -, -, h5⟩ := C87_console exampleProgram_roomy
    (by unfold Console.LimitsOk; decide) (opens := fun _ => true) "bin/prog.exe".toList
    (argv := ["-v", "high", "-o", "f"].map String.toList) (by decide) teamcityTags teamcity_sound (ts := _) rfl (by decide)
    (by decide) (by intro path h; obtain rfl : "f".toList = path := Option.some.inj h; decide) (by decide)
  rw [exampleProgram_events _ (by simp)] at h1
  simp only [Option.some.injEq, Outcome.ok.injEq, Prod.mk.injEq] at h1
  obtain ⟨rfl, hl⟩ := h1
  obtain rfl : exampleEvents = es := (List.map_inj_right fun a b h => by cases h; rfl).1 hl
  obtain ⟨w, report, k1, k2, k3⟩ := h5 exampleEvents_ok.1 (by decide) (fun h => absurd h (by decide))
  refine ⟨w, name, tests, d, k1, ?_, by rw [h4]; exact teamcity_selected h2⟩
  replace k3 := (if_neg (by decide)).symm.trans k3
  subst k3
  exact k2

open Defaults in
/-- With `-v high --color always`, the lines are in colour on the standard output. -/
example : ∃ w name tests d report, Whole.main exampleProgram 5 (fun _ => true) "bin/prog.exe".toList
      (["-v", "high", "--color", "always"].map String.toList) = some (.ok (1, w)) ∧ Shows w report none ∧
    Console.strip report = Console.unlines (reportLines exampleSource teamcityLimits 2 name teamcityTags tests false d) := by
  obtain ⟨code, es, sel, name, tests, d, h1, h2, -, -, -, h4, -, -, h5⟩ := C87_console exampleProgram_roomy
    (by unfold Console.LimitsOk; decide) (opens := fun _ => true) "bin/prog.exe".toList
    (argv := ["-v", "high", "--color", "always"].map String.toList) (by decide) teamcityTags teamcity_sound (ts := _) rfl
    (by decide) (by decide) (by intro path h; cases h) (by decide)
  rw [exampleProgram_events _ (by simp)] at h1
  simp only [Option.some.injEq, Outcome.ok.injEq, Prod.mk.injEq] at h1
  obtain ⟨rfl, hl⟩ := h1
  obtain rfl : exampleEvents = es := (List.map_inj_right fun a b h => by cases h; rfl).1 hl
  obtain ⟨w, report, k1, k2, k3⟩ := h5 exampleEvents_ok.1 (by decide) (fun _ => exampleEvents_ok.2.2)
  exact ⟨w, name, tests, d, report, k1, k2, k3⟩

open Defaults in
/-- With `-r teamcity -x`: a warning about `-x`, and the messages after it. -/
example : ∃ w name tests report, Whole.main exampleProgram 5 (fun _ => true) "bin/prog.exe".toList
      (["-r", "teamcity", "-x"].map String.toList) = some (.ok (1, w)) ∧
    Shows w ("warning: unknown command line argument '-x'\n".toList ++ report) none ∧
    TeamCity.messages report = some (reportMessages exampleSource teamcityLimits 2 name [] teamcityTags tests) := by
  obtain ⟨code, es, sel, name, tests, h1, h2, -, -, -, h4, -, h5⟩ := C87_teamcity exampleProgram_roomy
    (by unfold TeamCity.LimitsOk; decide) (opens := fun _ => true) "bin/prog.exe".toList
    (argv := ["-r", "teamcity", "-x"].map String.toList) (by decide) teamcityTags teamcity_sound (ts := _) rfl
    (by decide) (by decide) (by intro path h; cases h) (by decide)
  rw [exampleProgram_events _ (by simp)] at h1
  simp only [Option.some.injEq, Outcome.ok.injEq, Prod.mk.injEq] at h1
  obtain ⟨rfl, hl⟩ := h1
  obtain rfl : exampleEvents = es := (List.map_inj_right fun a b h => by cases h; rfl).1 hl
  obtain ⟨w, report, k1, k2, k3⟩ := h5 (by
    simp only [exampleEvents, List.forall_mem_cons]
    refine ⟨?_, ?_, ?_, ?_, ?_, ?_, ?_, ?_, ?_, by simp⟩
    all_goals simp only [Event.report, TeamCity.EventOk, TeamCity.AssertionOk]
    all_goals decide)
  exact ⟨w, name, tests, report, k1, k2, k3⟩

open Defaults in
theorem exampleProgram_nested : ∀ c ∈ exampleProgram.cases, ∀ v r, 2 ≤ v →
    Run.run { exampleProgram.lim.cfg with verbosity := v } 5 c.test = some (.ok r) → Nested (Run.Spec.sectionMarks r.log) := by
  intro c hc v r hv hr
  have hs := teamcity_sound c hc
  obtain ⟨ps, hps, _, _⟩ := special_of_tagged hs.tags
  obtain ⟨s, e, hs'⟩ := C83_nested_partial (cfg := { (defaultLimits 1).cfg with verbosity := v }) (t := c.test)
    ⟨hs.alike, hs.sections, hs.captures, hps⟩ hs.tidy (by
      simp only [exampleProgram, teamcityCases, List.mem_cons, List.not_mem_nil, or_false] at hc
      rcases hc with rfl | rfl | rfl <;> exact Run.always_one (by simp [Run.Spec.Once, Run.Spec.leaves])) hv hs.fuel
  cases hr.symm.trans e
  exact hs'

theorem exampleEvents_xml : ∀ e ∈ exampleEvents, EventOk teamcityLimits e.report := by
  simp only [exampleEvents, List.forall_mem_cons]
  refine ⟨?_, ?_, ?_, ?_, ?_, ?_, ?_, ?_, ?_, by simp⟩
  all_goals simp only [Event.report, EventOk, LocationOk, DataOk, CountsOk, Short, Plain]
  all_goals decide

open Defaults in
/-- With `-r xml -o f`: a document in the file. -/
example : ∃ w name tests counts report, Whole.main exampleProgram 5 (fun _ => true) "bin/prog.exe".toList
      (["-r", "xml", "-o", "f"].map String.toList) = some (.ok (1, w)) ∧ Shows w [] (some ("f".toList, report)) ∧
    document report = some (runNode teamcityLimits name [] tests tests.length 1 0 0 counts) := by
  obtain ⟨code, es, sel, name, h1, h2, -, -, -, h5⟩ := C87_xml exampleProgram_roomy
    (by unfold LimitsOk; decide) (opens := fun _ => true) "bin/prog.exe".toList
    (argv := ["-r", "xml", "-o", "f"].map String.toList) (by decide) teamcityTags teamcity_sound (ts := _) rfl
    (by decide) (by decide) (by intro path h; obtain rfl : "f".toList = path := Option.some.inj h; decide) (by decide) exampleProgram_nested
  rw [exampleProgram_events _ (by simp)] at h1
  simp only [Option.some.injEq, Outcome.ok.injEq, Prod.mk.injEq] at h1
  obtain ⟨rfl, hl⟩ := h1
  obtain rfl : exampleEvents = es := (List.map_inj_right fun a b h => by cases h; rfl).1 hl
  obtain ⟨w, report, tests, counts, k1, k2, k3, k4, -⟩ := h5 exampleEvents_xml
  have hends : ∀ st, ending teamcityTags st tests =
      (([teamcityCases[0], teamcityCases[2]] : List Reg.Case).filter fun c =>
        Run.Spec.verdictOf c.test (teamcityTags c) = st).length := by
    intro st
    have : ([teamcityCases[0], teamcityCases[2]] : List Reg.Case) = tests.map (·.1) := by
      rw [k4]; exact (teamcity_selected h2).symm
    rw [this, List.filter_map, List.length_map]
    rfl
  refine ⟨w, name, tests.map (·.2), counts, report, k1, k2, ?_⟩
  rw [k3, hends, hends, hends, List.length_map]
  rfl

open Defaults in
set_option maxRecDepth 20000 in
/-- With `-r xml -x`, the document on the standard output comes after a warning, so the output is not a document. -/
theorem C87_warning_before_document : ∃ w screen, Whole.main exampleProgram 5 (fun _ => true) "bin/prog.exe".toList
      (["-r", "xml", "-x"].map String.toList) = some (.ok (1, w)) ∧ Shows w screen none ∧ document screen = none := by
  obtain ⟨code, es, sel, name, h1, h2, -, -, -, h5⟩ := C87_xml exampleProgram_roomy
    (by unfold LimitsOk; decide) (opens := fun _ => true) "bin/prog.exe".toList
    (argv := ["-r", "xml", "-x"].map String.toList) (by decide) teamcityTags teamcity_sound (ts := _) rfl
    (by decide) (by decide) (by intro path h; cases h) (by decide) exampleProgram_nested
  rw [exampleProgram_events _ (by simp)] at h1
  simp only [Option.some.injEq, Outcome.ok.injEq, Prod.mk.injEq] at h1
  obtain ⟨rfl, hl⟩ := h1
  obtain rfl : exampleEvents = es := (List.map_inj_right fun a b h => by cases h; rfl).1 hl
  obtain ⟨w, report, tests, counts, k1, k2, -⟩ := h5 exampleEvents_xml
  exact ⟨w, _, k1, k2, rfl⟩

/-- Not well-formed: a value is missing. -/
example : ¬ Cli.Spec.WellFormed (["-v"].map String.toList) := by
  rintro ⟨ts, h, -⟩
  cases h

open Defaults in
/-- `C87_unwritable`: a file in a folder that does not exist. -/
example : Whole.main exampleProgram 5 (fun path => path != "no/f".toList) "prog".toList
    (["a*", "-o", "no/f"].map String.toList) = some .abort :=
  C87_unwritable exampleProgram_roomy 5 "prog".toList (path := "no/f".toList) (by decide) (ts := [.positional "a*".toList,
    .option "--out".toList (some "no/f".toList)]) (by decide) (by decide) (by decide) (.inr ⟨by decide, by decide, by decide⟩)

end Verif.Props
