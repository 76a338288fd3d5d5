import Verif.Props.Unaffected
/-!
# C93: from the source of a program and a command line to the report

As C87, but all conditions are on the program and the command line, and none on the events of the run.
-/
namespace Verif.Props
open Verif.Whole Verif.Whole.Spec Verif.Report Verif.Report.Spec Verif.Events Verif.Events.Spec

theorem same_events {o : Option (Outcome (Nat × List Events.Out))} {code code' : Nat} {es es' : List Events.Event}
    (h : o = some (.ok (code, es.map .event))) (h' : o = some (.ok (code', es'.map .event))) : es = es' := by
  rw [h] at h'
  simp only [Option.some.injEq, Outcome.ok.injEq, Prod.mk.injEq] at h'
  exact (List.map_inj_right fun a b h => by cases h; rfl).1 h'.2

private theorem le_fullName (id : Id) : id.name.length ≤ (Report.Spec.fullName id).length ∧
    id.type.length ≤ (Report.Spec.fullName id).length := by
  unfold Report.Spec.fullName
  split
  · rename_i h; rw [h]; exact ⟨Nat.le_refl _, Nat.zero_le _⟩
  · simp only [List.length_append]; omega

private theorem mem_fullName {id : Id} {c : Char} (h : c ∉ Report.Spec.fullName id) : c ∉ id.name ∧ c ∉ id.type := by
  unfold Report.Spec.fullName at h
  split at h
  · rename_i h'; rw [h']; exact ⟨h, by simp⟩
  · simp only [List.mem_append, not_or] at h; exact ⟨h.1.1.1, h.1.2⟩

section
variable [Run.MessageLimit] {p : Program} {tags : Reg.Case → List Text} {name : Text} {filters : List Text}

theorem console_ok (hc : Countable p tags) (hm : Meets p tags (consoleConditions p.rl))
    (hn : name.length + 11 ≤ p.rl.message) {e : Events.Event} (h : MayTell p.src tags p.cases name filters e) :
    Console.EventOk p.rl e.console := by
  cases h with
  | runStarted => exact ⟨by simpa [consoleConditions, Event.console, Console.coloredTexts] using hn, nofun, nofun, nofun⟩
  | @runEnded run fail allowedFail skip counts n success h1 h2 h3 h4 =>
    have := hc.tests
    have := hc.assertions
    obtain ⟨h5, h6⟩ := h4
    refine ⟨nofun, ?_, nofun, ?_⟩
    · simp only [Event.console, Console.numbers, List.forall_mem_cons, List.not_mem_nil, false_implies, implies_true,
        and_true]
      omega
    · simpa [consoleConditions, Event.console, Console.durations] using hm.duration n
  | @test c e hmem h =>
    have hid := hm.test c hmem
    have hle := le_fullName (declared p.src c.test)
    have hid1 : (Report.Spec.fullName (declared p.src c.test)).length + 11 ≤ p.rl.message := hid.1
    have hplace : ∀ (ctx : Run.Ctx), (∀ t ∈ ctx.caps, t.length + 11 ≤ p.rl.message) →
        ∀ t ∈ Console.placeTexts (declared p.src c.test) (placeOf p.src ctx).console, t.length + 11 ≤ p.rl.message := by
      intro ctx hcaps t ht
      simp only [Console.placeTexts, Place.console, placeOf, List.mem_append, List.mem_cons, List.not_mem_nil, or_false,
        List.mem_map] at ht
      rcases ht with ((rfl | rfl) | ⟨s, ⟨s', ⟨k, -, rfl⟩, rfl⟩, rfl⟩) | ht
      · omega
      · omega
      · exact hm.section' k
      · exact hcaps t ht
    cases h with
    | started =>
      refine ⟨?_, ?_, ?_, nofun⟩
      · simpa [consoleConditions, Event.console, Console.coloredTexts] using hid1
      · simpa [consoleConditions, Event.console, Console.numbers] using hc.lines _
      · simpa [consoleConditions, Event.console, Console.fullNames] using hid.2
    | ended state n hw =>
      refine ⟨?_, nofun, ?_, ?_⟩
      · simpa [consoleConditions, Event.console, Console.coloredTexts] using hid1
      · simpa [consoleConditions, Event.console, Console.fullNames] using hid.2
      · simpa [consoleConditions, Event.console, Console.durations] using hm.duration n
    | @entered k first hs =>
      refine ⟨?_, ?_, nofun, nofun⟩
      · simpa [consoleConditions, Event.console, Console.coloredTexts] using hm.section' k
      · simpa [consoleConditions, Event.console, Console.numbers] using hc.sections k
    | @left k last skipped counts n hs hw =>
      refine ⟨?_, nofun, nofun, nofun⟩
      simpa [consoleConditions, Event.console, Console.coloredTexts] using hm.section' k
    | @succeeded ctx d hs =>
      refine ⟨?_, ?_, nofun, nofun⟩
      · intro t ht
        rcases List.mem_append.1 ht with ht | ht
        · exact hplace ctx (hm.capture c hmem _ hs) t ht
        · exact hm.data c hmem _ _ _ hs t ht
      · simpa [consoleConditions, Event.console, Console.numbers, Place.console, placeOf] using hc.lines _
    | @failed ctx d _ _ hs =>
      refine ⟨?_, ?_, nofun, nofun⟩
      · intro t ht
        rcases List.mem_append.1 ht with ht | ht
        · exact hplace ctx (hm.capture c hmem _ hs) t ht
        · exact hm.data c hmem _ _ _ hs t ht
      · simpa [consoleConditions, Event.console, Console.numbers, Place.console, placeOf] using hc.lines _
    | @skipped ctx m hs =>
      refine ⟨?_, ?_, nofun, nofun⟩
      · intro t ht
        rcases List.mem_cons.1 ht with rfl | ht
        · exact hm.skip c hmem _ _ hs
        · exact hplace ctx (hm.capture c hmem _ hs) t ht
      · simpa [consoleConditions, Event.console, Console.numbers, Place.console, placeOf] using hc.lines _

theorem console_without (hm : Meets p tags escapeFree) (hv : '\x1b' ∉ p.rl.version) (hn : '\x1b' ∉ name)
    {e : Events.Event} (h : MayTell p.src tags p.cases name filters e) : Console.Without p.rl '\x1b' e.console := by
  refine ⟨hv, ?_⟩
  cases h with
  | runStarted => exact ⟨by simpa [escapeFree, Event.console, Console.coloredTexts] using hn, nofun⟩
  | @runEnded run fail allowedFail skip counts n success h1 h2 h3 h4 =>
    exact ⟨nofun, by simpa [escapeFree, Event.console, Console.plainTexts] using hm.duration n⟩
  | @test c e hmem h =>
    have hid : '\x1b' ∉ Report.Spec.fullName (declared p.src c.test) := hm.test c hmem
    have hle := mem_fullName hid
    have hplace : ∀ (ctx : Run.Ctx), (∀ t ∈ ctx.caps, '\x1b' ∉ t) →
        ∀ t ∈ Console.placeTexts (declared p.src c.test) (placeOf p.src ctx).console, '\x1b' ∉ t := by
      intro ctx hcaps t ht
      simp only [Console.placeTexts, Place.console, placeOf, List.mem_append, List.mem_cons, List.not_mem_nil, or_false,
        List.mem_map] at ht
      rcases ht with ((rfl | rfl) | ⟨s, ⟨s', ⟨k, -, rfl⟩, rfl⟩, rfl⟩) | ht
      · exact hle.1
      · exact hle.2
      · exact hm.section' k
      · exact hcaps t ht
    cases h with
    | started =>
      refine ⟨?_, ?_⟩
      · simpa [escapeFree, Event.console, Console.coloredTexts] using hid
      · simpa [escapeFree, Event.console, Console.plainTexts] using hm.file _
    | ended state n hw =>
      refine ⟨?_, ?_⟩
      · simpa [escapeFree, Event.console, Console.coloredTexts] using hid
      · simpa [escapeFree, Event.console, Console.plainTexts] using hm.duration n
    | @entered k first hs =>
      refine ⟨?_, ?_⟩
      · simpa [escapeFree, Event.console, Console.coloredTexts] using hm.section' k
      · simpa [escapeFree, Event.console, Console.plainTexts] using hm.sectionFile k
    | @left k last skipped counts n hs hw =>
      refine ⟨?_, nofun⟩
      simpa [escapeFree, Event.console, Console.coloredTexts] using hm.section' k
    | @succeeded ctx d hs =>
      refine ⟨?_, ?_⟩
      · intro t ht
        rcases List.mem_append.1 ht with ht | ht
        · exact hplace ctx (hm.capture c hmem _ hs) t ht
        · exact hm.data c hmem _ _ _ hs t ht
      · simpa [escapeFree, Event.console, Console.plainTexts, Place.console, placeOf] using hm.file _
    | @failed ctx d _ _ hs =>
      refine ⟨?_, ?_⟩
      · intro t ht
        rcases List.mem_append.1 ht with ht | ht
        · exact hplace ctx (hm.capture c hmem _ hs) t ht
        · exact hm.data c hmem _ _ _ hs t ht
      · simpa [escapeFree, Event.console, Console.plainTexts, Place.console, placeOf] using hm.file _
    | @skipped ctx m hs =>
      refine ⟨?_, ?_⟩
      · intro t ht
        rcases List.mem_cons.1 ht with rfl | ht
        · exact hm.skip c hmem _ _ hs
        · exact hplace ctx (hm.capture c hmem _ hs) t ht
      · simpa [escapeFree, Event.console, Console.plainTexts, Place.console, placeOf] using hm.file _

theorem teamcity_ok (hc : Countable p tags) (hm : Meets p tags (teamcityConditions p.rl))
    (hn : TeamCity.Short p.rl.message (TeamCity.suite name filters)) {e : Events.Event}
    (h : MayTell p.src tags p.cases name filters e) : TeamCity.EventOk p.rl e.report := by
  cases h with
  | runStarted => exact hn
  | runEnded => exact hn
  | @test c e hmem h =>
    have hid : TeamCity.Short p.rl.name (Report.Spec.fullName (declared p.src c.test)) := hm.test c hmem
    cases h with
    | started => exact hid
    | ended state n hw => exact ⟨hid, hc.durations n⟩
    | @entered k first hs => exact hm.section' k
    | @left k last skipped counts n hs hw => exact (hm.section' k).1
    | @succeeded ctx d hs =>
      refine ⟨hid, hm.file _, hc.lines _, hm.capture c hmem _ hs, ?_⟩
      have := hm.data c hmem _ _ _ hs
      cases hd : p.src.data ctx d <;> (rw [hd] at this; exact this)
    | @failed ctx d _ _ hs =>
      refine ⟨hid, hm.file _, hc.lines _, hm.capture c hmem _ hs, ?_⟩
      have := hm.data c hmem _ _ _ hs
      cases hd : p.src.data ctx d <;> (rw [hd] at this; exact this)
    | @skipped ctx m hs => exact ⟨hid, hm.file _, hc.lines _, hm.capture c hmem _ hs, hm.skip c hmem _ _ hs⟩

theorem xml_ok (hc : Countable p tags) (hm : Meets p tags (xmlConditions p.rl))
    (hn : Short p.rl.message name) (hq : Short p.rl.message (quoted filters)) {e : Events.Event}
    (h : MayTell p.src tags p.cases name filters e) : Report.Spec.EventOk p.rl e.report := by
  cases h with
  | runStarted => exact ⟨hn, hq⟩
  | @runEnded run fail allowedFail skip counts n success h1 h2 h3 h4 =>
    have := hc.tests
    have := hc.assertions
    exact ⟨by omega, by omega, h2, by have := h4.1; omega, h4.2⟩
  | @test c e hmem h =>
    have hle := mem_sum_le (List.mem_map_of_mem (f := fun c => assertions c.test (tags c)) hmem)
    have hsum := hc.assertions
    cases h with
    | started => exact ⟨(hm.test c hmem).1, (hm.test c hmem).2, hm.file _, hc.lines _⟩
    | ended state n hw => exact hm.duration n
    | @entered k first hs => exact ⟨hm.section' k, hm.sectionFile k, hc.sections k⟩
    | @left k last skipped counts n hs hw => exact ⟨⟨by have := hw.1; omega, hw.2⟩, hm.duration n⟩
    | @succeeded ctx d hs => exact ⟨hm.capture c hmem _ hs, ⟨hm.file _, hc.lines _⟩, hm.data c hmem _ _ _ hs⟩
    | @failed ctx d _ _ hs => exact ⟨hm.capture c hmem _ hs, ⟨hm.file _, hc.lines _⟩, hm.data c hmem _ _ _ hs⟩
    | @skipped ctx m hs => exact ⟨⟨hm.file _, hc.lines _⟩, hm.skip c hmem _ _ hs⟩

end

/-- **C93** (console reporter). For a well-formed command line that asks for a run with the console reporter, if the texts in
the source of the program fit in a message: the exit status is 0 exactly if no selected test fails; the lines of C84 are the
whole of the file named with `--out`, or else follow the remarks about the command line on the standard output. In colour,
they do once colour codes are taken away. -/
theorem C93_console [Run.MessageLimit] {p : Program} (hr : Roomy p) (hrl : Console.LimitsOk p.rl) {fuel : Nat}
    {opens : Text → Bool} (argv0 : Text) {argv : List Text} (hlen : argv.length ≤ p.maxArgs) (tags : Reg.Case → List Text)
    (hcases : ∀ c ∈ p.cases, Sound p.lim fuel c.test (tags c)) (hc : Countable p tags)
    {ts : List Cli.Spec.Token} (hts : Cli.Spec.tokens argv = some ts) (hn : (Cli.Spec.optionNames ts).Nodup)
    (hno : ∀ l ∈ listing, l ∉ Cli.Spec.optionNames ts) (ho : Writable p.maxPath opens ts)
    (hk : kindFor p ts = .console)
    (hm : Meets p tags (consoleConditions p.rl)) (hname : ∀ name, IsNameOf argv0 name → name.length + 11 ≤ p.rl.message)
    (hb : eventBound tags p.cases < 2 ^ 64)
    (hcol : (settled p ts).1.withColor = true → Meets p tags escapeFree ∧ '\x1b' ∉ p.rl.version ∧
      ∀ name, IsNameOf argv0 name → '\x1b' ∉ name) :
    ∃ (code : Nat) (w : Output.State) (report name duration : Text) (sel : Reg.Case → Bool)
      (tests : List (Reg.Case × Text)),
      Whole.main p fuel opens argv0 argv = some (.ok (code, w)) ∧ Delivered p argv ts report w ∧
      (∀ c ∈ p.cases, sel c = true ↔
        Verif.Spec.Selected (Cli.Spec.positionalsOf ts) ⟨Reg.Spec.fullName c.test.id, tags c⟩) ∧
      (code = 0 ∨ code = 1) ∧
      (code = 0 ↔ ∀ c ∈ p.cases, sel c = true → Run.Spec.verdictOf c.test (tags c) ≠ .failed) ∧
      IsNameOf argv0 name ∧ tests.map (·.1) = p.cases.filter sel ∧
      (if (settled p ts).1.withColor then Console.strip report else report) =
        Console.unlines (reportLines p.src p.rl (verbosityIn p ts) name tags tests (decide (code = 0)) duration) := by
  obtain ⟨code, es, sel, name, tests, duration, h1, h2, h3, h4, h5, h6, -, -, h7⟩ := C87_console hr hrl (opens := opens) argv0 hlen
    tags hcases hts hn hno ho hk
  obtain ⟨code', es', name', sel', g1, g2, -, g3, g4, -⟩ := C80_only p.src (p.reporters.map (·.1)) (Whole.init p)
    (Whole.config p) argv0 hlen tags hcases hts hn hno
  obtain rfl := same_events h1 g1
  obtain ⟨w, report, k1, k2, k3⟩ := h7 (fun e he => console_ok hc hm (hname _ g2) (g3 e he)) (by omega)
    (fun h => fun e he => console_without (hcol h).1 (hcol h).2.1 ((hcol h).2.2 _ g2) (g3 e he))
  exact ⟨code, w, report, name, duration, sel, tests, k1, k2, h2, h3, h4, h5, h6, k3⟩

/-- **C93** (TeamCity reporter). As `C93_console`, with the messages of C85. -/
theorem C93_teamcity [Run.MessageLimit] {p : Program} (hr : Roomy p) (hrl : TeamCity.LimitsOk p.rl) {fuel : Nat}
    {opens : Text → Bool} (argv0 : Text) {argv : List Text} (hlen : argv.length ≤ p.maxArgs) (tags : Reg.Case → List Text)
    (hcases : ∀ c ∈ p.cases, Sound p.lim fuel c.test (tags c)) (hc : Countable p tags)
    {ts : List Cli.Spec.Token} (hts : Cli.Spec.tokens argv = some ts) (hn : (Cli.Spec.optionNames ts).Nodup)
    (hno : ∀ l ∈ listing, l ∉ Cli.Spec.optionNames ts) (ho : Writable p.maxPath opens ts)
    (hk : kindFor p ts = .teamcity)
    (hm : Meets p tags (teamcityConditions p.rl)) (hname : ∀ name, IsNameOf argv0 name →
      TeamCity.Short p.rl.message (TeamCity.suite name (Cli.Spec.positionalsOf ts))) :
    ∃ (code : Nat) (w : Output.State) (report name : Text) (sel : Reg.Case → Bool) (tests : List (Reg.Case × Nat)),
      Whole.main p fuel opens argv0 argv = some (.ok (code, w)) ∧ Delivered p argv ts report w ∧
      (∀ c ∈ p.cases, sel c = true ↔
        Verif.Spec.Selected (Cli.Spec.positionalsOf ts) ⟨Reg.Spec.fullName c.test.id, tags c⟩) ∧
      (code = 0 ∨ code = 1) ∧
      (code = 0 ↔ ∀ c ∈ p.cases, sel c = true → Run.Spec.verdictOf c.test (tags c) ≠ .failed) ∧
      IsNameOf argv0 name ∧ tests.map (·.1) = p.cases.filter sel ∧
      TeamCity.messages report = some (reportMessages p.src p.rl (verbosityIn p ts) name (Cli.Spec.positionalsOf ts)
        tags tests) := by
  obtain ⟨code, es, sel, name, tests, h1, h2, h3, h4, h5, h6, -, h7⟩ := C87_teamcity hr hrl (opens := opens) argv0 hlen
    tags hcases hts hn hno ho hk
  obtain ⟨code', es', name', sel', g1, g2, -, g3, g4, -⟩ := C80_only p.src (p.reporters.map (·.1)) (Whole.init p)
    (Whole.config p) argv0 hlen tags hcases hts hn hno
  obtain rfl := same_events h1 g1
  obtain ⟨w, report, k1, k2, k3⟩ := h7 (fun e he => teamcity_ok hc hm (hname _ g2) (g3 e he))
  exact ⟨code, w, report, name, sel, tests, k1, k2, h2, h3, h4, h5, h6, k3⟩

/-- **C93** (XML reporter). As `C93_console`, with the document of C83, if the sections of each test begin and end like brackets
(`C83_nested_calm`, `C83_nested_once`): the numbers in the document are those of the selected tests. -/
theorem C93_xml [Run.MessageLimit] {p : Program} (hr : Roomy p) (hrl : Report.Spec.LimitsOk p.rl) {fuel : Nat}
    {opens : Text → Bool} (argv0 : Text) {argv : List Text} (hlen : argv.length ≤ p.maxArgs) (tags : Reg.Case → List Text)
    (hcases : ∀ c ∈ p.cases, Sound p.lim fuel c.test (tags c)) (hc : Countable p tags)
    (hnest : ∀ c ∈ p.cases, Nested (marksOf (storyOf c.test (tags c))))
    {ts : List Cli.Spec.Token} (hts : Cli.Spec.tokens argv = some ts) (hn : (Cli.Spec.optionNames ts).Nodup)
    (hno : ∀ l ∈ listing, l ∉ Cli.Spec.optionNames ts) (ho : Writable p.maxPath opens ts)
    (hk : kindFor p ts = .xml) (hm : Meets p tags (xmlConditions p.rl))
    (hname : ∀ name, IsNameOf argv0 name → Short p.rl.message name)
    (hq : Short p.rl.message (quoted (Cli.Spec.positionalsOf ts))) :
    ∃ (code : Nat) (w : Output.State) (report name : Text) (sel : Reg.Case → Bool) (tests : List (Reg.Case × Node))
      (counts : Counts),
      Whole.main p fuel opens argv0 argv = some (.ok (code, w)) ∧ Delivered p argv ts report w ∧
      (∀ c ∈ p.cases, sel c = true ↔
        Verif.Spec.Selected (Cli.Spec.positionalsOf ts) ⟨Reg.Spec.fullName c.test.id, tags c⟩) ∧
      (code = 0 ∨ code = 1) ∧
      (code = 0 ↔ ∀ c ∈ p.cases, sel c = true → Run.Spec.verdictOf c.test (tags c) ≠ .failed) ∧
      IsNameOf argv0 name ∧ tests.map (·.1) = p.cases.filter sel ∧
      document report = some (runNode p.rl name (Cli.Spec.positionalsOf ts) (tests.map (·.2)) tests.length
        (ending tags .failed tests) (ending tags .allowedFail tests) (ending tags .skipped tests) counts) ∧
      (∀ q ∈ tests, TestElement p.src p.rl (verbosityIn p ts) q.1.test (tags q.1) q.2) ∧
      counts.all = (tests.map fun q => assertions q.1.test (tags q.1)).sum ∧
      counts.failed = (tests.map fun q => realFailures q.1.test (tags q.1)).sum ∧
      counts.failed + counts.allowed = (tests.map fun q => failuresIn q.1.test (tags q.1)).sum := by
  obtain ⟨code, es, sel, name, h1, h2, h3, h4, h5, h7⟩ := C87_xml hr hrl (opens := opens) argv0 hlen
    tags hcases hts hn hno ho hk (fun c hc v r hv hr => by rw [marks_of_run (hcases c hc) hv hr]; exact hnest c hc)
  obtain ⟨code', es', name', sel', g1, g2, gs, g3, g4, g5, g6⟩ := C80_only p.src (p.reporters.map (·.1)) (Whole.init p)
    (Whole.config p) argv0 hlen tags hcases hts hn hno
  obtain rfl := same_events h1 g1
  have hsel : p.cases.filter sel' = p.cases.filter sel := by
    apply List.filter_congr
    intro c hmem
    have : sel' c = true ↔ sel c = true := (gs c hmem).trans (h2 c hmem).symm
    cases h : sel' c <;> cases h' : sel c <;> simp_all
  obtain ⟨w, report, tests, counts, k1, k2, k3, k4, k5, -, -, k6, k7, k8⟩ := h7 (fun e he => xml_ok hc hm (hname _ g2) hq (g3 e he))
  rw [hsel, ← k4, List.map_map] at g5 g6
  exact ⟨code, w, report, name, sel, tests, counts, k1, k2, h2, h3, h4, h5, k4, k3, k5, k6, k7.trans g5, k8.trans g6⟩

theorem named_prog {name : Text} (h : IsNameOf "bin/prog.exe".toList name) : name = "prog".toList := by
  obtain ⟨file, h1, h2⟩ := h
  exact C50_unique h1 (g := "prog.exe".toList) ⟨by decide, .inr ⟨"bin".toList, '/', rfl, .inl rfl⟩⟩ h2
    (.inr ⟨"exe".toList, by decide, rfl⟩)

open Defaults in
/-- What happens in the tests of `plainProgram`. -/
theorem plainProgram_story : ∀ c ∈ plainProgram.cases, ∀ x ∈ storyOf c.test (teamcityTags c),
    x = .assertion true ⟨[], [], 1, .exact⟩ "no exception caught".toList ∨ x = .enter 1 true ∨
    x = .assertion false ⟨[1], [], 2, .exact⟩ "x".toList ∨ x = .leave 1 true := by
  have h0 : storyOf (teamcityCases[0]).test (teamcityTags teamcityCases[0]) =
      [.assertion true ⟨[], [], 1, .exact⟩ "no exception caught".toList] := rfl
  have h1 : storyOf (teamcityCases[1]).test (teamcityTags teamcityCases[1]) =
      [.assertion true ⟨[], [], 1, .exact⟩ "no exception caught".toList] := rfl
  have h2 : storyOf (teamcityCases[2]).test (teamcityTags teamcityCases[2]) =
      [.enter 1 true, .assertion false ⟨[1], [], 2, .exact⟩ "x".toList, .leave 1 true,
        .assertion true ⟨[], [], 1, .exact⟩ "no exception caught".toList] := rfl
  have : plainProgram.cases = [teamcityCases[0], teamcityCases[1], teamcityCases[2]] := rfl
  rw [this]
  intro c hc x hx
  rcases List.mem_cons.1 hc with rfl | hc
  · rw [h0] at hx; exact .inl (List.mem_singleton.1 hx)
  rcases List.mem_cons.1 hc with rfl | hc
  · rw [h1] at hx; exact .inl (List.mem_singleton.1 hx)
  obtain rfl := List.mem_singleton.1 hc
  rw [h2] at hx
  rcases List.mem_cons.1 hx with h | hx
  · exact .inr (.inl h)
  rcases List.mem_cons.1 hx with h | hx
  · exact .inr (.inr (.inl h))
  rcases List.mem_cons.1 hx with h | hx
  · exact .inr (.inr (.inr h))
  · exact .inl (List.mem_singleton.1 hx)

open Defaults in
/-- Conditions are met if they are for the texts of `plainProgram`. -/
theorem plainProgram_meets {k : Conditions} (h1 : ∀ c ∈ teamcityCases, k.test (declared exampleSource c.test))
    (h2 : k.section' ⟨"s".toList, []⟩) (h3 : k.file "f.cpp".toList) (h4 : k.duration "0.5".toList)
    (h5 : ∀ d ∈ ["no exception caught", "x"].map String.toList,
      k.data (.expression "CHECK".toList "a[0] == 1".toList d)) : Meets plainProgram teamcityTags k where
  test := h1
  section' _ := h2
  file _ := h3
  sectionFile _ := h3
  duration _ := h4
  capture c hc x hx t ht := by
    rcases plainProgram_story c hc x hx with rfl | rfl | rfl | rfl <;> cases ht
  skip c hc ctx m hx := by
    rcases plainProgram_story c hc _ hx with h | h | h | h <;> cases h
  data c hc ok ctx d hx := by
    rcases plainProgram_story c hc _ hx with h | h | h | h <;> cases h
    · exact h5 _ (List.mem_cons_self ..)
    · exact h5 _ (List.mem_cons_of_mem _ (List.mem_cons_self ..))

open Defaults in
/-- With `-v high --color always`: the lines of the report, once colour codes are taken away. -/
example : ∃ w name tests d report, Whole.main plainProgram 5 (fun _ => true) "bin/prog.exe".toList
      (["-v", "high", "--color", "always"].map String.toList) = some (.ok (1, w)) ∧ Shows w report none ∧
    Console.strip report = Console.unlines (reportLines plainProgram.src teamcityLimits 2 name teamcityTags tests false d) := by
  obtain ⟨code, w, report, name, d, sel, tests, h1, h2, h3, h4, h5, -, -, h6⟩ := C93_console plainProgram_roomy
    (by unfold Console.LimitsOk; decide) (opens := fun _ => true) "bin/prog.exe".toList
    (argv := ["-v", "high", "--color", "always"].map String.toList) (by decide) teamcityTags teamcity_sound
    plainProgram_countable (ts := _) rfl (by decide) (by decide) (by intro path h; cases h) (by decide)
    (plainProgram_meets (by simp only [consoleConditions]; decide) (by simp only [consoleConditions]; decide) trivial
      (by simp only [consoleConditions]; decide) (by simp only [consoleConditions]; decide))
    (fun name h => by rw [named_prog h]; decide) (by decide)
    (fun _ => ⟨plainProgram_meets (by simp only [escapeFree]; decide) (by simp only [escapeFree]; decide)
      (by simp only [escapeFree]; decide) (by simp only [escapeFree]; decide) (by simp only [escapeFree]; decide),
      by decide, fun name h => by rw [named_prog h]; decide⟩)
  have hsel := teamcity_selected h3
  have hcode : code = 1 := by
    rcases h4 with rfl | rfl
    · have := h5.1 rfl teamcityCases[2] (by simp [plainProgram, exampleProgram, teamcityCases]) (by
        have : teamcityCases[2] ∈ teamcityCases.filter sel := by rw [hsel]; simp
        exact (List.mem_filter.1 this).2)
      exact absurd rfl this
    · rfl
  subst hcode
  exact ⟨w, name, tests, d, report, h1, h2, h6⟩

open Defaults in
/-- With `-r teamcity -x`: a warning, and the messages. -/
example : ∃ w name tests code report, Whole.main plainProgram 5 (fun _ => true) "bin/prog.exe".toList
      (["-r", "teamcity", "-x"].map String.toList) = some (.ok (code, w)) ∧
    Shows w ("warning: unknown command line argument '-x'\n".toList ++ report) none ∧
    TeamCity.messages report = some (reportMessages plainProgram.src teamcityLimits 2 name [] teamcityTags tests) := by
  obtain ⟨code, w, report, name, sel, tests, h1, h2, -, -, -, -, -, h3⟩ := C93_teamcity plainProgram_roomy
    (by unfold TeamCity.LimitsOk; decide) (opens := fun _ => true) "bin/prog.exe".toList
    (argv := ["-r", "teamcity", "-x"].map String.toList) (by decide) teamcityTags teamcity_sound
    plainProgram_countable (ts := _) rfl (by decide) (by decide) (by intro path h; cases h) (by decide)
    (plainProgram_meets (by simp only [teamcityConditions, TeamCity.Short]; decide)
      (by simp only [teamcityConditions, TeamCity.Plain]; decide)
      (by simp only [teamcityConditions, TeamCity.Short]; decide) trivial
      (by simp only [teamcityConditions, TeamCity.Plain, TeamCity.Short]; decide))
    (fun name h => by rw [named_prog h]; simp only [TeamCity.Short]; decide)
  exact ⟨w, name, tests, code, report, h1, h2, h3⟩

open Defaults in
/-- With `-r xml -o f`: a document, with one failure of three assertions. -/
example : ∃ w name code report tests counts, Whole.main plainProgram 5 (fun _ => true) "bin/prog.exe".toList
      (["-r", "xml", "-o", "f"].map String.toList) = some (.ok (code, w)) ∧ Shows w [] (some ("f".toList, report)) ∧
    document report = some (runNode teamcityLimits name [] (tests.map (·.2)) tests.length
      (ending teamcityTags .failed tests) (ending teamcityTags .allowedFail tests) (ending teamcityTags .skipped tests)
      counts) ∧
    counts.all = 3 ∧ counts.failed = 1 ∧ counts.allowed = 0 := by
  obtain ⟨code, w, report, name, sel, tests, counts, h1, h2, h3, -, -, -, h4, h5, -, h6, h7, h8⟩ :=
    C93_xml plainProgram_roomy (by unfold LimitsOk; decide) (opens := fun _ => true) "bin/prog.exe".toList
    (argv := ["-r", "xml", "-o", "f"].map String.toList) (by decide) teamcityTags teamcity_sound
    plainProgram_countable (by
      intro c hc
      refine C83_nested_once (teamcity_sound c hc) ?_
      simp only [plainProgram, exampleProgram, teamcityCases, List.mem_cons, List.not_mem_nil, or_false] at hc
      rcases hc with rfl | rfl | rfl <;> exact Run.always_one (by simp [Run.Spec.Once, Run.Spec.leaves]))
    (ts := _) rfl (by decide) (by decide)
    (by intro path h; obtain rfl : "f".toList = path := Option.some.inj h; decide) (by decide)
    (plainProgram_meets (by simp only [xmlConditions, Short]; decide) (by simp only [xmlConditions, Short]; decide)
      (by simp only [xmlConditions, Short]; decide) (by simp only [xmlConditions, Plain]; decide)
      (by simp only [xmlConditions, DataOk, Plain, Short]; decide))
    (fun name h => by rw [named_prog h]; simp only [Short]; decide) (by simp only [Short]; decide)
  have hsel := teamcity_selected h3
  have hmap : ∀ f : Reg.Case → Nat, (tests.map fun q => f q.1) = [f teamcityCases[0], f teamcityCases[2]] := by
    intro f
    have := congrArg (List.map f) (h4.trans hsel)
    rw [List.map_map] at this
    exact this
  rw [hmap fun c => assertions c.test (teamcityTags c)] at h6
  rw [hmap fun c => realFailures c.test (teamcityTags c)] at h7
  rw [hmap fun c => failuresIn c.test (teamcityTags c)] at h8
  have h7' : counts.failed = 1 := h7.trans (by decide)
  have h8' : counts.failed + counts.allowed = 1 := h8.trans (by decide)
  exact ⟨w, name, code, report, tests, counts, h1, h2, h5, h6.trans (by decide), h7', by omega⟩

end Verif.Props
