import Verif.Lemmas.Narration
import Verif.Props.Document
/-!
# C84, C85: what the console report and the TeamCity report say about a run
-/
namespace Verif.Props
open Verif.Events Verif.Events.Spec Verif.Report Verif.Report.Spec

/-- What is told about tests, as lines and as messages. -/
private theorem narrated [Run.MessageLimit] (src : Source) (rl : Report.Limits) {lim : Reg.Limits} {fuel v : Nat}
    (tags : Reg.Case → List Text) : ∀ parts : List Part, (∀ p ∈ parts, Sound lim fuel p.test.test (tags p.test)) →
    (∀ p ∈ parts, Run.run { lim.cfg with verbosity := v } fuel p.test.test = some (.ok p.result) ∧
        p.result.state = Run.Spec.verdictOf p.test.test (tags p.test) ∧ Tells src p.test.test p.result p.events) →
    ∃ tests : List (Reg.Case × Duration), tests.map (·.1) = parts.map (·.test) ∧
      (parts.flatMap (·.events)).flatMap (fun e => Console.told rl 0 e.console) =
        tests.flatMap (fun p => testLines src rl v p.1.test (tags p.1) p.2.text) ∧
      (2 ≤ v → (parts.flatMap (·.events)).flatMap (fun e => TeamCity.told rl e.report) =
        tests.flatMap (fun p => testMessages src rl v p.1.test (tags p.1) p.2.micros)) ∧
      (∀ e ∈ parts.flatMap (·.events), ∀ n, Console.told rl n e.console = Console.told rl 0 e.console) ∧
      (2 ≤ v → tests.map (·.2) = testDurations (parts.flatMap (·.events))) := by
  intro parts
  induction parts with
  | nil => intro _ _; exact ⟨[], rfl, rfl, fun _ => rfl, by simp, fun _ => rfl⟩
  | cons p parts ih =>
    intro hs hp
    obtain ⟨tests, h1, h2, h3, h4, h5⟩ := ih (fun q hq => hs q (by simp [hq])) (fun q hq => hp q (by simp [hq]))
    have hs := hs p (by simp)
    obtain ⟨hr, hst, ht⟩ := hp p (by simp)
    obtain ⟨ps, hps, hmay, hshould⟩ := special_of_tagged hs.tags
    obtain ⟨s, e, _, hl⟩ := C67_verdict (cfg := { lim.cfg with verbosity := v }) hs.alike hs.sections hs.captures hs.tags hs.tidy hs.fuel
    rw [hr] at e
    cases e
    have hflags := flags_exact (cfg := { lim.cfg with verbosity := v }) (ps := ps) ⟨hs.alike, hs.sections, hs.captures, hps⟩ hs.tidy
      hs.fuel hr
    rw [hmay, hshould] at hflags
    obtain ⟨mid, counts, state, d, hes, hmid⟩ := parts_of_test (cfg := { lim.cfg with verbosity := v }) hr ht
    dsimp only at hes
    have hright : ∀ e ∈ p.events, Right (declared src p.test.test) (src.loc p.test.test.loc)
        (failsAsExpected p.test.test (tags p.test)) (Run.Spec.hasTag (tags p.test) "!mayfail") e := by
      intro e he
      refine ⟨ht.about e he, fun x hx => hflags x ?_⟩
      rw [← ht.failures]
      exact List.mem_filterMap.2 ⟨e, he, hx⟩
    have hmem : ∀ e ∈ mid, e ∈ p.events := by intro e he; rw [hes]; simp [he]
    have hheard : mid.filterMap heard = toldOf src v p.test.test (tags p.test) := by
      have := ht.heard
      rw [hl, hes] at this
      rw [← show _ = toldOf src v p.test.test (tags p.test) from this]
      by_cases hv : 2 ≤ v
      · simp only [if_pos hv, List.filterMap_append, List.filterMap_cons, heard, List.filterMap_nil, List.nil_append,
          List.append_nil]
      · simp only [if_neg hv, List.nil_append, List.append_nil]
    have hlines : mid.flatMap (fun e => Console.told rl 0 e.console) = (toldOf src v p.test.test (tags p.test)).flatMap
        (Heard.lines (declared src p.test.test) (failureWord p.test.test (tags p.test))) := by
      rw [← hheard, List.flatMap_def, List.flatMap_def]
      congr 1
      refine map_heard _ _ fun e he => ?_
      obtain ⟨x, hx⟩ := hmid e he
      exact ⟨x, hx, lines_of_heard rl (hright e (hmem e he)) hx⟩
    have hmessages : mid.flatMap (fun e => TeamCity.told rl e.report) = (toldOf src v p.test.test (tags p.test)).map
        (Heard.message (declared src p.test.test)
          (!failsAsExpected p.test.test (tags p.test) && !Run.Spec.hasTag (tags p.test) "!mayfail")) := by
      rw [← hheard, ← List.flatMap_singleton' (List.map _ _), List.flatMap_map, List.flatMap_def, List.flatMap_def]
      congr 1
      refine map_heard _ _ fun e he => ?_
      obtain ⟨x, hx⟩ := hmid e he
      exact ⟨x, hx, message_of_heard rl (hright e (hmem e he)) hx⟩
    refine ⟨(p.test, d) :: tests, by simp [h1], ?_, ?_, ?_, ?_⟩
    · rw [List.flatMap_cons, List.flatMap_cons, List.flatMap_append, h2]
      congr 1
      rw [hes, List.flatMap_append, List.flatMap_append, hlines]
      unfold testLines
      by_cases hv : 2 ≤ v
      · simp only [if_pos hv]; rfl
      · simp only [if_neg hv]; rfl
    · intro hv
      rw [List.flatMap_cons, List.flatMap_cons, List.flatMap_append, h3 hv]
      congr 1
      rw [hes, List.flatMap_append, List.flatMap_append, hmessages]
      unfold testMessages
      simp only [if_pos hv]
      rfl
    · intro e he n
      rw [List.flatMap_cons, List.mem_append] at he
      rcases he with he | he
      · have := ht.about e he
        cases e <;> first | rfl | cases this
      · exact h4 e he n
    · intro hv
      have hm := durations_inner hmid
      have h5 := h5 hv
      unfold testDurations at h5 hm ⊢
      rw [List.flatMap_cons, List.filterMap_append, List.map_cons, h5, hes, if_pos hv, if_pos hv]
      simp [List.filterMap_append, hm]

/-- The numbers at the end of a run. -/
private theorem numbers_of_run [Run.MessageLimit] (tags : Reg.Case → List Text) {st : Run.CaseState} {α : Type} (parts : List (Reg.Case × α)) :
    (parts.filter fun p => Run.Spec.verdictOf p.1.test (tags p.1) = st).length = endings tags st (parts.map (·.1)) ∧
    (parts.map fun p => assertions p.1.test (tags p.1)).sum =
      ((parts.map (·.1)).map fun c => assertions c.test (tags c)).sum := by
  constructor
  · rw [endings, List.filter_map, List.length_map]; rfl
  · rw [List.map_map]; rfl

/-- The events of a run, as lines and as messages. -/
private theorem main_narrated [Run.MessageLimit] (src : Source) {lim : Reg.Limits} {fuel maxArgs : Nat} (reporters : List Text)
    (init : Nat → Nat → Nat) (config : Cli.Config) (argv0 : Text) {argv : List Text} {cases : List Reg.Case}
    (hlen : argv.length ≤ maxArgs) (tags : Reg.Case → List Text) (hcases : ∀ c ∈ cases, Sound lim fuel c.test (tags c))
    {ts : List Cli.Spec.Token} (hts : Cli.Spec.tokens argv = some ts) (hn : (Cli.Spec.optionNames ts).Nodup)
    (hno : ∀ l ∈ listing, l ∉ Cli.Spec.optionNames ts) (rl : Report.Limits) :
    ∃ (code v : Nat) (es : List Events.Event) (sel : Reg.Case → Bool) (name : Text) (tests : List (Reg.Case × Duration))
      (duration : Duration),
      Events.main src lim fuel maxArgs reporters init config argv0 argv cases = some (.ok (code, es.map .event)) ∧
      v = verbosityOfRun reporters init config ts ∧
      (∀ c ∈ cases, sel c = true ↔
        Verif.Spec.Selected (Cli.Spec.positionalsOf ts) ⟨Reg.Spec.fullName c.test.id, tags c⟩) ∧
      (∃ file, Cli.Spec.IsFileName argv0 file ∧ Cli.Spec.IsStem file name) ∧
      tests.map (·.1) = cases.filter sel ∧
      (∀ e ∈ es, ∀ n, Console.told rl n e.console = Console.told rl 0 e.console) ∧
      es.flatMap (fun e => Console.told rl 0 e.console) = reportLines src rl v name tags
        (tests.map fun p => (p.1, p.2.text)) (decide (code = 0)) duration.text ∧
      (2 ≤ v → es.flatMap (fun e => TeamCity.told rl e.report) = reportMessages src rl v name (Cli.Spec.positionalsOf ts) tags
        (tests.map fun p => (p.1, p.2.micros))) ∧
      (2 ≤ v → tests.map (·.2) = testDurations es) ∧ (1 ≤ v → [duration] = runDurations es) := by
  obtain ⟨v, pred, cases', log, success, es, parts, run, fail, allowedFail, skip, counts, d, hv, hsel, hrun, hreg, hmain, hes,
    hlog, hparts, hp⟩ := main_told src reporters init config argv0 hlen tags hcases hts hn hno
  obtain ⟨code, v', es', sel, name, parts', k1, k2, k3, k4, k5, k6, k7, k8⟩ := C80_run_partial src reporters init config argv0
    hlen tags hcases hts hn hno
  rw [hmain] at k1
  simp only [Option.some.injEq, Outcome.ok.injEq, Prod.mk.injEq] at k1
  obtain ⟨rfl, hl⟩ := k1
  obtain rfl : es = es' := (List.map_inj_right fun a b h => by cases h; rfl).1 hl
  rw [← hv] at k2
  obtain rfl : v = v' := k2.symm
  have hfilter : cases.filter (fun c => decide (pred c.test.id = .ok true)) = cases.filter sel := by
    refine List.filter_congr fun c hc => ?_
    obtain ⟨b, hb, hb'⟩ := hsel c hc
    rw [Bool.eq_iff_iff, k3 c hc, ← hb', hb]
    cases b <;> simp
  have hmem : ∀ p ∈ parts, p.test ∈ cases := by
    intro p hpm
    have : p.test ∈ parts.map (·.test) := List.mem_map.2 ⟨p, hpm, rfl⟩
    rw [hparts] at this
    exact (List.mem_filter.1 this).1
  obtain ⟨tests, t1, t2, t3, t4, t5⟩ := narrated src rl tags parts (fun p hpm => hcases _ (hmem p hpm)) hp
  have htests : tests.map (·.1) = cases.filter sel := by rw [t1, hparts, hfilter]
  have hsame : (tests.map fun p => (p.1, p.2.text)).map (·.1) = parts'.map (·.1) := by
    rw [k5, ← htests, List.map_map]; rfl
  refine ⟨_, v, es, sel, Cli.extractExecutable argv0, tests, d, hmain, hv, k3, C50_executable argv0, htests, ?_, ?_, ?_,
    ?_, ?_⟩
  · intro e he n
    rw [hes] at he
    simp only [List.mem_append] at he
    rcases he with (he | he) | he
    · split at he
      · simp only [List.mem_singleton] at he; subst he; rfl
      · cases he
    · exact t4 e he n
    · split at he
      · simp only [List.mem_singleton] at he; subst he; rfl
      · cases he
  · by_cases hv1 : 1 ≤ v
    · obtain ⟨counts', d', e, c1, c2, c3⟩ := k8 hv1
      have hes' := hes
      rw [if_pos hv1, if_pos hv1, List.singleton_append] at hes'
      rw [hes', List.cons_append, List.cons_append, List.cons.injEq] at e
      obtain ⟨e1, e2⟩ := e
      obtain ⟨e2, e3⟩ := List.append_inj' e2 rfl
      simp only [List.cons.injEq, Events.Event.runEnded.injEq, and_true] at e3
      obtain ⟨-, -, rfl, rfl, rfl, rfl, rfl, -, hs⟩ := e3
      rw [hes', List.flatMap_append, List.flatMap_cons, t2]
      unfold reportLines
      dsimp only
      rw [if_pos hv1, if_pos hv1, hsame, List.flatMap_map, List.length_map, ← (numbers_of_run (st := .success) tags parts').2,
        ← c1, ← (numbers_of_run tags parts').1, ← (numbers_of_run tags parts').1, ← hs]
      rfl
    · rw [hes, if_neg hv1, if_neg hv1, List.nil_append, List.append_nil, t2]
      unfold reportLines
      dsimp only
      rw [if_neg hv1, if_neg hv1, List.flatMap_map, List.nil_append, List.append_nil]
  · intro hv2
    rw [hes, if_pos (by omega), if_pos (by omega), List.flatMap_append, List.flatMap_append, t3 hv2]
    unfold reportMessages
    rw [List.flatMap_map]
    rfl
  · intro hv2
    rw [t5 hv2, hes, if_pos (by omega), if_pos (by omega)]
    unfold testDurations
    simp
  · intro hv1
    have hnone : runDurations (parts.flatMap (·.events)) = [] := by
      unfold runDurations
      rw [List.filterMap_eq_nil_iff]
      intro e he
      obtain ⟨p, hpm, he⟩ := List.mem_flatMap.1 he
      have := (hp p hpm).2.2.about e he
      cases e <;> first | rfl | cases this
    rw [hes, if_pos hv1, if_pos hv1]
    unfold runDurations at hnone ⊢
    simp only [List.filterMap_append, hnone]
    rfl

/-- **C84**. With the console reporter, at any verbosity, if the texts fit in the buffers of the reporter: without colours the
report is, line by line, what `reportLines` says about the selected tests, in the order of registration, and about the run, with
the durations told by the events; with colours it is the same with codes for colours in it. -/
theorem C84_report [Run.MessageLimit] (src : Source) {lim : Reg.Limits} {fuel maxArgs : Nat} (reporters : List Text)
    (init : Nat → Nat → Nat) (config : Cli.Config) (argv0 : Text) {argv : List Text} {cases : List Reg.Case}
    (hlen : argv.length ≤ maxArgs) (tags : Reg.Case → List Text) (hcases : ∀ c ∈ cases, Sound lim fuel c.test (tags c))
    {ts : List Cli.Spec.Token} (hts : Cli.Spec.tokens argv = some ts) (hn : (Cli.Spec.optionNames ts).Nodup)
    (hno : ∀ l ∈ listing, l ∉ Cli.Spec.optionNames ts)
    {rl : Report.Limits} (hrl : Console.LimitsOk rl) :
    ∃ (code : Nat) (es : List Events.Event) (sel : Reg.Case → Bool) (name : Text) (tests : List (Reg.Case × Text))
      (duration : Text),
      Events.main src lim fuel maxArgs reporters init config argv0 argv cases = some (.ok (code, es.map .event)) ∧
      (∀ c ∈ cases, sel c = true ↔
        Verif.Spec.Selected (Cli.Spec.positionalsOf ts) ⟨Reg.Spec.fullName c.test.id, tags c⟩) ∧
      (∃ file, Cli.Spec.IsFileName argv0 file ∧ Cli.Spec.IsStem file name) ∧
      tests.map (·.1) = cases.filter sel ∧
      (2 ≤ verbosityOfRun reporters init config ts → tests.map (·.2) = (testDurations es).map (·.text)) ∧
      (1 ≤ verbosityOfRun reporters init config ts → [duration] = (runDurations es).map (·.text)) ∧
      ((∀ e ∈ es, Console.EventOk rl e.console) → es.length < 2 ^ 64 →
        (∃ st, Report.Console.reportAll rl false (es.map Event.console) {} = .ok st ∧
          st.out = Console.unlines (reportLines src rl (verbosityOfRun reporters init config ts) name tags tests
            (decide (code = 0)) duration)) ∧
        ((∀ e ∈ es, Console.Without rl '\x1b' e.console) →
          ∃ st, Report.Console.reportAll rl true (es.map Event.console) {} = .ok st ∧
          Console.strip st.out = Console.unlines (reportLines src rl (verbosityOfRun reporters init config ts) name tags tests
            (decide (code = 0)) duration))) := by
  obtain ⟨code, v, es, sel, name, tests, d, h1, hv, h2, h3, h4, h5, h6, -, h7, h8⟩ := main_narrated src reporters init config argv0 hlen
    tags hcases hts hn hno rl
  refine ⟨code, es, sel, name, tests.map fun p => (p.1, p.2.text), d.text, h1, h2, h3, by rw [List.map_map]; exact h4, ?_, ?_, ?_⟩
  · intro h; rw [← h7 (hv ▸ h), List.map_map, List.map_map]; rfl
  · intro h; rw [← h8 (hv ▸ h)]; rfl
  intro hok hlen'
  have hlines : Console.toldAll rl 0 (es.map Event.console) = reportLines src rl v name tags
      (tests.map fun p => (p.1, p.2.text)) (decide (code = 0)) d.text := by
    rw [toldAll_unlisted rl (by simpa using h5), List.flatMap_map]
    exact h6
  obtain ⟨st, k1, k2⟩ := C57_text hrl (es.map Event.console) (by simpa using hok) (by simpa using hlen')
  rw [hlines, hv] at k2
  refine ⟨⟨st, k1, k2⟩, fun hw => ?_⟩
  obtain ⟨plain, colored, c1, c2, -, c3, -⟩ := C58_colors hrl (es.map Event.console) (by simpa using hok) (by simpa using hlen')
    (by simpa using hw)
  rw [k1] at c1
  cases c1
  exact ⟨colored, c2, by rw [c3, k2]⟩

/-- **C85** (verbosity). With the TeamCity reporter the verbosity of the run is the one asked for, but at least high. -/
theorem C85_verbosity {reporters : List Text} {init : Nat → Nat → Nat} {config : Cli.Config} {ts : List Cli.Spec.Token}
    {i : Nat} (hi : Configure.Spec.choice reporters (Cli.Spec.given "--reporter" ts) = some i)
    (hinit : init i = Report.TeamCity.initVerbosity) :
    verbosityOfRun reporters init config ts =
      max ((Cli.Spec.verbosityOf (Cli.Spec.given "--verbosity" ts)).getD config.verbosity) 2 := by
  unfold verbosityOfRun
  rw [hi, Option.some_or]
  dsimp only
  rw [hinit]
  unfold Report.TeamCity.initVerbosity
  split <;> omega

/-- **C85**. With the TeamCity reporter, if the texts fit in the buffers of the reporter: the messages in the report are exactly
those that `reportMessages` says about the selected tests, in the order of registration, and about the run, with the durations
told by the events. -/
theorem C85_report [Run.MessageLimit] (src : Source) {lim : Reg.Limits} {fuel maxArgs : Nat} (reporters : List Text)
    (init : Nat → Nat → Nat) (config : Cli.Config) (argv0 : Text) {argv : List Text} {cases : List Reg.Case}
    (hlen : argv.length ≤ maxArgs) (tags : Reg.Case → List Text) (hcases : ∀ c ∈ cases, Sound lim fuel c.test (tags c))
    {ts : List Cli.Spec.Token} (hts : Cli.Spec.tokens argv = some ts) (hn : (Cli.Spec.optionNames ts).Nodup)
    (hno : ∀ l ∈ listing, l ∉ Cli.Spec.optionNames ts) {i : Nat}
    (hi : Configure.Spec.choice reporters (Cli.Spec.given "--reporter" ts) = some i)
    (hinit : init i = Report.TeamCity.initVerbosity)
    {rl : Report.Limits} (hrl : TeamCity.LimitsOk rl) :
    ∃ (code : Nat) (es : List Events.Event) (sel : Reg.Case → Bool) (name : Text) (tests : List (Reg.Case × Nat)),
      Events.main src lim fuel maxArgs reporters init config argv0 argv cases = some (.ok (code, es.map .event)) ∧
      (∀ c ∈ cases, sel c = true ↔
        Verif.Spec.Selected (Cli.Spec.positionalsOf ts) ⟨Reg.Spec.fullName c.test.id, tags c⟩) ∧
      (∃ file, Cli.Spec.IsFileName argv0 file ∧ Cli.Spec.IsStem file name) ∧
      tests.map (·.1) = cases.filter sel ∧ tests.map (·.2) = (testDurations es).map (·.micros) ∧
      ((∀ e ∈ es, TeamCity.EventOk rl e.report) →
        ∃ rep, Report.TeamCity.reportAll rl (es.map Event.report) {} = .ok rep ∧
          TeamCity.messages rep.out = some (reportMessages src rl (verbosityOfRun reporters init config ts) name
            (Cli.Spec.positionalsOf ts) tags tests)) := by
  obtain ⟨code, v, es, sel, name, tests, d, h1, hv, h2, h3, h4, -, -, h6, h7, -⟩ := main_narrated src reporters init config argv0 hlen
    tags hcases hts hn hno rl
  have hv2 : 2 ≤ v := by
    rw [hv]
    unfold verbosityOfRun
    rw [hi, Option.some_or]
    dsimp only
    rw [hinit]
    unfold Report.TeamCity.initVerbosity
    split <;> omega
  refine ⟨code, es, sel, name, tests.map fun p => (p.1, p.2.micros), h1, h2, h3, by rw [List.map_map]; exact h4, ?_, ?_⟩
  · rw [← h7 hv2, List.map_map, List.map_map]; rfl
  intro hok
  obtain ⟨rep, k1, k2⟩ := C42_messages hrl (es.map Event.report) (by simpa using hok)
  refine ⟨rep, k1, ?_⟩
  rw [k2, List.flatMap_map, ← hv]
  exact congrArg some (h6 hv2)

/-! ## Examples -/

/-- Of the tests of C55, the first and the last are selected. -/
theorem teamcity_selected {sel : Reg.Case → Bool} (h : ∀ c ∈ teamcityCases, sel c = true ↔
    Verif.Spec.Selected [] ⟨Reg.Spec.fullName c.test.id, teamcityTags c⟩) :
    teamcityCases.filter sel = [teamcityCases[0], teamcityCases[2]] := by
  have s0 : sel teamcityCases[0] = true := (h _ (by simp [teamcityCases])).2 ⟨by simp, by
    rintro ⟨x, hx, _⟩; cases hx⟩
  have s1 : sel teamcityCases[1] ≠ true := fun hs => by
    obtain ⟨f, hf, _⟩ := ((h _ (by simp [teamcityCases])).1 hs).2 ⟨".".toList, by decide, by simp [Verif.Spec.Hides]⟩
    cases hf
  have s2 : sel teamcityCases[2] = true := (h _ (by simp [teamcityCases])).2 ⟨by simp, by
    rintro ⟨x, hx, h⟩
    have : x = "x".toList := List.mem_singleton.1 hx
    subst this
    exact absurd h (by simp [Verif.Spec.Hides])⟩
  show [teamcityCases[0], teamcityCases[1], teamcityCases[2]].filter sel = _
  simp [s0, s1, s2]

open Defaults in
/-- The hypotheses of `C84_report` hold for the program with the tests of C55, started with `-v high`. -/
example : ∃ st name tests d, Report.Console.reportAll teamcityLimits false (exampleEvents.map Event.console) {} = .ok st ∧
    st.out = Console.unlines (reportLines exampleSource teamcityLimits 2 name teamcityTags tests false d) ∧
    tests.map (·.1) = [teamcityCases[0], teamcityCases[2]] := by
  obtain ⟨code, es, sel, name, tests, d, h1, h2, -, h4, -, -, h5⟩ := C84_report exampleSource
    (maxArgs := 1024) exampleReporters exampleInit (initialConfig false) "bin/prog.exe".toList
    (argv := ["-v", "high"].map String.toList) (by decide) teamcityTags teamcity_sound (ts := _) rfl (by decide) (by decide)
    (rl := teamcityLimits) (by unfold Console.LimitsOk teamcityLimits; decide)
  rw [exampleMain] at h1
  simp only [Option.some.injEq, Outcome.ok.injEq, Prod.mk.injEq] at h1
  obtain ⟨rfl, hl⟩ := h1
  obtain rfl : exampleEvents = es := (List.map_inj_right fun a b h => by cases h; rfl).1 hl
  obtain ⟨st, k1, k2⟩ := (h5 exampleEvents_ok.1 (by decide)).1
  exact ⟨st, name, tests, d, k1, k2, by rw [h4]; exact teamcity_selected h2⟩

open Defaults in
/-- These are the lines. -/
example : reportLines exampleSource teamcityLimits 2 "prog".toList teamcityTags
    [(teamcityCases[0], "0.5".toList), (teamcityCases[2], "0.5".toList)] false "0.5".toList =
    ["starting prog with snitch v1.3.2", "==========================================", "starting: first at f.cpp:1",
      "finished: first (0.5s)", "starting: it's third at f.cpp:1", "entering section: s at f.cpp:1",
      "failed: running test case \"it's third\"", "          in section \"s\"", "          at f.cpp:2",
      "          CHECK(a[0] == 1), got: x", "leaving section: s", "finished: it's third (0.5s)",
      "==========================================",
      "error: some tests failed (1 out of 2 test cases, 3 assertions, 0.5 seconds)"].map String.toList := by decide +kernel

open Defaults in
/-- The hypotheses of `C85_report` hold for it with `-r teamcity`. -/
example : ∃ rep name tests, Report.TeamCity.reportAll teamcityLimits (exampleEvents.map Event.report) {} = .ok rep ∧
    TeamCity.messages rep.out = some (reportMessages exampleSource teamcityLimits 2 name [] teamcityTags tests) ∧
    tests.map (·.1) = [teamcityCases[0], teamcityCases[2]] := by
  obtain ⟨code, es, sel, name, tests, h1, h2, -, h4, -, h5⟩ := C85_report exampleSource
    (maxArgs := 1024) exampleReporters exampleInit (initialConfig false) "bin/prog.exe".toList
    (argv := ["-r", "teamcity"].map String.toList) (by decide) teamcityTags teamcity_sound (ts := _) rfl (by decide)
    (by decide) (i := 1) (by decide) rfl (rl := teamcityLimits) (by unfold TeamCity.LimitsOk teamcityLimits; decide)
  rw [exampleMain_reporter "teamcity" (by simp)] at h1
  simp only [Option.some.injEq, Outcome.ok.injEq, Prod.mk.injEq] at h1
  obtain ⟨rfl, hl⟩ := h1
  obtain rfl : exampleEvents = es := (List.map_inj_right fun a b h => by cases h; rfl).1 hl
  obtain ⟨rep, k1, k2⟩ := h5 (by
    simp only [exampleEvents, List.forall_mem_cons]
    refine ⟨?_, ?_, ?_, ?_, ?_, ?_, ?_, ?_, ?_, by simp⟩
    all_goals simp only [Event.report, TeamCity.EventOk, TeamCity.AssertionOk]
    all_goals decide)
  exact ⟨rep, name, tests, k1, k2, by rw [h4]; exact teamcity_selected h2⟩

open Defaults in
/-- These are the messages. -/
example : reportMessages exampleSource teamcityLimits 2 "prog".toList [] teamcityTags
    [(teamcityCases[0], 500000), (teamcityCases[2], 500000)] =
    [("testSuiteStarted", [("name", "prog")]), ("testStarted", [("name", "first")]),
      ("testFinished", [("name", "first"), ("duration", "500000")]), ("testStarted", [("name", "it's third")]),
      ("blockOpened", [("name", "s"), ("description", "")]),
      ("testFailed", [("name", "it's third"), ("message", "f.cpp:2\n  CHECK(a[0] == 1), got: x")]),
      ("blockClosed", [("name", "s")]), ("testFinished", [("name", "it's third"), ("duration", "500000")]),
      ("testSuiteFinished", [("name", "prog")])].map
        fun m => ⟨m.1.toList, m.2.map fun a => (a.1.toList, a.2.toList)⟩ := by decide +kernel

open Defaults in
/-- A test that should fail: if it does, its failures are expected, and the last check (the one before says that the body ended) passes; otherwise that check is a
failure, which is not expected. -/
example : (testLines exampleSource teamcityLimits 3 shouldFailCase.test ["!shouldfail".toList] []).filter
      (fun l => l.getLast? = some '"') = ["expected failure: running test case \"t\"".toList,
        "passed: running test case \"t\"".toList, "passed: running test case \"t\"".toList] ∧
    (testLines exampleSource teamcityLimits 3 (mkTest "t" "[!shouldfail]" .done) ["!shouldfail".toList] []).filter
      (fun l => l.getLast? = some '"') = ["passed: running test case \"t\"".toList,
        "failed: running test case \"t\"".toList] := by decide +kernel

/-- The verbosity is raised from the initial one, normal, to high; full is kept. -/
example : verbosityOfRun exampleReporters exampleInit (initialConfig false)
      ((Cli.Spec.tokens (["-r", "teamcity"].map String.toList)).getD []) = 2 ∧
    verbosityOfRun exampleReporters exampleInit (initialConfig false)
      ((Cli.Spec.tokens (["-r", "teamcity", "-v", "full"].map String.toList)).getD []) = 3 :=
  ⟨(C85_verbosity (i := 1) (by decide) rfl).trans (by decide), (C85_verbosity (i := 1) (by decide) rfl).trans (by decide)⟩

end Verif.Props
