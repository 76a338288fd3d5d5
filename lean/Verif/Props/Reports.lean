import Verif.Props.Program
import Verif.Props.Xml
/-!
# C67: the result of the whole program with the XML and TeamCity reporters
-/
namespace Verif.Props
open Verif Verif.Run Verif.Run.Spec Verif.Reg Verif.Reg.Spec

/-- The results of the tests that ran, in terms of what happens in them. -/
private theorem states_of_runs [Run.MessageLimit] {cfg : Cfg} {fuel : Nat} {tags : Case → List Text} {all : List Case}
    (hruns : ∀ c ∈ all, ∃ s, run cfg fuel c.test = some (.ok s) ∧ s.state = verdictOf c.test (tags c)) :
    ∀ {cs : List Case} {rs : List TS}, (∀ c ∈ cs, c ∈ all) →
      cs.map (fun c => run cfg fuel c.test) = rs.map (fun r => some (.ok r)) →
      rs.map (·.state) = cs.map fun c => verdictOf c.test (tags c)
  | [], [], _, _ => rfl
  | [], _ :: _, _, h => by simp at h
  | _ :: _, [], _, h => by simp at h
  | c :: cs, r :: rs, hin, h => by
    simp only [List.map_cons, List.cons.injEq] at h
    obtain ⟨s, a1, a2⟩ := hruns c (hin c (by simp))
    rw [a1] at h
    obtain rfl : s = r := by simpa using h.1
    rw [List.map_cons, List.map_cons, a2, states_of_runs hruns (fun d hd => hin d (by simp [hd])) h.2]

open Verif.Report Verif.Report.Spec in
/-- **C67**, **C40**. The same with the XML reporter: the report can be read back as an XML document, with one element for
each selected test, in registration order, which says whether the test is a success; that is, whether the test does what
it should. The exit status is 0 if and only if every element says so. (The section events have to be properly nested;
see `C40_run_calm` and `C40_nested_abort` for tests where they are.) -/
theorem C67_xml [Run.MessageLimit] {lim : Reg.Limits} {fuel maxArgs : Nat} (reporters : List Text) (init : Nat → Nat → Nat)
    (config : Cli.Config) (argv0 : Text) {argv : List Text} {cases : List Case} (hlen : argv.length ≤ maxArgs)
    (tags : Case → List Text) (hcases : ∀ c ∈ cases, Sound lim fuel c.test (tags c))
    {ts : List Cli.Spec.Token} (hts : Cli.Spec.tokens argv = some ts) (hn : (Cli.Spec.optionNames ts).Nodup)
    (hno : ∀ l ∈ listing, l ∉ Cli.Spec.optionNames ts) {i : Nat}
    (hi : Configure.Spec.choice reporters (Cli.Spec.given "--reporter" ts) = some i)
    (hinit : init i = Xml.initVerbosity)
    (hnest : ∀ c ∈ cases, ∀ v r, run { lim.cfg with verbosity := v } fuel c.test = some (.ok r) →
      Nested (Run.Spec.sectionMarks r.log))
    {rl : Report.Limits} (hrl : LimitsOk rl) :
    ∃ (code : Nat) (log : List Run.Event) (sel : Case → Bool),
      main lim fuel maxArgs reporters init config argv0 argv cases = some (.ok (code, log.map .event)) ∧
      (∀ c ∈ cases, sel c = true ↔
        Verif.Spec.Selected (Cli.Spec.positionalsOf ts) ⟨Reg.Spec.fullName c.test.id, tags c⟩) ∧
      ∀ es, ToldAll log es → (∀ e ∈ es, EventOk rl e) →
        ∃ rep tests name filters run fail allowedFail skip counts, Xml.reportAll rl es {} = .ok rep ∧
          document rep.out = some (runNode rl name filters tests run fail allowedFail skip counts) ∧
          tests.map testName = (cases.filter sel).map (fun c =>
            some (attr (Report.Spec.fullName ⟨c.test.id.name, c.test.id.tags, c.test.id.type, []⟩))) ∧
          tests.map testSuccess = (cases.filter sel).map (fun c =>
            some (yesNo (decide (verdictOf c.test (tags c) ≠ .failed)))) ∧
          (code = 0 ↔ ∀ t ∈ tests, testSuccess t = some "true".toList) ∧
          es.head? = some (.runStarted name filters) := by
  obtain ⟨v, pred, cases', log, success, hv, hsel, hruns, hrun, hmain⟩ := main_run reporters init config argv0 hlen tags
    hcases hts hn hno
  have hverb : ∃ w, v = Xml.initVerbosity w := by
    rw [hv]
    unfold verbosityOfRun
    rw [hi]
    exact ⟨_, by rw [Option.some_or]; dsimp only; rw [hinit]⟩
  obtain ⟨w, hw⟩ := hverb
  refine ⟨_, log, fun c => decide (pred c.test.id = .ok true), hmain, ?_, ?_⟩
  · intro c hc
    obtain ⟨b, e, h⟩ := hsel c hc
    rw [← h]
    simp [e]
  · intro es ht hok
    obtain ⟨rep, tests, name, filters, n1, n2, n3, n4, a, f, al, h1, _, h3, h4, ⟨rs, h5, h6⟩, _, hhead⟩ :=
      C40_run hrun (v := w) hw (fun c hc _ r hr => hnest c hc v r hr) hrl ht hok
    have hst := states_of_runs (fun c hc => (hruns c hc).imp fun s h => ⟨h.1, h.2.1⟩)
      (fun c hc => (List.mem_filter.mp hc).1) h5
    have hts : tests.map testSuccess = (cases.filter fun c => decide (pred c.test.id = .ok true)).map (fun c =>
        some (yesNo (decide (verdictOf c.test (tags c) ≠ .failed)))) := by
      have : (rs.map fun r => some (yesNo (decide (r.state ≠ .failed)))) =
          (rs.map (·.state)).map fun x => some (yesNo (decide (x ≠ .failed))) := by rw [List.map_map]; rfl
      rw [h6, this, hst, List.map_map]
      rfl
    refine ⟨rep, tests, name, filters, n1, n2, n3, n4, ⟨a, f, al⟩, h1, h3, h4, hts, ?_, hhead⟩
    obtain ⟨rs', r1, _, _, r4, _⟩ := C29_run hrun
    have hrs : rs' = rs := by
      have := r1.symm.trans h5
      exact List.map_inj_right (fun a b h => by simpa using h) |>.mp this
    subst hrs
    have hy : ∀ b : Bool, yesNo b = "true".toList ↔ b = true := by decide
    have hall : (∀ t ∈ tests, testSuccess t = some "true".toList) ↔ ∀ r ∈ rs', r.state ≠ .failed := by
      have e1 : (∀ t ∈ tests, testSuccess t = some "true".toList) ↔
          ∀ x ∈ tests.map testSuccess, x = some "true".toList := by simp
      rw [e1, h6]
      simp only [List.mem_map, forall_exists_index, and_imp, forall_apply_eq_imp_iff₂, Option.some.injEq, hy,
        decide_eq_true_eq]
    rw [hall, ← r4]
    cases success <;> simp

open Verif.Report Verif.Report.Spec Verif.Report.Spec.TeamCity in
/-- **C67**, **C55**. The same with the TeamCity reporter: the messages printed can be read back; between the start and the
finish of the suite there are the messages of the selected tests, in registration order, with a `testFailed` message
exactly for the tests that fail. The exit status is 0 if and only if there is no such message. -/
theorem C67_teamcity [Run.MessageLimit] {lim : Reg.Limits} {fuel maxArgs : Nat} (reporters : List Text)
    (init : Nat → Nat → Nat)
    (config : Cli.Config) (argv0 : Text) {argv : List Text} {cases : List Case} (hlen : argv.length ≤ maxArgs)
    (tags : Case → List Text) (hcases : ∀ c ∈ cases, Sound lim fuel c.test (tags c))
    {ts : List Cli.Spec.Token} (hts : Cli.Spec.tokens argv = some ts) (hn : (Cli.Spec.optionNames ts).Nodup)
    (hno : ∀ l ∈ listing, l ∉ Cli.Spec.optionNames ts) {i : Nat}
    (hi : Configure.Spec.choice reporters (Cli.Spec.given "--reporter" ts) = some i)
    (hinit : init i = TeamCity.initVerbosity)
    {rl : Report.Limits} (hrl : Report.Spec.TeamCity.LimitsOk rl) :
    ∃ (code : Nat) (log : List Run.Event) (sel : Case → Bool),
      main lim fuel maxArgs reporters init config argv0 argv cases = some (.ok (code, log.map .event)) ∧
      (∀ c ∈ cases, sel c = true ↔
        Verif.Spec.Selected (Cli.Spec.positionalsOf ts) ⟨Reg.Spec.fullName c.test.id, tags c⟩) ∧
      ∀ es, ToldAll log es → (∀ e ∈ es, Report.Spec.TeamCity.EventOk rl e) →
        ∃ rep ms name filters name' filters', TeamCity.reportAll rl es {} = .ok rep ∧
          messages rep.out = some (⟨"testSuiteStarted".toList, [("name".toList, suite name filters)]⟩ :: ms ++
            [⟨"testSuiteFinished".toList, [("name".toList, suite name' filters')]⟩]) ∧
          TestsTold ((cases.filter sel).map fun c =>
            (testFullName c.test, decide (verdictOf c.test (tags c) = .failed))) ms ∧
          (code = 0 ↔ ∀ m ∈ ms, m.name ≠ "testFailed".toList) ∧
          es.head? = some (.runStarted name filters) ∧
          ∃ run fail allowedFail skip counts, es.getLast? = some (.runEnded name' filters' run fail allowedFail skip counts) := by
  obtain ⟨v, pred, cases', log, success, hv, hsel, hruns, hrun, hmain⟩ := main_run reporters init config argv0 hlen tags
    hcases hts hn hno
  have hverb : ∃ w, v = TeamCity.initVerbosity w := by
    rw [hv]
    unfold verbosityOfRun
    rw [hi]
    exact ⟨_, by rw [Option.some_or]; dsimp only; rw [hinit]⟩
  obtain ⟨w, hw⟩ := hverb
  refine ⟨_, log, fun c => decide (pred c.test.id = .ok true), hmain, ?_, ?_⟩
  · intro c hc
    obtain ⟨b, e, h⟩ := hsel c hc
    rw [← h]
    simp [e]
  · intro es ht hok
    obtain ⟨rep, ms, name, filters, name', filters', h1, h2, h3, h4, h5, hends⟩ := C55_run (v := w) hw hrun hrl ht hok
    obtain ⟨rs, r1, _, _, _, _, _, r7, _⟩ := C29_run hrun
    have hst := states_of_runs (fun c hc => (hruns c hc).imp fun s h => ⟨h.1, h.2.1⟩)
      (fun c hc => (List.mem_filter.mp hc).1) r1
    refine ⟨rep, ms, name, filters, name', filters', h1, h2, ?_, ?_, hends⟩
    · have e : ((cases'.filter fun c => decide (pred c.test.id = .ok true)).map fun c =>
          (testFullName c.test, decide (c.state = .failed))) =
          (cases.filter fun c => decide (pred c.test.id = .ok true)).map fun c =>
            (testFullName c.test, decide (verdictOf c.test (tags c) = .failed)) := by
        have hf : ∀ l : List Case, (l.filter fun c => decide (pred c.test.id = .ok true)).map (·.test) =
            (l.map (·.test)).filter fun t => decide (pred t.id = .ok true) :=
          fun l => by rw [List.filter_map]; rfl
        have hs := (r7.trans hst)
        have hm := (hf cases').trans ((congrArg _ h4).trans (hf cases).symm)
        generalize (cases'.filter fun c => decide (pred c.test.id = .ok true)) = a at hs hm
        generalize (cases.filter fun c => decide (pred c.test.id = .ok true)) = b at hs hm
        clear h2 h3 h5
        induction a generalizing b with
        | nil => cases b with
          | nil => rfl
          | cons y b => simp at hm
        | cons x a ih => cases b with
          | nil => simp at hm
          | cons y b =>
            simp only [List.map_cons, List.cons.injEq] at hs hm ⊢
            exact ⟨by rw [hs.1, hm.1], ih b hs.2 hm.2⟩
      rw [← e]
      exact h3
    · rw [← h5]
      cases success <;> simp

/-- The section events of tests that nothing interrupts are properly nested. -/
theorem nested_of_calm [Run.MessageLimit] {lim : Reg.Limits} {fuel : Nat} {t : TestCase} {tags : List Text}
    (hs : Sound lim fuel t tags) (hc : Always Calm t.body) {v : Nat} {r : TS}
    (hr : run { lim.cfg with verbosity := v } fuel t = some (.ok r)) :
    Report.Spec.Nested (Run.Spec.sectionMarks r.log) := by
  obtain ⟨ps, hps, _, _⟩ := special_of_tagged hs.tags
  have hp := hs.fuel
  obtain ⟨s, e, hm⟩ := C21_section_events (cfg := { lim.cfg with verbosity := v }) (t := t)
    ⟨hs.alike, hs.sections, hs.captures, hps⟩ hc (fuel := fuel) (by unfold passCount at hp; omega)
  rw [hr] at e
  cases e
  rw [hm]
  split
  · exact Report.Spec.nested_brackets _
  · exact .nil

/-- The three tests of C18, of which the last one fails, run with `-r xml`: the hypotheses hold. -/
example [Run.MessageLimit] (hs : ∀ c ∈ threeTests, Sound (defaultLimits 1) 5 c.test (threeTags c)) :
    (∀ c ∈ threeTests, ∀ v r, run { (defaultLimits 1).cfg with verbosity := v } 5 c.test = some (.ok r) →
      Report.Spec.Nested (Run.Spec.sectionMarks r.log)) ∧
    ∃ ts, Cli.Spec.tokens (["-r", "xml", "~third"].map String.toList) = some ts ∧
      (Cli.Spec.optionNames ts).Nodup ∧ (∀ l ∈ listing, l ∉ Cli.Spec.optionNames ts) ∧
      Configure.Spec.choice ["console".toList, "teamcity".toList, "xml".toList] (Cli.Spec.given "--reporter" ts) =
        some 2 := by
  refine ⟨fun c hc v r hr => nested_of_calm (hs c hc) ?_ hr, _, rfl, by decide, by decide, by decide⟩
  simp only [threeTests, List.mem_cons, List.not_mem_nil, or_false] at hc
  rcases hc with rfl | rfl | rfl <;> exact always_one (by simp [Calm, calmStmt])

/-- `-r xml` and `-r teamcity` choose these reporters. -/
example : Configure.Spec.choice ["console".toList, "teamcity".toList, "xml".toList] (some "xml".toList) = some 2 ∧
    Configure.Spec.choice ["console".toList, "teamcity".toList, "xml".toList] (some "teamcity::a=b".toList) = some 1 ∧
    Configure.Spec.choice ["console".toList, "teamcity".toList, "xml".toList] (some "x".toList) = none := by
  decide

end Verif.Props
