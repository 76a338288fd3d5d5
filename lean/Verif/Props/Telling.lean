import Verif.Lemmas.Telling
import Verif.Props.Whole
/-!
# C80, C87: what is told is no more than the declarations say
-/
namespace Verif.Props
open Verif.Whole Verif.Whole.Spec Verif.Report Verif.Report.Spec Verif.Events Verif.Events.Spec

private theorem filter_or {α : Type} (f g : α → Bool) (l : List α) (h : ∀ x ∈ l, f x = true → g x = false) :
    (l.filter f).length + (l.filter g).length ≤ l.length := by
  induction l with
  | nil => simp
  | cons a l ih =>
    have := ih fun x hx => h x (by simp [hx])
    have ha := h a (by simp)
    rw [List.filter_cons, List.filter_cons, List.length_cons]
    cases hf : f a
    · cases hg : g a <;> simp <;> omega
    · rw [ha hf]; simp; omega

private theorem sum_filter {α : Type} (f : α → Nat) (p : α → Bool) (l : List α) :
    ((l.filter p).map f).sum ≤ (l.map f).sum := by
  induction l with
  | nil => simp
  | cons a l ih =>
    rw [List.filter_cons]
    split <;> simp <;> omega

/-- **C80** (nothing else is told). Every event of a run is one of those that the declarations of the tests, the name of the
program and the filters admit; and there are no more events than what happens in the tests admits. -/
theorem C80_only [Run.MessageLimit] (src : Source) {lim : Reg.Limits} {fuel maxArgs : Nat} (reporters : List Text)
    (init : Nat → Nat → Nat) (config : Cli.Config) (argv0 : Text) {argv : List Text} {cases : List Reg.Case}
    (hlen : argv.length ≤ maxArgs) (tags : Reg.Case → List Text) (hcases : ∀ c ∈ cases, Sound lim fuel c.test (tags c))
    {ts : List Cli.Spec.Token} (hts : Cli.Spec.tokens argv = some ts) (hn : (Cli.Spec.optionNames ts).Nodup)
    (hno : ∀ l ∈ listing, l ∉ Cli.Spec.optionNames ts) :
    ∃ (code : Nat) (es : List Events.Event) (name : Text) (sel : Reg.Case → Bool),
      Events.main src lim fuel maxArgs reporters init config argv0 argv cases = some (.ok (code, es.map .event)) ∧
      (∃ file, Cli.Spec.IsFileName argv0 file ∧ Cli.Spec.IsStem file name) ∧
      (∀ c ∈ cases, sel c = true ↔
        Verif.Spec.Selected (Cli.Spec.positionalsOf ts) ⟨Reg.Spec.fullName c.test.id, tags c⟩) ∧
      (∀ e ∈ es, MayTell src tags cases name (Cli.Spec.positionalsOf ts) e) ∧
      es.length ≤ eventBound tags cases ∧
      (es.filterMap failedFlags).count (false, false) = ((cases.filter sel).map fun c => realFailures c.test (tags c)).sum ∧
      (es.filterMap failedFlags).length = ((cases.filter sel).map fun c => failuresIn c.test (tags c)).sum := by
  obtain ⟨v, pred, cases', log, success, es, parts, run, fail, allowedFail, skip, counts, d, hv, hsel, hrun, hreg, hmain, hes,
    hlog, hparts, hp⟩ := main_told src reporters init config argv0 hlen tags hcases hts hn hno
  obtain ⟨code, v', es', sel, name, parts', k1, k2, k3, k4, k5, k6, k7, k8⟩ := C80_run_partial src reporters init config argv0
    hlen tags hcases hts hn hno
  have ht := main_timed hmain
  rw [hmain] at k1
  simp only [Option.some.injEq, Outcome.ok.injEq, Prod.mk.injEq] at k1
  obtain ⟨rfl, hl⟩ := k1
  obtain rfl : es = es' := (List.map_inj_right fun a b h => by cases h; rfl).1 hl
  rw [← hv] at k2
  obtain rfl : v = v' := k2.symm
  have hmem : ∀ p ∈ parts, p.test ∈ cases := by
    intro p hpm
    have : p.test ∈ parts.map (·.test) := List.mem_map.2 ⟨p, hpm, rfl⟩
    rw [hparts] at this
    exact (List.mem_filter.1 this).1
  have hfilter : cases.filter (fun c => decide (pred c.test.id = .ok true)) = cases.filter sel := by
    refine List.filter_congr fun c hc => ?_
    obtain ⟨b, hb, hb'⟩ := hsel c hc
    rw [Bool.eq_iff_iff, k3 c hc, ← hb', hb]
    cases b <;> simp
  rw [hfilter] at hparts
  have hone : ∀ p ∈ parts, OneTest src v p.test.test (tags p.test) p.events := fun p hpm =>
    oneTest_of (hcases _ (hmem p hpm)) (hp p hpm).1 (hp p hpm).2.1 (hp p hpm).2.2
  have hmay : ∀ p ∈ parts, (∀ e ∈ p.events, TestMayTell src p.test.test (tags p.test) e) ∧
      p.events.length ≤ 2 + (storyOf p.test.test (tags p.test)).length := by
    intro p hpm
    refine part_may (hcases _ (hmem p hpm)) (hp p hpm).1 (hone p hpm) (hp p hpm).2.2 fun e he => ht e ?_
    rw [hes]
    simp only [List.mem_append, List.mem_flatMap]
    exact .inl (.inr ⟨p, hpm, he⟩)
  have hflags : es.filterMap failedFlags = parts.flatMap fun p => p.events.filterMap failedFlags := by
    rw [hes, List.filterMap_append, List.filterMap_append, ← List.filterMap_flatMap]
    split <;> simp [List.filterMap_cons, failedFlags]
  have hcount : (es.filterMap failedFlags).count (false, false) =
      ((cases.filter sel).map fun c => realFailures c.test (tags c)).sum := by
    rw [hflags, List.count_flatMap, ← hparts, List.map_map]
    congr 1
    exact List.map_congr_left fun p hpm => real_eq (hcases _ (hmem p hpm)) (hp p hpm).1 (hone p hpm) (hp p hpm).2.2
  have hlength : (es.filterMap failedFlags).length =
      ((cases.filter sel).map fun c => failuresIn c.test (tags c)).sum := by
    rw [hflags, List.length_flatMap, ← hparts, List.map_map]
    congr 1
    exact List.map_congr_left fun p hpm => failures_eq (hone p hpm)
  have hle : (es.filterMap failedFlags).length ≤ (parts'.map fun q => assertions q.1.test (tags q.1)).sum := by
    have : (parts'.map fun q => assertions q.1.test (tags q.1)) =
        parts.map fun p => assertions p.test.test (tags p.test) := by
      have e := congrArg (List.map fun c : Reg.Case => assertions c.test (tags c)) (k5.trans hparts.symm)
      rw [List.map_map, List.map_map] at e
      exact e
    rw [this, hflags, List.length_flatMap]
    have : ∀ l : List Part, (∀ p ∈ l, p ∈ parts) → (l.map fun p => (p.events.filterMap failedFlags).length).sum ≤
        (l.map fun p => assertions p.test.test (tags p.test)).sum := by
      intro l hl
      induction l with
      | nil => simp
      | cons p l ih =>
        have := ih fun q hq => hl q (by simp [hq])
        have := failures_le (hone p (hl p (by simp)))
        simp only [List.map_cons, List.sum_cons]
        omega
    exact this parts fun _ h => h
  refine ⟨_, es, Cli.extractExecutable argv0, sel, hmain, C50_executable argv0, k3, ?_, ?_, hcount, hlength⟩
  · intro e he
    have hm := he
    rw [hes] at he
    simp only [List.mem_append, List.mem_flatMap] at he
    rcases he with (he | ⟨p, hpm, he⟩) | he
    · split at he
      · rw [List.mem_singleton.1 he]; exact .runStarted
      · cases he
    · exact .test (hmem p hpm) ((hmay p hpm).1 e he)
    · split at he <;> rename_i hv1
      · obtain ⟨counts', d', e', c1, c2, c3⟩ := k8 hv1
        rw [hes, if_pos hv1, if_pos hv1, List.singleton_append, List.cons_append, List.cons_append, List.cons.injEq] at e'
        obtain ⟨-, e3⟩ := List.append_inj' e'.2 rfl
        simp only [List.cons.injEq, Events.Event.runEnded.injEq, and_true] at e3
        obtain ⟨-, -, rfl, rfl, rfl, rfl, rfl, -, -⟩ := e3
        obtain rfl := List.mem_singleton.1 he
        obtain ⟨n, rfl⟩ := ht _ hm
        have hl' : parts'.length = (cases.filter sel).length := by rw [← k5, List.length_map]
        refine .runEnded n success ?_ ?_ ?_ ⟨?_, ?_⟩
        · rw [hl']; exact List.length_filter_le ..
        · refine filter_or _ _ _ fun q _ hq => ?_
          have := of_decide_eq_true hq
          rw [this]; decide
        · exact List.length_filter_le ..
        · have e := congrArg (List.map fun c : Reg.Case => assertions c.test (tags c)) k5
          rw [List.map_map] at e
          rw [c1]
          refine Nat.le_trans (Nat.le_of_eq (congrArg List.sum e)) ?_
          exact sum_filter _ _ _
        · rw [c3, c1]; exact hle
      · cases he
  · have h1 : (parts.flatMap (·.events)).length ≤ (cases.map fun c => 2 + (storyOf c.test (tags c)).length).sum := by
      refine Nat.le_trans ?_ (sum_filter (fun c => 2 + (storyOf c.test (tags c)).length) sel cases)
      rw [← hparts, List.length_flatMap, List.map_map]
      have : ∀ l : List Part, (∀ p ∈ l, p ∈ parts) → (l.map fun p => p.events.length).sum ≤
          (l.map ((fun c : Reg.Case => 2 + (storyOf c.test (tags c)).length) ∘ fun p => p.test)).sum := by
        intro l hl
        induction l with
        | nil => simp
        | cons p l ih =>
          have := ih fun q hq => hl q (by simp [hq])
          have := (hmay p (hl p (by simp))).2
          simp only [List.map_cons, List.sum_cons, Function.comp] at this ⊢
          omega
      exact this parts fun _ h => h
    rw [hes]
    unfold eventBound
    simp only [List.length_append]
    split <;> simp only [List.length_cons, List.length_nil] <;> omega

private theorem nested_append {l l' : List (Nat × Bool)} (h : Nested l) (h' : Nested l') : Nested (l ++ l') := by
  induction h with
  | nil => exact h'
  | @pair id inner rest h1 h2 _ ih =>
    have := Nested.pair (id := id) h1 ih
    simpa using this

private theorem nested_brackets (p : Run.Prog) : Nested (Run.Spec.brackets p) := by
  induction p with
  | done => exact .nil
  | sec id loc b k hb hk => exact .pair hb hk
  | block b k hb hk => exact nested_append hb hk
  | _ => assumption

/-- **C83** (sections that nest). In a test that nothing interrupts, sections begin and end like brackets. -/
theorem C83_nested_calm [Run.MessageLimit] {lim : Reg.Limits} {fuel : Nat} {t : Run.TestCase} {tags : List Text}
    (hs : Sound lim fuel t tags) (hc : Run.Spec.Always Run.Spec.Calm t.body) : Nested (marksOf (storyOf t tags)) := by
  obtain ⟨ps, hps, _, _⟩ := special_of_tagged hs.tags
  obtain ⟨s, h1, h2⟩ := C21_section_events (cfg := { lim.cfg with verbosity := 2 }) (t := t)
    ⟨hs.alike, hs.sections, hs.captures, hps⟩ hc (fuel := max fuel (max 1 (Run.Spec.leaves t.body.first))) (by omega)
  rw [← marks_of_run (lim := lim) (v := 2) ⟨hs.name, hs.tags, hs.tidy, hs.alike, hs.sections, hs.captures,
    Nat.le_trans hs.fuel (Nat.le_max_left ..)⟩ (by omega) h1, h2]
  exact nested_brackets _

/-- **C83** (sections that nest). In a test in which no section contains two leaf sections, sections begin and end like
brackets. -/
theorem C83_nested_once [Run.MessageLimit] {lim : Reg.Limits} {fuel : Nat} {t : Run.TestCase} {tags : List Text}
    (hs : Sound lim fuel t tags) (ho : Run.Spec.Always Run.Spec.Once t.body) : Nested (marksOf (storyOf t tags)) := by
  obtain ⟨ps, hps, _, _⟩ := special_of_tagged hs.tags
  obtain ⟨s, h1, h2⟩ := C83_nested_partial (cfg := { lim.cfg with verbosity := 2 }) (t := t)
    ⟨hs.alike, hs.sections, hs.captures, hps⟩ hs.tidy ho (Nat.le_refl 2) hs.fuel
  rw [← marks_of_run hs (by omega) h1]
  exact h2

/-- The same run. -/
private theorem same_run {α : Type} {x : Option (Outcome (α × List Out))} {c c' : α} {es es' : List Events.Event}
    (h : x = some (.ok (c, es.map .event))) (h' : x = some (.ok (c', es'.map .event))) : c = c' ∧ es = es' := by
  rw [h] at h'
  simp only [Option.some.injEq, Outcome.ok.injEq, Prod.mk.injEq] at h'
  exact ⟨h'.1, (List.map_inj_right fun a b h => by cases h; rfl).1 h'.2⟩

/-- The names a program can have when it is started with this path. -/
def Names (argv0 name : Text) : Prop := ∃ file, Cli.Spec.IsFileName argv0 file ∧ Cli.Spec.IsStem file name

/-- **C87** (console reporter, from the program alone). If the texts in the program fit in the buffers of the reporter, then
the tests that run are those selected, the exit status is 0 exactly if none of them fails, and the lines of C84 are the whole
of the file named with `--out`, or else follow the remarks about the command line on the standard output. -/
theorem C87_console_texts [Run.MessageLimit] {p : Program} (hr : Roomy p) (hrl : Console.LimitsOk p.rl) {fuel : Nat}
    {opens : Text → Bool} (argv0 : Text) {argv : List Text} (hlen : argv.length ≤ p.maxArgs) (tags : Reg.Case → List Text)
    (hcases : ∀ c ∈ p.cases, Sound p.lim fuel c.test (tags c))
    {ts : List Cli.Spec.Token} (hts : Cli.Spec.tokens argv = some ts) (hn : (Cli.Spec.optionNames ts).Nodup)
    (hno : ∀ l ∈ listing, l ∉ Cli.Spec.optionNames ts) (ho : Writable p.maxPath opens ts)
    (hk : kindFor p ts = .console)
    (htexts : ∀ name, Names argv0 name → ∀ e, MayTell p.src tags p.cases name (Cli.Spec.positionalsOf ts) e →
      Console.EventOk p.rl e.console ∧ ((settled p ts).1.withColor = true → Console.Without p.rl '\x1b' e.console))
    (hbound : eventBound tags p.cases < 2 ^ 64) :
    ∃ (code : Nat) (sel : Reg.Case → Bool) (name : Text) (tests : List (Reg.Case × Text)) (duration : Text)
      (w : Output.State) (report : Text),
      Whole.main p fuel opens argv0 argv = some (.ok (code, w)) ∧
      (∀ c ∈ p.cases, sel c = true ↔
        Verif.Spec.Selected (Cli.Spec.positionalsOf ts) ⟨Reg.Spec.fullName c.test.id, tags c⟩) ∧
      (code = 0 ∨ code = 1) ∧
      (code = 0 ↔ ∀ c ∈ p.cases, sel c = true → Run.Spec.verdictOf c.test (tags c) ≠ .failed) ∧
      Names argv0 name ∧ tests.map (·.1) = p.cases.filter sel ∧ Delivered p argv ts report w ∧
      (if (settled p ts).1.withColor then Console.strip report else report) =
        Console.unlines (reportLines p.src p.rl (verbosityIn p ts) name tags tests (decide (code = 0)) duration) := by
  obtain ⟨code, es, sel, name, tests, duration, h1, h2, h3, h4, h5, h6, -, -, h7⟩ := C87_console hr hrl (opens := opens) argv0 hlen
    tags hcases hts hn hno ho hk
  obtain ⟨code', es', name', sel', k1, k2, -, k3, k4, -⟩ := C80_only p.src (p.reporters.map (·.1)) (Whole.init p)
    (Whole.config p) argv0 hlen tags hcases hts hn hno
  obtain ⟨rfl, rfl⟩ := same_run h1 k1
  obtain ⟨w, report, m1, m2, m3⟩ := h7 (fun e he => (htexts name' k2 e (k3 e he)).1) (by omega)
    (fun hc e he => (htexts name' k2 e (k3 e he)).2 hc)
  exact ⟨code, sel, name, tests, duration, w, report, m1, h2, h3, h4, h5, h6, m2, m3⟩

/-- **C87** (TeamCity reporter, from the program alone). As `C87_console_texts`, with the messages of C85. -/
theorem C87_teamcity_texts [Run.MessageLimit] {p : Program} (hr : Roomy p) (hrl : TeamCity.LimitsOk p.rl) {fuel : Nat}
    {opens : Text → Bool} (argv0 : Text) {argv : List Text} (hlen : argv.length ≤ p.maxArgs) (tags : Reg.Case → List Text)
    (hcases : ∀ c ∈ p.cases, Sound p.lim fuel c.test (tags c))
    {ts : List Cli.Spec.Token} (hts : Cli.Spec.tokens argv = some ts) (hn : (Cli.Spec.optionNames ts).Nodup)
    (hno : ∀ l ∈ listing, l ∉ Cli.Spec.optionNames ts) (ho : Writable p.maxPath opens ts)
    (hk : kindFor p ts = .teamcity)
    (htexts : ∀ name, Names argv0 name → ∀ e, MayTell p.src tags p.cases name (Cli.Spec.positionalsOf ts) e →
      TeamCity.EventOk p.rl e.report) :
    ∃ (code : Nat) (sel : Reg.Case → Bool) (name : Text) (tests : List (Reg.Case × Nat)) (w : Output.State) (report : Text),
      Whole.main p fuel opens argv0 argv = some (.ok (code, w)) ∧
      (∀ c ∈ p.cases, sel c = true ↔
        Verif.Spec.Selected (Cli.Spec.positionalsOf ts) ⟨Reg.Spec.fullName c.test.id, tags c⟩) ∧
      (code = 0 ∨ code = 1) ∧
      (code = 0 ↔ ∀ c ∈ p.cases, sel c = true → Run.Spec.verdictOf c.test (tags c) ≠ .failed) ∧
      Names argv0 name ∧ tests.map (·.1) = p.cases.filter sel ∧ Delivered p argv ts report w ∧
      TeamCity.messages report = some (reportMessages p.src p.rl (verbosityIn p ts) name (Cli.Spec.positionalsOf ts)
        tags tests) := by
  obtain ⟨code, es, sel, name, tests, h1, h2, h3, h4, h5, h6, -, h7⟩ := C87_teamcity hr hrl (opens := opens) argv0 hlen
    tags hcases hts hn hno ho hk
  obtain ⟨code', es', name', sel', k1, k2, -, k3, k4, -⟩ := C80_only p.src (p.reporters.map (·.1)) (Whole.init p)
    (Whole.config p) argv0 hlen tags hcases hts hn hno
  obtain ⟨rfl, rfl⟩ := same_run h1 k1
  obtain ⟨w, report, m1, m2, m3⟩ := h7 (fun e he => htexts name' k2 e (k3 e he))
  exact ⟨code, sel, name, tests, w, report, m1, h2, h3, h4, h5, h6, m2, m3⟩

/-- **C87** (XML reporter, from the program alone). As `C87_console_texts`, with the document of C83, in which the numbers at
the end are those of the assertions in the selected tests, of the failures that count, and of those that are expected or
allowed. The sections of each test have to begin and end like brackets (`C83_nested_calm`, `C83_nested_once`). -/
theorem C87_xml_texts [Run.MessageLimit] {p : Program} (hr : Roomy p) (hrl : Report.Spec.LimitsOk p.rl) {fuel : Nat}
    {opens : Text → Bool} (argv0 : Text) {argv : List Text} (hlen : argv.length ≤ p.maxArgs) (tags : Reg.Case → List Text)
    (hcases : ∀ c ∈ p.cases, Sound p.lim fuel c.test (tags c))
    {ts : List Cli.Spec.Token} (hts : Cli.Spec.tokens argv = some ts) (hn : (Cli.Spec.optionNames ts).Nodup)
    (hno : ∀ l ∈ listing, l ∉ Cli.Spec.optionNames ts) (ho : Writable p.maxPath opens ts)
    (hk : kindFor p ts = .xml)
    (hnest : ∀ c ∈ p.cases, Nested (marksOf (storyOf c.test (tags c))))
    (htexts : ∀ name, Names argv0 name → ∀ e, MayTell p.src tags p.cases name (Cli.Spec.positionalsOf ts) e →
      Report.Spec.EventOk p.rl e.report) :
    ∃ (code : Nat) (sel : Reg.Case → Bool) (name : Text) (tests : List (Reg.Case × Node)) (counts : Counts)
      (w : Output.State) (report : Text),
      Whole.main p fuel opens argv0 argv = some (.ok (code, w)) ∧
      (∀ c ∈ p.cases, sel c = true ↔
        Verif.Spec.Selected (Cli.Spec.positionalsOf ts) ⟨Reg.Spec.fullName c.test.id, tags c⟩) ∧
      (code = 0 ∨ code = 1) ∧
      (code = 0 ↔ ∀ c ∈ p.cases, sel c = true → Run.Spec.verdictOf c.test (tags c) ≠ .failed) ∧
      Names argv0 name ∧ tests.map (·.1) = p.cases.filter sel ∧ Delivered p argv ts report w ∧
      document report = some (runNode p.rl name (Cli.Spec.positionalsOf ts) (tests.map (·.2)) tests.length
        (ending tags .failed tests) (ending tags .allowedFail tests) (ending tags .skipped tests) counts) ∧
      (∀ q ∈ tests, TestElement p.src p.rl (verbosityIn p ts) q.1.test (tags q.1) q.2) ∧
      counts.all = ((p.cases.filter sel).map fun c => assertions c.test (tags c)).sum ∧
      counts.failed = ((p.cases.filter sel).map fun c => realFailures c.test (tags c)).sum ∧
      counts.failed + counts.allowed = ((p.cases.filter sel).map fun c => failuresIn c.test (tags c)).sum := by
  obtain ⟨code, es, sel, name, h1, h2, h3, h4, h5, h7⟩ := C87_xml hr hrl (opens := opens) argv0 hlen
    tags hcases hts hn hno ho hk (fun c hc v r hv hr => by rw [marks_of_run (hcases c hc) hv hr]; exact hnest c hc)
  obtain ⟨code', es', name', sel', k1, k2, ks, k3, k4, k5, k6⟩ := C80_only p.src (p.reporters.map (·.1)) (Whole.init p)
    (Whole.config p) argv0 hlen tags hcases hts hn hno
  obtain ⟨rfl, rfl⟩ := same_run h1 k1
  have hsel : p.cases.filter sel' = p.cases.filter sel := List.filter_congr fun c hc => by
    rw [Bool.eq_iff_iff, ks c hc, h2 c hc]
  rw [hsel] at k5 k6
  obtain ⟨w, report, tests, counts, m1, m2, m3, m4, m5, -, -, m6, m7, m8⟩ := h7 (fun e he => htexts name' k2 e (k3 e he))
  refine ⟨code, sel, name, tests, counts, w, report, m1, h2, h3, h4, h5, m4, m2, m3, m5, ?_, m7.trans k5, m8.trans k6⟩
  rw [m6, ← m4, List.map_map]
  rfl

/-! ## Examples -/

private theorem names_prog {name : Text} (h : Names "bin/prog.exe".toList name) : name = "prog".toList :=
  h.elim fun _ h => C50_unique h.1 (g := "prog.exe".toList)
    ⟨⟨by decide, by decide⟩, .inr ⟨"bin".toList, '/', by decide, .inl rfl⟩⟩ h.2 (.inr ⟨"exe".toList, by decide, by decide⟩)

open Defaults in
/-- What happens in the tests of the program. -/
private theorem example_story : ∀ c ∈ teamcityCases, ∀ i ∈ storyOf c.test (teamcityTags c),
    i = .assertion true ⟨[], [], 1, .exact⟩ "no exception caught".toList ∨ i = .enter 1 true ∨ i = .leave 1 true ∨
      i = .assertion false ⟨[1], [], 2, .exact⟩ "x".toList := by
  simp only [teamcityCases, List.forall_mem_cons]
  refine ⟨?_, ?_, ?_, by simp⟩
  · intro i hi
    exact .inl (List.mem_singleton.1 (show i ∈ [_] from hi))
  · intro i hi
    exact .inl (List.mem_singleton.1 (show i ∈ [_] from hi))
  · intro i hi
    have hi : i ∈ [.enter 1 true, .assertion false ⟨[1], [], 2, .exact⟩ "x".toList, .leave 1 true,
      .assertion true ⟨[], [], 1, .exact⟩ "no exception caught".toList] := hi
    simp only [List.mem_cons, List.not_mem_nil, or_false] at hi
    rcases hi with h | h | h | h
    · exact .inr (.inl h)
    · exact .inr (.inr (.inr h))
    · exact .inr (.inr (.inl h))
    · exact .inl h

/-- The event can be told completely by each of the reporters. -/
private def Fine (e : Events.Event) : Prop :=
  Console.EventOk exampleProgram.rl e.console ∧ Console.Without exampleProgram.rl '\x1b' e.console ∧
    TeamCity.EventOk exampleProgram.rl e.report ∧ Report.Spec.EventOk exampleProgram.rl e.report

private theorem fine_of {e : Events.Event} (h1 : ∀ t ∈ Console.coloredTexts e.console, t.length + 11 ≤ 1024)
    (h2 : ∀ n ∈ Console.numbers e.console, n < 2 ^ 64) (h3 : ∀ t ∈ Console.fullNames e.console, t.length ≤ 1024)
    (h4 : ∀ t ∈ Console.durations e.console, t.length ≤ 1024) (h5 : ∀ t ∈ Console.coloredTexts e.console, '\x1b' ∉ t)
    (h6 : ∀ t ∈ Console.plainTexts e.console, '\x1b' ∉ t) (h7 : TeamCity.EventOk exampleProgram.rl e.report)
    (h8 : Report.Spec.EventOk exampleProgram.rl e.report) : Fine e :=
  ⟨⟨h1, h2, h3, h4⟩, ⟨by decide, h5, h6⟩, h7, h8⟩

private theorem within_ok {n : Nat} {c : Counts} (hn : n < 10) (h : Within n c) : CountsOk c :=
  ⟨by have := h.1; omega, h.2⟩

open Defaults in
/-- Everything that the program of C87 may tell fits, for each of the reporters. -/
private theorem exampleProgram_texts : ∀ name, Names "bin/prog.exe".toList name → ∀ e,
    MayTell exampleProgram.src teamcityTags exampleProgram.cases name [] e → Fine e := by
  intro name hname e he
  obtain rfl := names_prog hname
  cases he with
  | runStarted => refine fine_of ?_ ?_ ?_ ?_ ?_ ?_ (show TeamCity.Short _ _ from ?_) (show Short _ _ ∧ Short _ _ from ?_) <;> decide
  | @runEnded run fail allowedFail skip counts n success h1 h2 h3 h4 =>
    have h1 : run ≤ 3 := h1
    have h4 : Within 4 counts := h4
    refine fine_of (by simp [Event.console, Console.coloredTexts]) ?_ (by simp [Event.console, Console.fullNames]) ?_
      (by simp [Event.console, Console.coloredTexts]) ?_ (show TeamCity.Short _ _ by decide)
      (show _ ∧ _ ∧ _ ∧ _ from ⟨by omega, by omega, h2, within_ok (by omega) h4⟩)
    · have := h4.1
      simp only [Event.console, Console.numbers, List.forall_mem_cons]
      exact ⟨by omega, by omega, by omega, by omega, by simp⟩
    · simp only [Event.console, Console.durations, List.forall_mem_cons]
      exact ⟨show "0.5".toList.length ≤ 1024 by decide, by simp⟩
    · simp only [Event.console, Console.plainTexts, List.forall_mem_cons]
      exact ⟨show '\x1b' ∉ "0.5".toList by decide, by simp⟩
  | @test c e hc h =>
    have hst := example_story c hc
    have ha : assertions c.test (teamcityTags c) < 10 := by
      simp only [exampleProgram, teamcityCases, List.mem_cons, List.not_mem_nil, or_false] at hc
      rcases hc with rfl | rfl | rfl <;> decide
    have hid : declared exampleSource c.test ∈ [(⟨"first".toList, [], [], []⟩ : Id), ⟨"hidden".toList, "[.]".toList, [], []⟩,
        ⟨"it's third".toList, "[x]".toList, [], []⟩] ∧ c.test.loc = 1 := by
      simp only [exampleProgram, teamcityCases, List.mem_cons, List.not_mem_nil, or_false] at hc
      rcases hc with rfl | rfl | rfl <;> exact ⟨by decide, rfl⟩
    obtain ⟨hid, hloc⟩ := hid
    cases h with
    | started =>
      show Fine (.caseStarted (declared exampleSource c.test) ⟨"f.cpp".toList, c.test.loc⟩)
      rw [hloc]
      generalize declared exampleSource c.test = id at hid
      simp only [List.mem_cons, List.not_mem_nil, or_false] at hid
      rcases hid with rfl | rfl | rfl <;>
        refine fine_of ?_ ?_ ?_ ?_ ?_ ?_ (show TeamCity.Short _ _ from ?_) (show Short _ _ ∧ Short _ _ ∧ Short _ _ ∧ _ from ?_) <;>
        decide
    | @ended counts state n hw =>
      show Fine (.caseEnded (declared exampleSource c.test) ⟨"f.cpp".toList, c.test.loc⟩ counts state ⟨"0.5".toList, 500000⟩
        false false)
      rw [hloc]
      generalize declared exampleSource c.test = id at hid
      simp only [List.mem_cons, List.not_mem_nil, or_false] at hid
      rcases hid with rfl | rfl | rfl <;>
        refine fine_of (e := .caseEnded _ _ _ _ _ _ _) ?_ ?_ ?_ ?_ ?_ ?_ (show TeamCity.Short _ _ ∧ _ < _ from ?_)
          (show Plain _ from ?_) <;>
        simp only [Event.console, Console.coloredTexts, Console.numbers, Console.fullNames, Console.durations,
          Console.plainTexts] <;> decide
    | entered h =>
      show Fine (.sectionStarted ⟨"s".toList, []⟩ ⟨"f.cpp".toList, _⟩)
      rcases hst _ h with h | h | h | h <;> cases h
      refine fine_of ?_ ?_ ?_ ?_ ?_ ?_ (show TeamCity.Plain _ ∧ TeamCity.Plain _ from ?_)
        (show Short _ _ ∧ Short _ _ ∧ _ from ?_) <;> decide
    | @left k last skipped counts n h hw =>
      show Fine (.sectionEnded ⟨"s".toList, []⟩ ⟨"f.cpp".toList, _⟩ skipped counts ⟨"0.5".toList, 500000⟩)
      refine fine_of (e := .sectionEnded _ _ _ _ _) ?_ ?_ ?_ ?_ ?_ ?_ (show TeamCity.Plain _ by decide)
        (show CountsOk _ ∧ Plain _ from ⟨within_ok ha hw, by decide⟩) <;>
        simp only [Event.console, Console.coloredTexts, Console.numbers, Console.fullNames, Console.durations,
          Console.plainTexts] <;> decide
    | succeeded h =>
      rcases hst _ h with h | h | h | h <;> cases h
      show Fine (.assertionSucceeded (declared exampleSource c.test) ⟨[], [], ⟨"f.cpp".toList, 1⟩, .exact⟩
        (.expression "CHECK".toList "a[0] == 1".toList "no exception caught".toList))
      generalize declared exampleSource c.test = id at hid
      simp only [List.mem_cons, List.not_mem_nil, or_false] at hid
      rcases hid with rfl | rfl | rfl <;>
        refine fine_of ?_ ?_ ?_ ?_ ?_ ?_ (show TeamCity.Short _ _ ∧ TeamCity.Short _ _ ∧ _ < _ ∧ _ ∧ TeamCity.Plain _ ∧
          TeamCity.Short _ _ ∧ TeamCity.Short _ _ from ?_)
          (show _ ∧ (Short _ _ ∧ _) ∧ Plain _ ∧ Short _ _ ∧ Short _ _ from ?_) <;>
        decide
    | failed ex al h =>
      rcases hst _ h with h | h | h | h <;> cases h
      show Fine (.assertionFailed (declared exampleSource c.test) ⟨[⟨⟨"s".toList, []⟩, ⟨"f.cpp".toList, 1⟩⟩], [],
        ⟨"f.cpp".toList, 2⟩, .exact⟩ (.expression "CHECK".toList "a[0] == 1".toList "x".toList) ex al)
      generalize declared exampleSource c.test = id at hid
      simp only [List.mem_cons, List.not_mem_nil, or_false] at hid
      cases ex <;> cases al <;> rcases hid with rfl | rfl | rfl <;>
        refine fine_of ?_ ?_ ?_ ?_ ?_ ?_ (show TeamCity.Short _ _ ∧ TeamCity.Short _ _ ∧ _ < _ ∧ _ ∧ TeamCity.Plain _ ∧
          TeamCity.Short _ _ ∧ TeamCity.Short _ _ from ?_)
          (show _ ∧ (Short _ _ ∧ _) ∧ Plain _ ∧ Short _ _ ∧ Short _ _ from ?_) <;>
        decide
    | skipped h => rcases hst _ h with h | h | h | h <;> cases h

open Defaults in
/-- The hypotheses of `C87_console_texts` hold for it with `--color always`: two tests run and one fails. -/
example : ∃ w name tests d report, Whole.main exampleProgram 5 (fun _ => true) "bin/prog.exe".toList
      (["--color", "always"].map String.toList) = some (.ok (1, w)) ∧ Shows w report none ∧
    tests.map (·.1) = [teamcityCases[0], teamcityCases[2]] ∧
    Console.strip report = Console.unlines (reportLines exampleSource teamcityLimits 1 name teamcityTags tests false d) := by
  obtain ⟨code, sel, name, tests, d, w, report, h1, h2, h3, h4, -, h5, h6, h7⟩ := C87_console_texts exampleProgram_roomy
    (by unfold Console.LimitsOk; decide) (fuel := 5) (opens := fun _ => true) "bin/prog.exe".toList
    (argv := ["--color", "always"].map String.toList) (by decide) teamcityTags teamcity_sound (ts := _) rfl
    (by decide) (by decide) (by intro path h; cases h) (by decide)
    (fun name hn e he => ⟨(exampleProgram_texts name hn e he).1, fun _ => (exampleProgram_texts name hn e he).2.1⟩) (by decide)
  have hsel := teamcity_selected h2
  obtain rfl : code = 1 := h3.resolve_left fun h0 => by
    have hm : teamcityCases[2] ∈ exampleProgram.cases.filter sel := by
      rw [show exampleProgram.cases = teamcityCases from rfl, hsel]; simp
    obtain ⟨i1, i2⟩ := List.mem_filter.1 hm
    exact h4.1 h0 _ i1 i2 rfl
  exact ⟨w, name, tests, d, report, h1, h6, h5.trans hsel, h7⟩

open Defaults in
/-- Those of `C87_teamcity_texts` hold with `-r teamcity`. -/
example : ∃ code w name tests report, Whole.main exampleProgram 5 (fun _ => true) "bin/prog.exe".toList
      (["-r", "teamcity"].map String.toList) = some (.ok (code, w)) ∧ Shows w report none ∧
    TeamCity.messages report = some (reportMessages exampleSource teamcityLimits 2 name [] teamcityTags tests) := by
  obtain ⟨code, sel, name, tests, w, report, h1, -, -, -, -, -, h6, h7⟩ := C87_teamcity_texts exampleProgram_roomy
    (by unfold TeamCity.LimitsOk; decide) (fuel := 5) (opens := fun _ => true) "bin/prog.exe".toList
    (argv := ["-r", "teamcity"].map String.toList) (by decide) teamcityTags teamcity_sound (ts := _) rfl
    (by decide) (by decide) (by intro path h; cases h) (by decide)
    (fun name hn e he => (exampleProgram_texts name hn e he).2.2.1)
  exact ⟨code, w, name, tests, report, h1, h6, h7⟩

open Defaults in
/-- Those of `C87_xml_texts` hold with `-r xml`: three assertions, of which one fails. -/
example : ∃ code w name tests report a b c d, Whole.main exampleProgram 5 (fun _ => true) "bin/prog.exe".toList
      (["-r", "xml"].map String.toList) = some (.ok (code, w)) ∧ Shows w report none ∧
    document report = some (runNode teamcityLimits name [] tests a b c d ⟨3, 1, 0⟩) := by
  obtain ⟨code, sel, name, tests, counts, w, report, h1, h2, -, -, -, -, h6, h7, -, h8, h9, h10⟩ :=
    C87_xml_texts exampleProgram_roomy
    (by unfold LimitsOk; decide) (fuel := 5) (opens := fun _ => true) "bin/prog.exe".toList
    (argv := ["-r", "xml"].map String.toList) (by decide) teamcityTags teamcity_sound (ts := _) rfl
    (by decide) (by decide) (by intro path h; cases h) (by decide) (by
      simp only [exampleProgram, teamcityCases, List.forall_mem_cons]
      exact ⟨.nil, .nil, .pair (inner := []) (rest := []) .nil .nil, by simp⟩)
    (fun name hn e he => (exampleProgram_texts name hn e he).2.2.2)
  rw [show exampleProgram.cases = teamcityCases from rfl, teamcity_selected h2] at h8 h9 h10
  obtain ⟨all, failed, allowed⟩ := counts
  obtain rfl : all = 3 := h8
  obtain rfl : failed = 1 := h9
  obtain rfl : allowed = 0 := by
    have : 1 + allowed = 1 := h10
    omega
  exact ⟨code, w, name, _, report, _, _, _, _, h1, h6, h7⟩

/-- A section with two sections in it, in which a check fails. -/
def calmBody : Run.Prog :=
  .sec 10 100 (.sec 11 101 (.stmt (.check 1 (.val false) false []) .done)
    (.sec 12 102 (.stmt (.check 2 (.val true) false []) .done) .done)) .done

open Defaults in
/-- For `C83_nested_calm`; the test of C55 in a section is one for `C83_nested_once`. -/
example : Sound (defaultLimits 1) 5 (mkTest "t" "" calmBody) [] ∧
    Run.Spec.Always Run.Spec.Calm (mkTest "t" "" calmBody).body ∧ marksOf (storyOf (mkTest "t" "" calmBody) []) =
      [(10, true), (11, true), (11, false), (12, true), (12, false), (10, false)] := by
  refine ⟨sound_same rfl (by decide) ⟨by decide, by simp, by simp [Verif.Spec.Hides]⟩
    (by simp [mkTest, calmBody, Run.Spec.Tidy]) (by decide) (by decide) (by decide), ?_, by decide⟩
  exact Run.always_one (by simp [calmBody, Run.Spec.Calm, Run.Spec.calmStmt])

open Defaults in
example : Run.Spec.Always Run.Spec.Once teamcityCases[2].test.body ∧
    marksOf (storyOf teamcityCases[2].test ["x".toList]) = [(1, true), (1, false)] :=
  ⟨Run.always_one (by simp [Run.Spec.Once, Run.Spec.leaves]), by decide⟩

open Defaults in
/-- For `C80_only`: the program tells nine events; it may tell at most 14. -/
example : exampleEvents.length = 9 ∧ eventBound teamcityTags teamcityCases = 14 := by decide

end Verif.Props
