import Verif.Lemmas.Events
import Verif.Props.Reports
import Verif.Props.Colors
/-!
# C80: every event tells what it should
-/
namespace Verif.Props
open Verif.Events Verif.Events.Spec Verif.Report

/-- A run with full events is the run of the registry's model, told completely. -/
theorem runSelected_told [Run.MessageLimit] (src : Source) {lim : Reg.Limits} {fuel : Nat} (name : Text) (filters : List Text)
    {pred : Filter.TestId → Outcome Bool} {cases cases' : List Reg.Case} {log : List Run.Event} {success : Bool}
    (h : Reg.runSelected lim fuel pred cases = some (.ok (cases', log, success))) :
    ∃ (parts : List Part) (run fail allowedFail skip : Nat) (counts : Counts) (d : Duration),
      Events.runSelected src lim fuel name filters pred cases = some (.ok (cases',
        (if 1 ≤ lim.cfg.verbosity then [.runStarted name filters] else []) ++ parts.flatMap (·.events) ++
        (if 1 ≤ lim.cfg.verbosity then [.runEnded name filters run fail allowedFail skip counts d success] else []),
        success)) ∧
      log = (if 1 ≤ lim.cfg.verbosity then [.runStarted] else []) ++ parts.flatMap (·.result.log) ++
        (if 1 ≤ lim.cfg.verbosity then
          [.runEnded run fail allowedFail skip counts.all counts.failed counts.allowed success] else []) ∧
      parts.map (·.test) = cases.filter (fun c => decide (pred c.test.id = .ok true)) ∧
      ∀ p ∈ parts, Run.run lim.cfg fuel p.test.test = some (.ok p.result) ∧ Tells src p.test.test p.result p.events := by
  unfold Reg.runSelected at h
  cases hr : Reg.runEach lim fuel pred cases { log := Reg.shown lim 1 .runStarted } with
  | none => rw [hr] at h; cases h
  | some o =>
    rw [hr] at h
    cases o with
    | abort => cases h
    | ub => cases h
    | ok a =>
      cases h
      obtain ⟨parts, h1, h2, h3, h4⟩ := (runEach_eq src lim fuel pred cases _
        { events := Events.shown lim 1 (.runStarted name filters) } rfl rfl).2.2.2 a hr
      refine ⟨parts, a.totals.run, a.totals.fail, a.totals.allowedFail, a.totals.skip,
        ⟨a.totals.asserts, a.totals.failures, a.totals.allowed⟩,
        src.duration (Events.shown lim 1 (.runStarted name filters) ++ parts.flatMap (·.events)).length, ?_, ?_, h2, h4⟩
      · rw [Events.runSelected, h1]; rfl
      · rw [h3]; rfl

/-- Any run, in terms of the two models: with full events the program ends in the same way. -/
private theorem runSelected_exit [Run.MessageLimit] (src : Source) (lim : Reg.Limits) (fuel : Nat) (name : Text)
    (filters : List Text) (pred : Filter.TestId → Outcome Bool) (cases : List Reg.Case) :
    (Events.runSelected src lim fuel name filters pred cases).map (fun o => o >>= fun x => .ok (x.1, x.2.2)) =
      (Reg.runSelected lim fuel pred cases).map (fun o => o >>= fun x => .ok (x.1, x.2.2)) := by
  cases h : Reg.runSelected lim fuel pred cases with
  | some o =>
    cases o with
    | ok x =>
      obtain ⟨cases', log, success⟩ := x
      obtain ⟨parts, _, _, _, _, _, _, h1, _⟩ := runSelected_told src name filters h
      rw [h1]; rfl
    | abort =>
      unfold Reg.runSelected at h
      cases hr : Reg.runEach lim fuel pred cases { log := Reg.shown lim 1 .runStarted } with
      | none => rw [hr] at h; cases h
      | some o =>
        cases o with
        | ok a => rw [hr] at h; cases h
        | ub => rw [hr] at h; cases h
        | abort =>
          rw [Events.runSelected, (runEach_eq src lim fuel pred cases _
            { events := Events.shown lim 1 (.runStarted name filters) } rfl rfl).2.1 hr]; rfl
    | ub =>
      unfold Reg.runSelected at h
      cases hr : Reg.runEach lim fuel pred cases { log := Reg.shown lim 1 .runStarted } with
      | none => rw [hr] at h; cases h
      | some o =>
        cases o with
        | ok a => rw [hr] at h; cases h
        | abort => rw [hr] at h; cases h
        | ub =>
          rw [Events.runSelected, (runEach_eq src lim fuel pred cases _
            { events := Events.shown lim 1 (.runStarted name filters) } rfl rfl).2.2.1 hr]; rfl
  | none =>
    unfold Reg.runSelected at h
    cases hr : Reg.runEach lim fuel pred cases { log := Reg.shown lim 1 .runStarted } with
    | none =>
      rw [Events.runSelected, (runEach_eq src lim fuel pred cases _
        { events := Events.shown lim 1 (.runStarted name filters) } rfl rfl).1 hr]; rfl
    | some o => rw [hr] at h; cases o <;> cases h

private theorem listLoop_exit (src : Source) (pred : Filter.TestId → Outcome Bool) (cases : List Reg.Case) :
    (Events.listLoop src pred cases >>= fun _ => Outcome.ok ()) = (Reg.listLoop pred cases >>= fun _ => Outcome.ok ()) := by
  induction cases with
  | nil => rfl
  | cons c cs ih =>
    rw [Events.listLoop, Reg.listLoop]
    cases pred c.test.id with
    | abort => rfl
    | ub => rfl
    | ok b =>
      simp only [Outcome.bind_ok]
      cases h1 : Events.listLoop src pred cs <;> cases h2 : Reg.listLoop pred cs <;> rw [h1, h2] at ih <;>
        first | rfl | cases ih

private theorem listTests_exit (src : Source) (pred : Filter.TestId → Outcome Bool) (cases : List Reg.Case) :
    (Events.afterListing cases (Events.listTests src pred cases)).map (fun o => o >>= fun x => Outcome.ok (x.1, x.2.2)) =
      (Reg.afterListing cases (Reg.listTests pred cases)).map (fun o => o >>= fun x => Outcome.ok (x.1, x.2.2)) := by
  have := listLoop_exit src pred cases
  unfold Events.afterListing Reg.afterListing Events.listTests Reg.listTests
  cases h1 : Events.listLoop src pred cases <;> cases h2 : Reg.listLoop pred cases <;> rw [h1, h2] at this <;>
    first | rfl | cases this

private theorem afterRun_exit {o : Option (Outcome (List Reg.Case × List Events.Event × Bool))}
    {o' : Option (Outcome (List Reg.Case × List Run.Event × Bool))}
    (h : o.map (fun o => o >>= fun x => Outcome.ok (x.1, x.2.2)) = o'.map (fun o => o >>= fun x => Outcome.ok (x.1, x.2.2))) :
    (Events.afterRun o).map (fun o => o >>= fun x => Outcome.ok (x.1, x.2.2)) =
      (Reg.afterRun o').map (fun o => o >>= fun x => Outcome.ok (x.1, x.2.2)) := by
  rcases o with _ | (_ | _ | _) <;> rcases o' with _ | (_ | _ | _) <;> first | exact h | cases h | skip
  all_goals first | rfl | exact h

private theorem runOrList_exit [Run.MessageLimit] (src : Source) (lim : Reg.Limits) (fuel : Nat) (name : Text) (list : Bool)
    (filters : List Text) (cases : List Reg.Case) :
    (Events.runOrList src lim fuel name list filters cases).map (fun o => o >>= fun x => Outcome.ok (x.1, x.2.2)) =
      (Reg.runOrList lim fuel list filters cases).map (fun o => o >>= fun x => Outcome.ok (x.1, x.2.2)) := by
  unfold Events.runOrList Reg.runOrList
  split
  · split
    · exact listTests_exit ..
    · exact afterRun_exit (runSelected_exit ..)
  · dsimp only
    split
    · exact listTests_exit ..
    · exact afterRun_exit (runSelected_exit ..)

private theorem runTests_exit [Run.MessageLimit] (src : Source) (lim : Reg.Limits) (fuel : Nat) (reporters : List Text)
    (args : Cli.Input) (cases : List Reg.Case) :
    (Events.runTests src lim fuel reporters args cases).map (fun o => o >>= fun x => Outcome.ok (x.1, x.2.2)) =
      (Reg.runTests lim fuel reporters args cases).map (fun o => o >>= fun x => Outcome.ok (x.1, x.2.2)) := by
  unfold Events.runTests Reg.runTests
  split
  · rfl
  · cases Cli.getOption args "--list-tests-with-tag".toList with
    | some o =>
      dsimp only
      cases o.value with
      | none => rfl
      | some tag => exact listTests_exit ..
    | none =>
      dsimp only
      split
      · unfold Events.afterListing Reg.afterListing Reg.listAllTags
        cases Reg.collectTags lim cases [] <;> rfl
      · split
        · rfl
        · cases Reg.filtersOf args with
          | abort => rfl
          | ub => rfl
          | ok filters => exact runOrList_exit ..

/-- **C80**. The program with full events ends as the program of the registry's model, for all arguments and tests: with the
same exit status, or not at all, or by `std::terminate`. -/
theorem C80_exit [Run.MessageLimit] (src : Source) (lim : Reg.Limits) (fuel maxArgs : Nat) (reporters : List Text)
    (init : Nat → Nat → Nat) (config : Cli.Config) (argv0 : Text) (argv : List Text) (cases : List Reg.Case) :
    (Events.main src lim fuel maxArgs reporters init config argv0 argv cases).map (fun o => o >>= fun x => Outcome.ok x.1) =
      (Reg.main lim fuel maxArgs reporters init config argv0 argv cases).map (fun o => o >>= fun x => Outcome.ok x.1) := by
  unfold Events.main Reg.main
  rcases Cli.parseArguments maxArgs config.withColor argv0 argv with ⟨_, _, _ | args⟩ | _ | _
  · rfl
  · dsimp only
    cases Cli.configure reporters args config with
    | abort => rfl
    | ub => rfl
    | ok config' =>
      dsimp only
      have := runTests_exit src { lim with cfg := { lim.cfg with verbosity := Reg.verbosityFor init config' } } fuel reporters
        args cases
      generalize Events.runTests src _ fuel reporters args cases = o at this ⊢
      generalize Reg.runTests _ fuel reporters args cases = o' at this ⊢
      rcases o with _ | (x | _ | _) <;> rcases o' with _ | (y | _ | _) <;> first | rfl | cases this | skip
      obtain ⟨x1, x2, x3⟩ := x
      obtain ⟨y1, y2, y3⟩ := y
      simp only [Option.map_some, Outcome.bind_ok, Option.some.injEq, Outcome.ok.injEq, Prod.mk.injEq] at this
      obtain ⟨rfl, rfl⟩ := this
      rfl
  · rfl
  · rfl

/-- Told tests one after the other. -/
private theorem told_parts {src : Source} : ∀ (parts : List Part),
    (∀ p ∈ parts, Tells src p.test.test p.result p.events) →
    Report.Spec.ToldAll (parts.flatMap (·.result.log)) ((parts.flatMap (·.events)).map Event.report) ∧
    Report.Spec.Console.ToldCases ((parts.map (·.test.test.id)).zip (parts.map (·.result.log)))
      ((parts.flatMap (·.events)).map Event.console)
  | [], _ => ⟨.nil, .nil⟩
  | p :: ps, h => by
    obtain ⟨h1, h2⟩ := told_parts ps fun q hq => h q (by simp [hq])
    have hp := h p (by simp)
    constructor
    · rw [List.flatMap_cons, List.flatMap_cons, List.map_append]
      exact told_append hp.told h1
    · rw [List.flatMap_cons, List.map_append, List.map_cons, List.map_cons, List.zip_cons_cons]
      exact .cons (id := testId src p.test.test) hp.console h2
where
  told_append {a b : List Run.Event} {x y : List Report.Event} (h1 : Report.Spec.ToldAll a x)
      (h2 : Report.Spec.ToldAll b y) : Report.Spec.ToldAll (a ++ b) (x ++ y) := by
    induction h1 with
    | nil => exact h2
    | cons h _ ih => rw [List.cons_append, List.append_assoc]; exact .cons h ih

/-- The number of assertions told of a test. -/
theorem asserts_of [Run.MessageLimit] {lim : Reg.Limits} {fuel v : Nat} {t : Run.TestCase} {tags : List Text} {r : Run.TS}
    (hs : Sound lim fuel t tags) (h1 : Run.run { lim.cfg with verbosity := v } fuel t = some (.ok r)) :
    r.asserts = assertions t tags := by
  obtain ⟨ps, hps, _, hshould⟩ := special_of_tagged hs.tags
  rw [run_asserts (cfg := { lim.cfg with verbosity := v }) (ps := ps) ⟨hs.alike, hs.sections, hs.captures, hps⟩ hs.tidy hs.fuel
    h1, hshould]
  rfl

/-- What is told about a test that is run is what it should be. -/
theorem oneTest_of [Run.MessageLimit] {src : Source} {lim : Reg.Limits} {fuel v : Nat} {t : Run.TestCase} {tags : List Text}
    {r : Run.TS} {es : List Events.Event} (hs : Sound lim fuel t tags)
    (h1 : Run.run { lim.cfg with verbosity := v } fuel t = some (.ok r)) (h2 : r.state = Run.Spec.verdictOf t tags)
    (h3 : Tells src t r es) : OneTest src v t tags es := by
  refine ⟨h3.about, ?_, ?_, ?_⟩
  · rw [h3.heard]
    obtain ⟨s, e, _, hl⟩ := C67_verdict (cfg := { lim.cfg with verbosity := v }) hs.alike hs.sections hs.captures hs.tags hs.tidy
      hs.fuel
    rw [h1] at e
    cases e
    rw [hl]
  · intro hv2
    obtain ⟨mid, hl, _⟩ := Run.run_log_counts (cfg := { lim.cfg with verbosity := v }) hv2 h1
    obtain ⟨rest, state, d, e, hst⟩ := h3.ends mid _ _ _ _ hl
    obtain ⟨c1, c2⟩ := run_counts h1
    refine ⟨rest, _, state, d, _, _, e, by rw [← h2]; exact hst, asserts_of hs h1, ?_, ?_⟩
    · dsimp only; rw [h3.failures]; exact c1
    · dsimp only; rw [h3.failures]; exact c2
  · obtain ⟨ps, hps, hmay, hshould⟩ := special_of_tagged hs.tags
    have := run_flags h1 hps
    rw [h3.failures, ← hmay, ← hshould]
    exact this

/-- The program for a command line that asks for a run, with everything in between. -/
theorem main_told [Run.MessageLimit] (src : Source) {lim : Reg.Limits} {fuel maxArgs : Nat} (reporters : List Text)
    (init : Nat → Nat → Nat) (config : Cli.Config) (argv0 : Text) {argv : List Text} {cases : List Reg.Case}
    (hlen : argv.length ≤ maxArgs) (tags : Reg.Case → List Text) (hcases : ∀ c ∈ cases, Sound lim fuel c.test (tags c))
    {ts : List Cli.Spec.Token} (hts : Cli.Spec.tokens argv = some ts) (hn : (Cli.Spec.optionNames ts).Nodup)
    (hno : ∀ l ∈ listing, l ∉ Cli.Spec.optionNames ts) :
    ∃ v pred cases' log success es, ∃ (parts : List Part) (run fail allowedFail skip : Nat) (counts : Counts) (d : Duration),
      v = verbosityOfRun reporters init config ts ∧
      (∀ c ∈ cases, ∃ b, pred c.test.id = .ok b ∧
        (b = true ↔ Verif.Spec.Selected (Cli.Spec.positionalsOf ts) ⟨Reg.Spec.fullName c.test.id, tags c⟩)) ∧
      Reg.runSelected { lim with cfg := { lim.cfg with verbosity := v } } fuel pred cases =
        some (.ok (cases', log, success)) ∧
      Reg.main lim fuel maxArgs reporters init config argv0 argv cases =
        some (.ok (if success then 0 else 1, log.map .event)) ∧
      Events.main src lim fuel maxArgs reporters init config argv0 argv cases =
        some (.ok (if success then 0 else 1, es.map .event)) ∧
      es = (if 1 ≤ v then [.runStarted (Cli.extractExecutable argv0) (Cli.Spec.positionalsOf ts)] else []) ++
        parts.flatMap (·.events) ++ (if 1 ≤ v then [.runEnded (Cli.extractExecutable argv0) (Cli.Spec.positionalsOf ts)
          run fail allowedFail skip counts d success] else []) ∧
      log = (if 1 ≤ v then [.runStarted] else []) ++ parts.flatMap (·.result.log) ++
        (if 1 ≤ v then
          [.runEnded run fail allowedFail skip counts.all counts.failed counts.allowed success] else []) ∧
      parts.map (·.test) = cases.filter (fun c => decide (pred c.test.id = .ok true)) ∧
      ∀ p ∈ parts, Run.run { lim.cfg with verbosity := v } fuel p.test.test = some (.ok p.result) ∧
        p.result.state = Run.Spec.verdictOf p.test.test (tags p.test) ∧ Tells src p.test.test p.result p.events := by
  obtain ⟨v, pred, cases', log, success, color, msgs, input, config', ⟨hp, hexe, hc, hv, hnone, hfil, hpred⟩, hv', hsel,
    hruns, hrun, hmain⟩ := main_parts reporters init config argv0 hlen tags hcases hts hn hno
  obtain ⟨parts, run, fail, allowedFail, skip, counts, d, h1, h2, h3, h4⟩ := runSelected_told src
    (Cli.extractExecutable argv0) (Cli.Spec.positionalsOf ts) hrun
  refine ⟨v, pred, cases', log, success, _, parts, run, fail, allowedFail, skip, counts, d, hv', hsel, hrun, hmain, ?_, rfl, h2,
    h3, ?_⟩
  · unfold Events.main
    rw [hp]
    simp only [hc]
    rw [hv]
    have : Events.runTests src { lim with cfg := { lim.cfg with verbosity := v } } fuel reporters input cases =
        Events.afterRun (Events.runSelected src { lim with cfg := { lim.cfg with verbosity := v } } fuel
          (Cli.extractExecutable argv0) (Cli.Spec.positionalsOf ts) pred cases) := by
      unfold Events.runTests
      rw [hnone "--help".toList (by decide), hnone "--list-tests-with-tag".toList (by decide),
        hnone "--list-tags".toList (by decide), hnone "--list-reporters".toList (by decide),
        hnone "--list-tests".toList (by decide), hfil]
      simp only [Option.isSome_none, Bool.false_eq_true, if_false, Events.runOrList]
      rw [hexe, hpred]
      by_cases hne : Cli.Spec.positionalsOf ts = []
      · rw [hne]
        rfl
      · rw [if_neg (by simpa using hne), selectForRun_filters hne]
    rw [this, h1]
    rfl
  · intro p hp
    obtain ⟨a1, a2⟩ := h4 p hp
    have hmem : p.test ∈ cases := by
      have : p.test ∈ parts.map (·.test) := List.mem_map.2 ⟨p, hp, rfl⟩
      rw [h3] at this
      exact (List.mem_filter.1 this).1
    obtain ⟨s, b1, b2, _⟩ := hruns p.test hmem
    rw [a1] at b1
    cases b1
    exact ⟨a1, b2, a2⟩

/-- The full statement of C80, for the events of a program: what it was started as and with which filters is told by every
event that has a place for it, and the end of every test says whether failures were expected or allowed. -/
def TellsAll (name : Text) (filters : List Text) (special : Id → Bool × Bool) (es : List Events.Event) : Prop :=
  (∀ e ∈ es, ∀ x, named e = some x → x = (name, filters)) ∧
  ∀ e ∈ es, ∀ id loc counts state d expected allowed, e = .caseEnded id loc counts state d expected allowed →
    (expected, allowed) = special id

/-- How many of these tests end in this way. -/
def howMany [Run.MessageLimit] (tags : Reg.Case → List Text) (st : Run.CaseState)
    (parts : List (Reg.Case × List Events.Event)) : Nat :=
  (parts.filter fun p => Run.Spec.verdictOf p.1.test (tags p.1) = st).length

/-- **C80**, the part that holds. A program that runs tests tells its reporter, from verbosity *normal* on, first the start
and last the end of the run, both with the name of the program (the file name without its extension) and the filters as given
on the command line; and in between, one part for each selected test, in the order of registration, in which every event is
about that test (name, tags, type, fixture and place as declared), and what happens in the test is told, as far as the
verbosity allows, as it happens: sections with names and places, assertions and skips with their sections, captures and place,
failures with flags as the tags of the test say. From verbosity *high* on a part begins with the start of the test and ends
with its end, which tells what became of the test and how many assertions there were. The end of the run tells the numbers of
tests of each kind, of assertions and of failures, and if the run is a success, as does the exit status.

Missing: the flags of the end of a test (`C80_flags_never_set`); lists (`C80_list_partial`, `C80_not_everything_told`). -/
theorem C80_run_partial [Run.MessageLimit] (src : Source) {lim : Reg.Limits} {fuel maxArgs : Nat} (reporters : List Text)
    (init : Nat → Nat → Nat) (config : Cli.Config) (argv0 : Text) {argv : List Text} {cases : List Reg.Case}
    (hlen : argv.length ≤ maxArgs) (tags : Reg.Case → List Text) (hcases : ∀ c ∈ cases, Sound lim fuel c.test (tags c))
    {ts : List Cli.Spec.Token} (hts : Cli.Spec.tokens argv = some ts) (hn : (Cli.Spec.optionNames ts).Nodup)
    (hno : ∀ l ∈ listing, l ∉ Cli.Spec.optionNames ts) :
    ∃ (code v : Nat) (es : List Events.Event) (sel : Reg.Case → Bool) (name : Text)
      (parts : List (Reg.Case × List Events.Event)),
      Events.main src lim fuel maxArgs reporters init config argv0 argv cases = some (.ok (code, es.map .event)) ∧
      v = verbosityOfRun reporters init config ts ∧
      (∀ c ∈ cases, sel c = true ↔
        Verif.Spec.Selected (Cli.Spec.positionalsOf ts) ⟨Reg.Spec.fullName c.test.id, tags c⟩) ∧
      (∃ file, Cli.Spec.IsFileName argv0 file ∧ Cli.Spec.IsStem file name) ∧
      parts.map (·.1) = cases.filter sel ∧
      (∀ p ∈ parts, OneTest src v p.1.test (tags p.1) p.2) ∧
      (v = 0 → es = parts.flatMap (·.2)) ∧
      (1 ≤ v → ∃ counts d, es = .runStarted name (Cli.Spec.positionalsOf ts) :: parts.flatMap (·.2) ++
        [.runEnded name (Cli.Spec.positionalsOf ts) parts.length (howMany tags .failed parts)
          (howMany tags .allowedFail parts) (howMany tags .skipped parts) counts d (decide (code = 0))] ∧
        counts.all = (parts.map fun p => assertions p.1.test (tags p.1)).sum ∧
        counts.failed = (es.filterMap failedFlags).count (false, false) ∧
        counts.failed + counts.allowed = (es.filterMap failedFlags).length) := by
  obtain ⟨v, pred, cases', log, success, es, parts, run, fail, allowedFail, skip, counts, d, hv, hsel, hrun, -, hmain, hes, hlog,
    hparts, hp⟩ := main_told src reporters init config argv0 hlen tags hcases hts hn hno
  have hmem : ∀ p ∈ parts, p.test ∈ cases := by
    intro p hpm
    have : p.test ∈ parts.map (·.test) := List.mem_map.2 ⟨p, hpm, rfl⟩
    rw [hparts] at this
    exact (List.mem_filter.1 this).1
  have hasserts : ∀ p ∈ parts, p.result.asserts = assertions p.test.test (tags p.test) := by
    intro p hpm
    exact asserts_of (hcases _ (hmem p hpm)) (hp p hpm).1
  refine ⟨_, v, es, fun c => decide (pred c.test.id = .ok true), Cli.extractExecutable argv0,
    parts.map fun p => (p.test, p.events), hmain, hv, ?_, C50_executable argv0, ?_, ?_, ?_, ?_⟩
  · intro c hc
    obtain ⟨b, e, h⟩ := hsel c hc
    rw [← h]
    dsimp only
    rw [e]
    cases b <;> simp
  · rw [List.map_map]; exact hparts
  · intro q hq
    obtain ⟨p, hpm, rfl⟩ := List.mem_map.1 hq
    obtain ⟨h1, h2, h3⟩ := hp p hpm
    exact oneTest_of (hcases _ (hmem p hpm)) h1 h2 h3
  · rintro rfl
    rw [hes]; simp [List.flatMap_map]
  · intro hv1
    have hcount : ∀ st, howMany tags st (parts.map fun p => (p.test, p.events)) =
        Reg.Spec.count st (parts.map (·.result)) := by
      intro st
      unfold howMany Reg.Spec.count
      rw [List.filter_map, List.filter_map, List.length_map, List.length_map]
      congr 1
      apply List.filter_congr
      intro p hpm
      obtain ⟨_, h2, _⟩ := hp p hpm
      simp only [Function.comp, h2]
    obtain ⟨rs, r1, r2, -⟩ := C29_run hrun
    obtain rfl : rs = parts.map (·.result) := by
      rw [← hparts, List.map_map] at r1
      have e : parts.map ((fun c : Reg.Case => Run.run { lim.cfg with verbosity := v } fuel c.test) ∘ fun p => p.test) =
          (parts.map (·.result)).map fun r => some (.ok r) := by
        rw [List.map_map]
        exact List.map_congr_left fun p hpm => (hp p hpm).1
      exact (List.map_inj_right fun a b h => by simpa using h).1 (r1.symm.trans e)
    have r2 := r2 hv1
    rw [hlog, if_pos hv1, if_pos hv1, List.flatMap_map] at r2
    have r3 := List.append_cancel_left r2
    simp only [List.cons.injEq, Run.Event.runEnded.injEq, and_true, List.length_map] at r3
    obtain ⟨n1, n2, n3, n4, n5, n6, n7⟩ := r3
    have hflags : es.filterMap failedFlags = parts.flatMap fun p => p.result.log.filterMap logFlags := by
      rw [hes, if_pos hv1, if_pos hv1]
      simp only [List.filterMap_append, List.filterMap_cons, failedFlags, List.filterMap_nil, List.nil_append,
        List.append_nil]
      rw [List.filterMap_flatMap]
      rw [List.flatMap_def, List.flatMap_def]
      congr 1
      exact List.map_congr_left fun p hpm => (hp p hpm).2.2.failures
    refine ⟨counts, d, ?_, ?_, ?_, ?_⟩
    rotate_left
    · rw [n5, Reg.Spec.total, List.map_map, List.map_map]
      congr 1
      exact List.map_congr_left fun p hpm => hasserts p hpm
    · rw [n6, Reg.Spec.total, List.map_map, hflags, List.count_flatMap]
      congr 1
      exact List.map_congr_left fun p hpm => (run_counts (hp p hpm).1).1
    · rw [n6, n7, hflags, List.length_flatMap, Reg.Spec.total, Reg.Spec.total, List.map_map, List.map_map]
      have : ∀ l : List Part, (∀ p ∈ l, p ∈ parts) → (l.map ((fun r : Run.TS => r.failures) ∘ fun p => p.result)).sum +
          (l.map ((fun r : Run.TS => r.allowed) ∘ fun p => p.result)).sum =
          (l.map fun p => (p.result.log.filterMap logFlags).length).sum := by
        intro l hl
        induction l with
        | nil => rfl
        | cons p l ih =>
          have i1 := ih fun q hq => hl q (by simp [hq])
          have i2 := (run_counts (hp p (hl p (by simp))).1).2
          simp only [List.map_cons, List.sum_cons, Function.comp] at i1 ⊢
          omega
      exact this parts fun _ h => h
    rw [hcount, hcount, hcount, ← n2, ← n3, ← n4, List.length_map, ← n1, hes, if_pos hv1, if_pos hv1, List.flatMap_map]
    cases success <;> rfl

/-- **C80** fails for the two flags of the end of a test: no run ever sets them. -/
theorem C80_flags_never_set [Run.MessageLimit] (src : Source) {lim : Reg.Limits} {fuel maxArgs : Nat} (reporters : List Text)
    (init : Nat → Nat → Nat) (config : Cli.Config) (argv0 : Text) {argv : List Text} {cases : List Reg.Case}
    (hlen : argv.length ≤ maxArgs) (tags : Reg.Case → List Text) (hcases : ∀ c ∈ cases, Sound lim fuel c.test (tags c))
    {ts : List Cli.Spec.Token} (hts : Cli.Spec.tokens argv = some ts) (hn : (Cli.Spec.optionNames ts).Nodup)
    (hno : ∀ l ∈ listing, l ∉ Cli.Spec.optionNames ts) :
    ∃ (code : Nat) (es : List Events.Event),
      Events.main src lim fuel maxArgs reporters init config argv0 argv cases = some (.ok (code, es.map .event)) ∧
      ∀ e ∈ es, FlagsTrue false false e := by
  obtain ⟨v, pred, cases', log, success, es, parts, run, fail, allowedFail, skip, counts, d, hv, hsel, hrun, hreg, hmain, hes,
    hlog, hparts, hp⟩ := main_told src reporters init config argv0 hlen tags hcases hts hn hno
  refine ⟨_, es, hmain, ?_⟩
  rw [hes]
  intro e he
  simp only [List.mem_append] at he
  rcases he with (he | he) | he
  · split at he
    · simp only [List.mem_singleton] at he; subst he; trivial
    · cases he
  · obtain ⟨p, hpm, he⟩ := List.mem_flatMap.1 he
    exact (hp p hpm).2.2.flags e he
  · split at he
    · simp only [List.mem_singleton] at he; subst he; trivial
    · cases he

/-- The events of such a program, as the reporters see them. -/
private theorem main_reports [Run.MessageLimit] (src : Source) {lim : Reg.Limits} {fuel maxArgs : Nat} (reporters : List Text)
    (init : Nat → Nat → Nat) (config : Cli.Config) (argv0 : Text) {argv : List Text} {cases : List Reg.Case}
    (hlen : argv.length ≤ maxArgs) (tags : Reg.Case → List Text) (hcases : ∀ c ∈ cases, Sound lim fuel c.test (tags c))
    {ts : List Cli.Spec.Token} (hts : Cli.Spec.tokens argv = some ts) (hn : (Cli.Spec.optionNames ts).Nodup)
    (hno : ∀ l ∈ listing, l ∉ Cli.Spec.optionNames ts) :
    ∃ v pred cases' log success, ∃ (es : List Events.Event) (parts : List Part),
      v = verbosityOfRun reporters init config ts ∧
      (∀ c ∈ cases, decide (pred c.test.id = .ok true) = true ↔
        Verif.Spec.Selected (Cli.Spec.positionalsOf ts) ⟨Reg.Spec.fullName c.test.id, tags c⟩) ∧
      Reg.runSelected { lim with cfg := { lim.cfg with verbosity := v } } fuel pred cases =
        some (.ok (cases', log, success)) ∧
      Reg.main lim fuel maxArgs reporters init config argv0 argv cases =
        some (.ok (if success then 0 else 1, log.map .event)) ∧
      Events.main src lim fuel maxArgs reporters init config argv0 argv cases =
        some (.ok (if success then 0 else 1, es.map .event)) ∧
      (1 ≤ v → es.head? = some (.runStarted (Cli.extractExecutable argv0) (Cli.Spec.positionalsOf ts)) ∧
        ∃ run fail allowedFail skip counts d, es.getLast? = some (.runEnded (Cli.extractExecutable argv0)
          (Cli.Spec.positionalsOf ts) run fail allowedFail skip counts d success)) ∧
      parts.map (·.test) = cases.filter (fun c => decide (pred c.test.id = .ok true)) ∧
      (∀ p ∈ parts, Run.run { lim.cfg with verbosity := v } fuel p.test.test = some (.ok p.result) ∧
        p.result.state = Run.Spec.verdictOf p.test.test (tags p.test)) ∧
      Report.Spec.ToldAll log (es.map Event.report) ∧
      Report.Spec.Console.ToldRun ((parts.map (·.test.test.id)).zip (parts.map (·.result.log))) log
        (es.map Event.console) := by
  obtain ⟨v, pred, cases', log, success, es, parts, run, fail, allowedFail, skip, counts, d, hv, hsel, hrun, hreg, hmain, hes,
    hlog, hparts, hp⟩ := main_told src reporters init config argv0 hlen tags hcases hts hn hno
  obtain ⟨h1, h2⟩ := told_parts parts fun p hpm => (hp p hpm).2.2
  have hz : ((parts.map (·.test.test.id)).zip (parts.map (·.result.log))).flatMap (·.2) = parts.flatMap (·.result.log) := by
    rw [flatMap_zip _ _ (by simp), List.flatMap_def]
  refine ⟨v, pred, cases', log, success, es, parts, hv, ?_, hrun, hreg, hmain, ?_, hparts,
    fun p hpm => ⟨(hp p hpm).1, (hp p hpm).2.1⟩, ?_, ?_⟩
  · intro c hc
    obtain ⟨b, e, h⟩ := hsel c hc
    rw [← h, e]
    cases b <;> simp
  · intro hv1
    rw [hes, if_pos hv1, if_pos hv1]
    exact ⟨rfl, run, fail, allowedFail, skip, counts, d, List.getLast?_concat ..⟩
  · rw [hlog, hes]
    by_cases hv1 : 1 ≤ v
    · rw [if_pos hv1, if_pos hv1, if_pos hv1, if_pos hv1, List.map_append, List.map_append]
      refine told_parts.told_append (told_parts.told_append (.cons (.runStarted ..) .nil) h1) (.cons (.runEnded ..) .nil)
    · rw [if_neg hv1, if_neg hv1, if_neg hv1, if_neg hv1, List.map_append, List.map_append]
      simpa using h1
  · rw [hlog, hes, ← hz]
    by_cases hv1 : 1 ≤ v
    · rw [if_pos hv1, if_pos hv1, if_pos hv1, if_pos hv1, List.map_append, List.map_append]
      exact .framed _ _ _ _ _ _ _ _ _ _ h2
    · rw [if_neg hv1, if_neg hv1, if_neg hv1, if_neg hv1, List.map_append, List.map_append]
      simpa using Report.Spec.Console.ToldRun.quiet h2

open Verif.Report.Spec in
/-- **C80**, **C67**, **C40**. With the XML reporter: what the program passes to the reporter makes, if it fits in the buffers
of the reporter, a document with the name of the program and the filters, and an element for each selected test that says
whether the test is a success; the exit status is 0 if and only if all do. -/
theorem C80_xml [Run.MessageLimit] (src : Source) {lim : Reg.Limits} {fuel maxArgs : Nat} (reporters : List Text)
    (init : Nat → Nat → Nat) (config : Cli.Config) (argv0 : Text) {argv : List Text} {cases : List Reg.Case}
    (hlen : argv.length ≤ maxArgs) (tags : Reg.Case → List Text) (hcases : ∀ c ∈ cases, Sound lim fuel c.test (tags c))
    {ts : List Cli.Spec.Token} (hts : Cli.Spec.tokens argv = some ts) (hn : (Cli.Spec.optionNames ts).Nodup)
    (hno : ∀ l ∈ listing, l ∉ Cli.Spec.optionNames ts) {i : Nat}
    (hi : Configure.Spec.choice reporters (Cli.Spec.given "--reporter" ts) = some i)
    (hinit : init i = Xml.initVerbosity)
    (hnest : ∀ c ∈ cases, ∀ v r, Run.run { lim.cfg with verbosity := v } fuel c.test = some (.ok r) →
      Nested (Run.Spec.sectionMarks r.log))
    {rl : Report.Limits} (hrl : LimitsOk rl) :
    ∃ (code : Nat) (es : List Events.Event) (sel : Reg.Case → Bool) (name : Text),
      Events.main src lim fuel maxArgs reporters init config argv0 argv cases = some (.ok (code, es.map .event)) ∧
      (∀ c ∈ cases, sel c = true ↔
        Verif.Spec.Selected (Cli.Spec.positionalsOf ts) ⟨Reg.Spec.fullName c.test.id, tags c⟩) ∧
      (∃ file, Cli.Spec.IsFileName argv0 file ∧ Cli.Spec.IsStem file name) ∧
      ((∀ e ∈ es, EventOk rl e.report) →
        ∃ rep tests run fail allowedFail skip counts, Xml.reportAll rl (es.map Event.report) {} = .ok rep ∧
          document rep.out = some (runNode rl name (Cli.Spec.positionalsOf ts) tests run fail allowedFail skip counts) ∧
          tests.map testName = (cases.filter sel).map (fun c =>
            some (attr (Report.Spec.fullName ⟨c.test.id.name, c.test.id.tags, c.test.id.type, []⟩))) ∧
          tests.map testSuccess = (cases.filter sel).map (fun c =>
            some (yesNo (decide (Run.Spec.verdictOf c.test (tags c) ≠ .failed)))) ∧
          (code = 0 ↔ ∀ t ∈ tests, testSuccess t = some "true".toList)) := by
  obtain ⟨v, pred, cases', log, success, es, parts, hv, hsel, hrun, hreg, hmain, hends, -, -, htold, -⟩ := main_reports src
    reporters init config argv0 hlen tags hcases hts hn hno
  obtain ⟨code, log', sel, h1, h2, h3⟩ := C67_xml reporters init config argv0 hlen tags hcases hts hn hno hi hinit hnest hrl
  rw [hreg] at h1
  simp only [Option.some.injEq, Outcome.ok.injEq, Prod.mk.injEq] at h1
  obtain ⟨rfl, hl⟩ := h1
  obtain rfl : log = log' := (List.map_inj_right fun a b h => by cases h; rfl).1 hl
  refine ⟨_, es, sel, Cli.extractExecutable argv0, hmain, h2, C50_executable argv0, fun hok => ?_⟩
  obtain ⟨rep, tests, name, filters, run, fail, allowedFail, skip, counts, k1, k2, k3, k4, k5, k6⟩ := h3 _ htold
    (by simpa using hok)
  have hv1 : 1 ≤ v := by
    rw [hv]
    unfold verbosityOfRun
    rw [hi, Option.some_or]
    dsimp only
    rw [hinit]
    unfold Xml.initVerbosity
    split <;> omega
  rw [List.head?_map, (hends hv1).1] at k6
  cases k6
  exact ⟨rep, tests, run, fail, allowedFail, skip, counts, k1, k2, k3, k4, k5⟩

open Verif.Report.Spec Verif.Report.Spec.TeamCity in
/-- **C80**, **C67**, **C55**. With the TeamCity reporter: the messages begin and end with the start and the finish of the same
suite, named after the program and the filters; in between, there are the messages of the selected tests. The exit status is 0
if and only if none of them says that a test failed. -/
theorem C80_teamcity [Run.MessageLimit] (src : Source) {lim : Reg.Limits} {fuel maxArgs : Nat} (reporters : List Text)
    (init : Nat → Nat → Nat) (config : Cli.Config) (argv0 : Text) {argv : List Text} {cases : List Reg.Case}
    (hlen : argv.length ≤ maxArgs) (tags : Reg.Case → List Text) (hcases : ∀ c ∈ cases, Sound lim fuel c.test (tags c))
    {ts : List Cli.Spec.Token} (hts : Cli.Spec.tokens argv = some ts) (hn : (Cli.Spec.optionNames ts).Nodup)
    (hno : ∀ l ∈ listing, l ∉ Cli.Spec.optionNames ts) {i : Nat}
    (hi : Configure.Spec.choice reporters (Cli.Spec.given "--reporter" ts) = some i)
    (hinit : init i = TeamCity.initVerbosity)
    {rl : Report.Limits} (hrl : Report.Spec.TeamCity.LimitsOk rl) :
    ∃ (code : Nat) (es : List Events.Event) (sel : Reg.Case → Bool) (name : Text),
      Events.main src lim fuel maxArgs reporters init config argv0 argv cases = some (.ok (code, es.map .event)) ∧
      (∀ c ∈ cases, sel c = true ↔
        Verif.Spec.Selected (Cli.Spec.positionalsOf ts) ⟨Reg.Spec.fullName c.test.id, tags c⟩) ∧
      (∃ file, Cli.Spec.IsFileName argv0 file ∧ Cli.Spec.IsStem file name) ∧
      ((∀ e ∈ es, Report.Spec.TeamCity.EventOk rl e.report) →
        ∃ rep ms, TeamCity.reportAll rl (es.map Event.report) {} = .ok rep ∧
          messages rep.out = some
            (⟨"testSuiteStarted".toList, [("name".toList, suite name (Cli.Spec.positionalsOf ts))]⟩ :: ms ++
              [⟨"testSuiteFinished".toList, [("name".toList, suite name (Cli.Spec.positionalsOf ts))]⟩]) ∧
          TestsTold ((cases.filter sel).map fun c =>
            (testFullName c.test, decide (Run.Spec.verdictOf c.test (tags c) = .failed))) ms ∧
          (code = 0 ↔ ∀ m ∈ ms, m.name ≠ "testFailed".toList)) := by
  obtain ⟨v, pred, cases', log, success, es, parts, hv, hsel, hrun, hreg, hmain, hends, -, -, htold, -⟩ := main_reports src
    reporters init config argv0 hlen tags hcases hts hn hno
  obtain ⟨code, log', sel, h1, h2, h3⟩ := C67_teamcity reporters init config argv0 hlen tags hcases hts hn hno hi hinit hrl
  rw [hreg] at h1
  simp only [Option.some.injEq, Outcome.ok.injEq, Prod.mk.injEq] at h1
  obtain ⟨rfl, hl⟩ := h1
  obtain rfl : log = log' := (List.map_inj_right fun a b h => by cases h; rfl).1 hl
  refine ⟨_, es, sel, Cli.extractExecutable argv0, hmain, h2, C50_executable argv0, fun hok => ?_⟩
  obtain ⟨rep, ms, name, filters, name', filters', k1, k2, k3, k4, k5, n1, n2, n3, n4, cs, k6⟩ := h3 _ htold
    (by simpa using hok)
  have hv1 : 1 ≤ v := by
    rw [hv]
    unfold verbosityOfRun
    rw [hi, Option.some_or]
    dsimp only
    rw [hinit]
    unfold TeamCity.initVerbosity
    split <;> omega
  obtain ⟨e1, m1, m2, m3, m4, m5, m6, e2⟩ := hends hv1
  rw [List.head?_map, e1] at k5
  rw [List.getLast?_map, e2] at k6
  cases k5
  cases k6
  exact ⟨rep, ms, k1, k2, k3, k4⟩

open Verif.Report.Spec Verif.Report.Spec.Console in
/-- **C80**, **C57**, **C79**. With the console reporter, at any verbosity: without colours, the tests for which the report
has a line saying that they failed are exactly the selected tests that fail, and the exit status is 0 if and only if there is
none; with colours, the exit status is 0 if and only if nothing in the report is red. -/
theorem C80_console [Run.MessageLimit] (src : Source) {lim : Reg.Limits} {fuel maxArgs : Nat} (reporters : List Text)
    (init : Nat → Nat → Nat) (config : Cli.Config) (argv0 : Text) {argv : List Text} {cases : List Reg.Case}
    (hlen : argv.length ≤ maxArgs) (tags : Reg.Case → List Text) (hcases : ∀ c ∈ cases, Sound lim fuel c.test (tags c))
    {ts : List Cli.Spec.Token} (hts : Cli.Spec.tokens argv = some ts) (hn : (Cli.Spec.optionNames ts).Nodup)
    (hno : ∀ l ∈ listing, l ∉ Cli.Spec.optionNames ts)
    {rl : Report.Limits} (hrl : Report.Spec.Console.LimitsOk rl) :
    ∃ (code : Nat) (es : List Events.Event) (sel : Reg.Case → Bool),
      Events.main src lim fuel maxArgs reporters init config argv0 argv cases = some (.ok (code, es.map .event)) ∧
      (∀ c ∈ cases, sel c = true ↔
        Verif.Spec.Selected (Cli.Spec.positionalsOf ts) ⟨Reg.Spec.fullName c.test.id, tags c⟩) ∧
      ((∀ e ∈ es, Report.Spec.Console.EventOk rl e.console) → es.length < 2 ^ 64 →
        ((∀ e ∈ es, Without rl '\n' e.console) → ∃ st, Console.reportAll rl false (es.map Event.console) {} = .ok st ∧
          (∀ n, n ∈ failures st.out ↔
            ∃ c ∈ cases, sel c = true ∧ c.test.id.name = n ∧ Run.Spec.verdictOf c.test (tags c) = .failed) ∧
          (code = 0 ↔ failures st.out = [])) ∧
        ((∀ e ∈ es, Without rl '\x1b' e.console) → ∃ st, Console.reportAll rl true (es.map Event.console) {} = .ok st ∧
          (code = 0 ↔ ¬∃ t, (Report.Spec.Colors.red, t) ∈ Report.Spec.Colors.parts st.out))) := by
  obtain ⟨v, pred, cases', log, success, es, parts, hv, hsel, hrun, hreg, hmain, hends, hparts, hp, -, htold⟩ :=
    main_reports src reporters init config argv0 hlen tags hcases hts hn hno
  refine ⟨_, es, fun c => decide (pred c.test.id = .ok true), hmain, hsel, fun hok hlen => ?_⟩
  have hrs : (cases.filter fun c => decide (pred c.test.id = .ok true)).map
      (fun c => Run.run { lim.cfg with verbosity := v } fuel c.test) = (parts.map (·.result)).map fun r => some (.ok r) := by
    rw [← hparts, List.map_map, List.map_map]
    exact List.map_congr_left fun p hpm => (hp p hpm).1
  have hz : ((cases.filter fun c => decide (pred c.test.id = .ok true)).map (·.test.id)).zip
      ((parts.map (·.result)).map (·.log)) = (parts.map (·.test.test.id)).zip (parts.map (·.result.log)) := by
    rw [← hparts, List.map_map, List.map_map]; rfl
  constructor
  · intro hw
    obtain ⟨st, k1, k2, k3, -⟩ := C57_run hrun hrl _ hrs (es.map Event.console) (by rw [hz]; exact htold) (by simpa using hok)
      (by simpa using hlen) (by simpa using hw)
    refine ⟨st, k1, ?_, ?_⟩
    · intro n
      rw [k2, hz, List.zip_map']
      simp only [List.mem_flatMap, List.mem_map, List.mem_replicate]
      constructor
      · rintro ⟨_, ⟨p, hpm, rfl⟩, hne, rfl⟩
        have hmem : p.test ∈ cases.filter fun c => decide (pred c.test.id = .ok true) := by
          rw [← hparts]; exact List.mem_map.2 ⟨p, hpm, rfl⟩
        obtain ⟨m1, m2⟩ := List.mem_filter.1 hmem
        refine ⟨p.test, m1, m2, rfl, ?_⟩
        rw [← (hp p hpm).2, C26_failed_iff_reported (hp p hpm).1]
        cases hany : p.result.log.any isRealFailure with
        | true => rfl
        | false =>
          refine absurd ?_ hne
          rw [List.length_eq_zero_iff, List.filter_eq_nil_iff]
          exact List.any_eq_false.1 hany
      · rintro ⟨c, hc, hs, rfl, hf⟩
        have hmem : c ∈ parts.map (·.test) := by rw [hparts]; exact List.mem_filter.2 ⟨hc, hs⟩
        obtain ⟨p, hpm, rfl⟩ := List.mem_map.1 hmem
        refine ⟨_, ⟨p, hpm, rfl⟩, ?_, rfl⟩
        rw [← (hp p hpm).2, C26_failed_iff_reported (hp p hpm).1] at hf
        obtain ⟨e, he, hre⟩ := List.any_eq_true.1 hf
        intro h0
        rw [List.length_eq_zero_iff, List.filter_eq_nil_iff] at h0
        exact h0 e he hre
    · rw [← k3]; cases success <;> simp
  · intro hw
    obtain ⟨st, k1, k2, -⟩ := C79_run hrun hrl _ hrs (es.map Event.console) (by rw [hz]; exact htold) (by simpa using hok)
      (by simpa using hlen) (by simpa using hw)
    refine ⟨st, k1, ?_⟩
    rw [← k2]; cases success <;> simp

/-- The loop of `list_tests`, when nothing stops it. -/
theorem listLoop_told (src : Source) {pred : Filter.TestId → Outcome Bool} : ∀ {cases : List Reg.Case},
    (∀ c ∈ cases, ∃ b, pred c.test.id = .ok b) →
    Events.listLoop src pred cases = .ok ((cases.filter fun c => decide (pred c.test.id = .ok true)).map fun c =>
      .listed (declared src c.test) (src.loc c.test.loc))
  | [], _ => rfl
  | c :: cs, h => by
    obtain ⟨b, hb⟩ := h c (by simp)
    rw [Events.listLoop, hb, Outcome.bind_ok, listLoop_told src fun d hd => h d (by simp [hd]), List.filter_cons, hb]
    cases b <;> rfl

/-- **C80** for lists, the part that holds: between a start and an end, `--list-tests` tells the selected tests (all of them
without filters) in the order of registration, each with its name, tags, type, fixture and place. But the start and the end
have neither the name of the program nor the filters. -/
theorem C80_list_partial [Run.MessageLimit] (src : Source) {lim : Reg.Limits} (fuel : Nat) (name : Text) (filters : List Text)
    {cases : List Reg.Case} (tags : Reg.Case → List Text)
    (ht : ∀ c ∈ cases, Reg.Spec.Tagged lim.cfg.maxTag c.test.id (tags c))
    (hn : ∀ c ∈ cases, Reg.Spec.Registrable lim.maxName c.test) :
    ∃ sel : Reg.Case → Bool,
      (∀ c ∈ cases, sel c = true ↔
        filters = [] ∨ Verif.Spec.Selected filters ⟨Reg.Spec.fullName c.test.id, tags c⟩) ∧
      Events.runOrList src lim fuel name true filters cases = some (.ok (cases,
        ([Events.Event.listStarted [] []] ++
          (cases.filter sel).map (fun c => Events.Event.listed (declared src c.test) (src.loc c.test.loc)) ++
          [Events.Event.listEnded [] []]).map .event, true)) := by
  by_cases hne : filters = []
  · subst hne
    refine ⟨fun _ => true, fun c _ => by simp, ?_⟩
    rw [Events.runOrList, if_pos rfl, if_pos rfl, Events.listAllTests, Events.listTests,
      listLoop_told src fun c _ => ⟨true, rfl⟩]
    rw [show (cases.filter fun c => decide ((fun _ : Filter.TestId => Outcome.ok true) c.test.id = .ok true)) = cases by simp,
      List.filter_eq_self.2 fun _ _ => rfl]
    rfl
  · have hpred : ∀ c ∈ cases, ∃ b, Filter.selectWithFilters lim.cfg.maxTag lim.maxName filters c.test.id =
        .ok b ∧ (b = true ↔ Verif.Spec.Selected filters ⟨Reg.Spec.fullName c.test.id, tags c⟩) := by
      intro c hc
      obtain ⟨h1, h2, h3⟩ := ht c hc
      obtain ⟨b, e, v⟩ := C16_selection lim.cfg.maxTag lim.maxName filters c.test.id (tags c) h1 h2 h3
      rw [selectForRun_filters hne] at e
      rw [Reg.makeFullName_eq, if_pos (hn c hc).2] at v
      exact ⟨b, e, v⟩
    refine ⟨fun c => decide (Filter.selectWithFilters lim.cfg.maxTag lim.maxName filters c.test.id = .ok true), ?_, ?_⟩
    · intro c hc
      obtain ⟨b, e, v⟩ := hpred c hc
      rw [← v]
      dsimp only
      rw [e]
      cases b <;> simp [hne]
    · rw [Events.runOrList, if_neg (by simpa using hne)]
      dsimp only
      rw [if_pos rfl, Events.listTests, listLoop_told src fun c hc => (hpred c hc).imp fun _ h => h.1]
      rfl

/-! ## Examples -/

/-- What the source of the tests below says. -/
def exampleSource : Source where
  fixture _ := []
  loc n := ⟨"f.cpp".toList, n⟩
  sec n := ⟨⟨"s".toList, []⟩, ⟨"f.cpp".toList, n⟩⟩
  data _ d := .expression "CHECK".toList "a[0] == 1".toList d
  duration _ := ⟨"0.5".toList, 500000⟩

/-- The tags of the tests of C55: a test, a hidden one, and one that fails in a section. -/
def teamcityTags (c : Reg.Case) : List Text :=
  if c.test.id.tags = [] then [] else if c.test.id.tags = "[x]".toList then ["x".toList] else [".".toList]

theorem teamcity_sound : ∀ c ∈ teamcityCases, Sound (defaultLimits 1) 5 c.test (teamcityTags c) := by
  simp only [teamcityCases, List.forall_mem_cons]
  refine ⟨sound_same rfl (by decide) ⟨by decide, ?_, ?_⟩ ?_ (by decide) (by decide) (by decide),
    sound_same rfl (by decide) ⟨by decide, ?_, ?_⟩ ?_ (by decide) (by decide) (by decide),
    sound_same rfl (by decide) ⟨by decide, ?_, ?_⟩ ?_ (by decide) (by decide) (by decide), by simp⟩
  all_goals simp [teamcityTags, mkTest, Verif.Spec.TagOk, Verif.Spec.Hides, Run.Spec.Tidy, defaultLimits, defaults]

/-- The reporters of the example, and what they do to the verbosity. -/
def exampleReporters : List Text := ["console", "teamcity", "xml"].map String.toList

def exampleInit (i v : Nat) : Nat :=
  if i = 1 then TeamCity.initVerbosity v else if i = 2 then Xml.initVerbosity v else v

/-- What the program `bin/prog.exe` tells with `-v high`. -/
def exampleEvents : List Events.Event :=
  [.runStarted "prog".toList [], .caseStarted ⟨"first".toList, [], [], []⟩ ⟨"f.cpp".toList, 1⟩,
    .caseEnded ⟨"first".toList, [], [], []⟩ ⟨"f.cpp".toList, 1⟩ ⟨1, 0, 0⟩ .success ⟨"0.5".toList, 500000⟩ false false,
    .caseStarted ⟨"it's third".toList, "[x]".toList, [], []⟩ ⟨"f.cpp".toList, 1⟩,
    .sectionStarted ⟨"s".toList, []⟩ ⟨"f.cpp".toList, 1⟩,
    .assertionFailed ⟨"it's third".toList, "[x]".toList, [], []⟩
      ⟨[⟨⟨"s".toList, []⟩, ⟨"f.cpp".toList, 1⟩⟩], [], ⟨"f.cpp".toList, 2⟩, .exact⟩
      (.expression "CHECK".toList "a[0] == 1".toList "x".toList) false false,
    .sectionEnded ⟨"s".toList, []⟩ ⟨"f.cpp".toList, 1⟩ false ⟨1, 1, 0⟩ ⟨"0.5".toList, 500000⟩,
    .caseEnded ⟨"it's third".toList, "[x]".toList, [], []⟩ ⟨"f.cpp".toList, 1⟩ ⟨2, 1, 0⟩ .failed
      ⟨"0.5".toList, 500000⟩ false false,
    .runEnded "prog".toList [] 2 1 0 0 ⟨3, 1, 0⟩ ⟨"0.5".toList, 500000⟩ false]

open Defaults in
set_option maxRecDepth 20000 in
theorem exampleMain : Events.main exampleSource (defaultLimits 1) 5 1024 exampleReporters exampleInit (initialConfig false)
    "bin/prog.exe".toList (["-v", "high"].map String.toList) teamcityCases =
      some (.ok (1, exampleEvents.map .event)) := by
  rfl

private theorem same_events [Run.MessageLimit] {code code' : Nat} {es es' : List Events.Event}
    (h : some (Outcome.ok (code, es.map Events.Out.event)) = some (.ok (code', es'.map .event))) : code = code' ∧ es = es' := by
  simp only [Option.some.injEq, Outcome.ok.injEq, Prod.mk.injEq] at h
  exact ⟨h.1, (List.map_inj_right fun a b h => by cases h; rfl).1 h.2⟩

open Defaults in
/-- The hypotheses of `C80_run_partial` hold for it; so the first and the last test run, and what is told is about them. -/
example : ∃ parts : List (Reg.Case × List Events.Event), (parts.map (·.1.test.id.name)).length = 2 ∧
    (∀ p ∈ parts, OneTest exampleSource 2 p.1.test (teamcityTags p.1) p.2) ∧
    exampleEvents.tail.dropLast = parts.flatMap (·.2) := by
  obtain ⟨code, v, es, sel, name, parts, h1, h2, h3, h4, h5, h6, h7, h8⟩ := C80_run_partial exampleSource
    (maxArgs := 1024) exampleReporters exampleInit (initialConfig false) "bin/prog.exe".toList
    (argv := ["-v", "high"].map String.toList) (by decide) teamcityTags teamcity_sound (ts := _) rfl (by decide) (by decide)
  rw [exampleMain] at h1
  obtain ⟨rfl, rfl⟩ := same_events h1
  have hv : v = 2 := by rw [h2]; decide
  subst hv
  obtain ⟨counts, d, e, -⟩ := h8 (by decide)
  refine ⟨parts, ?_, h6, ?_⟩
  · have := congrArg List.getLast? e
    rw [List.getLast?_concat] at this
    simp only [exampleEvents, List.getLast?_cons_cons, List.getLast?_singleton, Option.some.injEq,
      Events.Event.runEnded.injEq] at this
    rw [List.length_map, ← this.2.2.1]
  · rw [e, List.cons_append, List.tail_cons, List.dropLast_concat]

theorem exampleEvents_ok : (∀ e ∈ exampleEvents, Report.Spec.Console.EventOk teamcityLimits e.console) ∧
    (∀ e ∈ exampleEvents, Report.Spec.Console.Without teamcityLimits '\n' e.console) ∧
    ∀ e ∈ exampleEvents, Report.Spec.Console.Without teamcityLimits '\x1b' e.console := by
  refine ⟨?_, ?_, ?_⟩
  all_goals
    simp only [exampleEvents, List.forall_mem_cons]
    refine ⟨?_, ?_, ?_, ?_, ?_, ?_, ?_, ?_, ?_, by simp⟩
  all_goals first | exact ⟨by decide, by decide, by decide, by decide⟩ | exact ⟨by decide, by decide, by decide⟩

open Defaults in
/-- What is told fits in the buffers of the console reporter; the report says that the last test fails, and only this test. -/
example : ∃ st, Console.reportAll teamcityLimits false (exampleEvents.map Event.console) {} = .ok st ∧
    ∀ n, n ∈ Report.Spec.Console.failures st.out ↔
      ∃ c ∈ teamcityCases, Verif.Spec.Selected [] ⟨Reg.Spec.fullName c.test.id, teamcityTags c⟩ ∧
        c.test.id.name = n ∧ Run.Spec.verdictOf c.test (teamcityTags c) = .failed := by
  obtain ⟨code, es, sel, h1, h2, h3⟩ := C80_console exampleSource
    (maxArgs := 1024) exampleReporters exampleInit (initialConfig false) "bin/prog.exe".toList
    (argv := ["-v", "high"].map String.toList) (by decide) teamcityTags teamcity_sound (ts := _) rfl (by decide) (by decide)
    (rl := teamcityLimits) (by unfold Report.Spec.Console.LimitsOk teamcityLimits; decide)
  rw [exampleMain] at h1
  obtain ⟨rfl, rfl⟩ := same_events h1
  obtain ⟨st, k1, k2, -⟩ := (h3 exampleEvents_ok.1 (by decide)).1 exampleEvents_ok.2.1
  refine ⟨st, k1, fun n => (k2 n).trans ?_⟩
  constructor
  · rintro ⟨c, hc, hs, h⟩; exact ⟨c, hc, (h2 c hc).1 hs, h⟩
  · rintro ⟨c, hc, hs, h⟩; exact ⟨c, hc, (h2 c hc).2 hs, h⟩

open Defaults in
set_option maxRecDepth 20000 in
/-- With `-r xml` or `-r teamcity` the same is told, since these reporters ask for at least *high* verbosity. -/
theorem exampleMain_reporter : ∀ r ∈ ["xml", "teamcity"], Events.main exampleSource (defaultLimits 1) 5 1024 exampleReporters
    exampleInit (initialConfig false) "bin/prog.exe".toList (["-r", r].map String.toList) teamcityCases =
      some (.ok (1, exampleEvents.map .event)) := by
  intro r hr
  simp only [List.mem_cons, List.not_mem_nil, or_false] at hr
  rcases hr with rfl | rfl <;> rfl

open Defaults Verif.Report.Spec in
/-- The document of the XML reporter. -/
example : ∃ rep name tests run fail allowedFail skip counts,
    Xml.reportAll teamcityLimits (exampleEvents.map Event.report) {} = .ok rep ∧
    document rep.out = some (runNode teamcityLimits name [] tests run fail allowedFail skip counts) ∧
    ∃ t ∈ tests, testSuccess t ≠ some "true".toList := by
  obtain ⟨code, es, sel, name, h1, h2, ⟨file, h3, h4⟩, h5⟩ := C80_xml exampleSource
    (maxArgs := 1024) exampleReporters exampleInit (initialConfig false) "bin/prog.exe".toList
    (argv := ["-r", "xml"].map String.toList) (by decide) teamcityTags teamcity_sound (ts := _) rfl (by decide) (by decide)
    (i := 2) (by decide) rfl
    (fun c hc v r hr => nested_of_calm (teamcity_sound c hc) (by
      simp only [teamcityCases, List.mem_cons, List.not_mem_nil, or_false] at hc
      rcases hc with rfl | rfl | rfl <;> exact Run.always_one (by simp [Run.Spec.Calm, Run.Spec.calmStmt])) hr)
    (rl := teamcityLimits) (by unfold LimitsOk teamcityLimits; decide)
  rw [exampleMain_reporter "xml" (by simp)] at h1
  obtain ⟨rfl, rfl⟩ := same_events h1
  obtain ⟨rep, tests, run, fail, allowedFail, skip, counts, k1, k2, _, _, k3⟩ := h5 (by
    simp only [exampleEvents, List.forall_mem_cons]
    refine ⟨?_, ?_, ?_, ?_, ?_, ?_, ?_, ?_, ?_, by simp⟩
    all_goals simp only [Event.report, EventOk, LocationOk, DataOk, CountsOk, Short, Plain]
    all_goals decide)
  refine ⟨rep, name, tests, run, fail, allowedFail, skip, counts, k1, k2, ?_⟩
  refine Classical.byContradiction fun h => ?_
  have : (1 : Nat) = 0 := k3.2 fun t ht => Classical.byContradiction fun hne => h ⟨t, ht, hne⟩
  cases this

open Defaults Verif.Report.Spec Verif.Report.Spec.TeamCity in
/-- The messages of the TeamCity reporter. -/
example : ∃ rep name ms, TeamCity.reportAll teamcityLimits (exampleEvents.map Event.report) {} = .ok rep ∧
    messages rep.out = some (⟨"testSuiteStarted".toList, [("name".toList, suite name [])]⟩ :: ms ++
      [⟨"testSuiteFinished".toList, [("name".toList, suite name [])]⟩]) ∧
    ∃ m ∈ ms, m.name = "testFailed".toList := by
  obtain ⟨code, es, sel, name, h1, h2, -, h5⟩ := C80_teamcity exampleSource
    (maxArgs := 1024) exampleReporters exampleInit (initialConfig false) "bin/prog.exe".toList
    (argv := ["-r", "teamcity"].map String.toList) (by decide) teamcityTags teamcity_sound (ts := _) rfl (by decide)
    (by decide) (i := 1) (by decide) rfl (rl := teamcityLimits) (by unfold TeamCity.LimitsOk teamcityLimits; decide)
  rw [exampleMain_reporter "teamcity" (by simp)] at h1
  obtain ⟨rfl, rfl⟩ := same_events h1
  obtain ⟨rep, ms, k1, k2, _, k3⟩ := h5 (by
    simp only [exampleEvents, List.forall_mem_cons]
    refine ⟨?_, ?_, ?_, ?_, ?_, ?_, ?_, ?_, ?_, by simp⟩
    all_goals simp only [Event.report, TeamCity.EventOk, AssertionOk]
    all_goals decide)
  refine ⟨rep, name, ms, k1, k2, ?_⟩
  refine Classical.byContradiction fun h => ?_
  have : (1 : Nat) = 0 := k3.2 fun m hm he => h ⟨m, hm, he⟩
  cases this

/-- The hypotheses of `C80_list_partial` are met: of these tests, `[x]` selects the last. -/
example [Run.MessageLimit] : ∃ sel : Reg.Case → Bool, (∀ c ∈ teamcityCases, sel c = true ↔
      ["[x]".toList] = [] ∨ Verif.Spec.Selected ["[x]".toList] ⟨Reg.Spec.fullName c.test.id, teamcityTags c⟩) ∧
    Events.runOrList exampleSource (defaultLimits 1) 5 "prog".toList true ["[x]".toList] teamcityCases =
      some (.ok (teamcityCases, ([Events.Event.listStarted [] []] ++
        (teamcityCases.filter sel).map (fun c => Events.Event.listed (declared exampleSource c.test)
          (exampleSource.loc c.test.loc)) ++
        [Events.Event.listEnded [] []]).map .event, true)) := by
  exact C80_list_partial exampleSource (lim := defaultLimits 1) 5 "prog".toList ["[x]".toList]
    (cases := teamcityCases) teamcityTags (fun c hc => (teamcity_sound c hc).tags) (fun c hc => (teamcity_sound c hc).name)

/-- A test that should fail, and does. -/
def shouldFailCase : Reg.Case :=
  { test := mkTest "t" "[!shouldfail]" (.stmt (.check 2 (.val false) false "x".toList) .done) }

open Defaults in
set_option maxRecDepth 20000 in
/-- **C80** fails: at the end of this test, the events say that no failure was expected (though the event of the failure itself
says that it was); and the list of tests does not say which program it is about, and with which filters. -/
theorem C80_not_everything_told :
    (∃ code es, Events.main exampleSource (defaultLimits 1) 5 1024 exampleReporters exampleInit (initialConfig false)
        "bin/prog.exe".toList (["-v", "high"].map String.toList) [shouldFailCase] = some (.ok (code, es.map .event)) ∧
      .assertionFailed ⟨"t".toList, "[!shouldfail]".toList, [], []⟩ ⟨[], [], ⟨"f.cpp".toList, 2⟩, .exact⟩
        (.expression "CHECK".toList "a[0] == 1".toList "x".toList) true false ∈ es ∧
      ¬ TellsAll "prog".toList [] (fun _ => (true, false)) es) ∧
    ∃ code es, Events.main exampleSource (defaultLimits 1) 5 1024 exampleReporters exampleInit (initialConfig false)
        "bin/prog.exe".toList (["--list-tests", "t*"].map String.toList) [shouldFailCase] =
          some (.ok (code, es.map .event)) ∧
      Events.Event.listed ⟨"t".toList, "[!shouldfail]".toList, [], []⟩ ⟨"f.cpp".toList, 1⟩ ∈ es ∧
      ¬ TellsAll "prog".toList ["t*".toList] (fun _ => (true, false)) es := by
  constructor
  · refine ⟨0, [.runStarted "prog".toList [],
      .caseStarted ⟨"t".toList, "[!shouldfail]".toList, [], []⟩ ⟨"f.cpp".toList, 1⟩,
      .assertionFailed ⟨"t".toList, "[!shouldfail]".toList, [], []⟩ ⟨[], [], ⟨"f.cpp".toList, 2⟩, .exact⟩
        (.expression "CHECK".toList "a[0] == 1".toList "x".toList) true false,
      .caseEnded ⟨"t".toList, "[!shouldfail]".toList, [], []⟩ ⟨"f.cpp".toList, 1⟩ ⟨3, 0, 1⟩ .allowedFail
        ⟨"0.5".toList, 500000⟩ false false,
      .runEnded "prog".toList [] 1 0 1 0 ⟨3, 0, 1⟩ ⟨"0.5".toList, 500000⟩ true], rfl, by simp, ?_⟩
    intro h
    have := h.2 _ (List.mem_cons_of_mem _ (List.mem_cons_of_mem _ (List.mem_cons_of_mem _ List.mem_cons_self)))
      _ _ _ _ _ _ _ rfl
    cases this
  · refine ⟨0, [.listStarted [] [], .listed ⟨"t".toList, "[!shouldfail]".toList, [], []⟩ ⟨"f.cpp".toList, 1⟩,
      .listEnded [] []], rfl, by simp, ?_⟩
    intro h
    have := h.1 _ List.mem_cons_self _ rfl
    cases this

end Verif.Props
