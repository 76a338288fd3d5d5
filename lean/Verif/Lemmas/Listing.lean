import Verif.Lemmas.Whole
import Verif.Props.Console
import Verif.Props.TeamCity
import Verif.Props.Xml
/-!
# Lemmas about lists asked for on the command line
-/
namespace Verif.Whole
open Verif Verif.Cli.Spec Verif.Whole.Spec Verif.Report.Spec Verif.Events.Spec

/-- The events of a list. -/
def listEvents (tests : List (Report.Id × Report.Location)) : List Events.Event :=
  [.listStarted [] []] ++ tests.map (fun t => .listed t.1 t.2) ++ [.listEnded [] []]

theorem teamcity_list {rl : Report.Limits} (hrl : TeamCity.LimitsOk rl) : ∀ (tests : List (Report.Id × Report.Location))
    (rep : Report.Rep), (∀ t ∈ tests, TeamCity.Short rl.name (fullName t.1)) →
    Report.TeamCity.reportAll rl (tests.map (fun t => Report.Event.listed t.1 t.2) ++ [Report.Event.listEnded [] []]) rep =
      .ok { rep with out := rep.out ++ Console.unlines (tests.map fun t => (fullName t.1).flatMap TeamCity.coded) }
  | [], rep, _ => by simp [Report.TeamCity.reportAll, Report.TeamCity.report, Console.unlines]
  | t :: ts, rep, h => by
    rw [List.map_cons, List.cons_append, Report.TeamCity.reportAll,
      Report.TeamCity.report, Report.TeamCity.makeFullName_eq hrl.2.1 (h t (by simp)), Outcome.bind_ok,
      Report.say_eq (by have := hrl.1; omega), Outcome.bind_ok, teamcity_list hrl ts _ fun x hx => h x (by simp [hx])]
    simp [Console.unlines]

theorem reportAll_list {rl : Report.Limits} {color : Bool} {k : Kind} {tests : List (Report.Id × Report.Location)}
    (h : Listable rl k tests) :
    ∃ d, reportAll rl color (listEvents tests) k.new = .ok d ∧ Lists k tests d.out := by
  cases k with
  | console =>
    obtain ⟨h1, h2, h3⟩ := h
    have hev : (listEvents tests).map Events.Event.console =
        [.listStarted] ++ ((tests.map (·.1)).map .listed ++ [.listEnded]) := by
      simp [listEvents, Events.Event.console, Function.comp_def]
    have hs : ∃ st, Report.Console.reportAll rl color ([.listStarted] ++ ((tests.map (·.1)).map .listed ++ [.listEnded]))
        {} = .ok st ∧ st.out = Console.unlines (["Matching test cases:".toList] ++
        ((tests.map (·.1)).flatMap (fun id => ("  ".toList ++ fullName id) ::
          if id.tags = [] then [] else ["      ".toList ++ id.tags]) ++
        [decimal (tests.map (·.1)).length ++ " matching test cases".toList])) := by
      obtain ⟨st, e, ho⟩ := Props.C57_list h1 (tests.map (·.1)) (by simpa using h2) (by simpa using h3)
      refine ⟨st, ?_, ho⟩
      rw [← e]
      have hc : ∀ (es : List Report.Console.Event) (st : Report.Console.State), (∀ e ∈ es, e = .listStarted ∨
          e = .listEnded ∨ ∃ id, e = .listed id) →
          Report.Console.reportAll rl color es st = Report.Console.reportAll rl false es st := by
        intro es
        induction es with
        | nil => intro st _; rfl
        | cons e es ih =>
          intro st hes
          have he : Report.Console.report rl color st e = Report.Console.report rl false st e := by
            rcases hes e (by simp) with rfl | rfl | ⟨id, rfl⟩ <;> rfl
          rw [Report.Console.reportAll, Report.Console.reportAll, he]
          cases Report.Console.report rl false st e with
          | ok st => exact ih st fun e he => hes e (by simp [he])
          | abort => rfl
          | ub => rfl
      apply hc
      intro e he
      simp only [List.cons_append, List.nil_append, List.map_map, List.mem_cons, List.mem_append, List.mem_map,
        List.not_mem_nil, or_false] at he
      rcases he with rfl | ⟨t, _, rfl⟩ | rfl
      · exact .inl rfl
      · exact .inr (.inr ⟨_, rfl⟩)
      · exact .inr (.inl rfl)
    obtain ⟨st, e, ho⟩ := hs
    refine ⟨.console st, ?_, ?_⟩
    · rw [Kind.new, reportAll_console, hev, e]
      rfl
    · show st.out = _
      rw [ho, List.flatMap_map, List.length_map]
  | teamcity =>
    obtain ⟨h1, h2⟩ := h
    refine ⟨.teamcity { out := Console.unlines (tests.map fun t => (fullName t.1).flatMap TeamCity.coded) }, ?_, rfl⟩
    rw [Kind.new, reportAll_teamcity, show (listEvents tests).map Events.Event.report = Report.Event.listStarted [] [] ::
      (tests.map (fun t => .listed t.1 t.2) ++ [.listEnded [] []]) by
        simp [listEvents, Events.Event.report, Function.comp_def],
      Report.TeamCity.reportAll, Report.TeamCity.report, Outcome.bind_ok, teamcity_list h1 tests _ h2]
    rfl
  | xml =>
    obtain ⟨h1, h2⟩ := h
    obtain ⟨rep, e, _, ho⟩ := Props.C40_listing h1 tests [] [] [] [] h2
    refine ⟨.xml rep, ?_, ho⟩
    rw [Kind.new, reportAll_xml, show (listEvents tests).map Events.Event.report = Report.Event.listStarted [] [] ::
      tests.map (fun t => .listed t.1 t.2) ++ [.listEnded [] []] by
        simp [listEvents, Events.Event.report, Function.comp_def], e]
    rfl

/-! ## What the program does -/

variable [Run.MessageLimit]

/-- What is done, by what the options ask for. -/
def does (src : Events.Source) (lim : Reg.Limits) (fuel : Nat) (reporters : List Text) (name : Text) (cases : List Reg.Case)
    (filters : List Text) : Request → Option (Outcome (List Reg.Case × List Events.Out × Bool))
  | .help => some (.ok (cases, [.help], true))
  | .testsWithTag tag => Events.afterListing cases (Events.listTestsWithTag src lim tag cases)
  | .tags => Events.afterListing cases (do
      let l ← Reg.collectTags lim cases []
      return (l.mergeSort Reg.textLe).map fun t => .line (['['] ++ t ++ [']']))
  | .reporters => some (.ok (cases, reporters.map .line, true))
  | .tests => Events.runOrList src lim fuel name true filters cases
  | .run => Events.runOrList src lim fuel name false filters cases

/-- `main` for a command line that is not refused. -/
theorem eventsMain (src : Events.Source) (lim : Reg.Limits) (fuel : Nat) {maxArgs : Nat} (reporters : List Text)
    (init : Nat → Nat → Nat) (config : Cli.Config) (argv0 : Text) {argv : List Text} (cases : List Reg.Case)
    (hlen : argv.length ≤ maxArgs) {ts : List Token} (hts : tokens argv = some ts) (hn : (optionNames ts).Nodup) :
    ∃ v, Events.main src lim fuel maxArgs reporters init config argv0 argv cases =
      (does src { lim with cfg := { lim.cfg with verbosity := v } } fuel reporters (Cli.extractExecutable argv0) cases
        (positionalsOf ts) (request ts)).map fun o => o >>= fun (_, out, success) => .ok (if success then 0 else 1, out) := by
  obtain ⟨color, msgs, r, hp, hw, hi⟩ := Props.C31_parse (maxArgs := maxArgs) config.withColor argv0 hlen
  obtain ⟨input, rfl⟩ := Option.isSome_iff_exists.mp (hw.mpr ⟨ts, hts, hn⟩)
  obtain ⟨_, _, _, _, hexe⟩ := hi input rfl
  obtain ⟨ts', ht', hl, hpos, hpos'⟩ := Props.C31_lookup hlen hp
  rw [hts] at ht'
  cases ht'
  have hv := Props.C32_values_present hlen hp
  obtain ⟨config', hc⟩ := Props.C32_total reporters config hv
  have hf := Props.filtersOf_eq hpos hpos'
  have hsome := fun name hne => Props.getOption_isSome hl name hne
  refine ⟨Reg.verbosityFor init config', ?_⟩
  unfold Events.main
  rw [hp]
  simp only [hc]
  congr 1
  unfold Events.runTests request
  by_cases h1 : "--help".toList ∈ optionNames ts
  · rw [if_pos ((hsome _ (by decide)).2 h1), if_pos h1]
    rfl
  rw [if_neg (fun h => h1 ((hsome _ (by decide)).1 h)), if_neg h1]
  have hg : Props.valueOf input "--list-tests-with-tag" = given "--list-tests-with-tag" ts :=
    value_given hlen hp hts _ (by decide)
  rw [Props.valueOf] at hg
  cases ho : Cli.getOption input "--list-tests-with-tag".toList with
  | some o =>
    rw [ho] at hg
    obtain ⟨tag, ht⟩ := Option.isSome_iff_exists.mp (hv "--list-tests-with-tag" (by simp) o ho)
    rw [Option.bind_some, ht] at hg
    rw [← hg]
    dsimp only
    rw [ht]
    rfl
  | none =>
    rw [ho] at hg
    rw [← hg]
    dsimp only [Option.bind_none]
    by_cases h2 : "--list-tags".toList ∈ optionNames ts
    · rw [if_pos ((hsome _ (by decide)).2 h2), if_pos h2]
      rfl
    rw [if_neg (fun h => h2 ((hsome _ (by decide)).1 h)), if_neg h2]
    by_cases h3 : "--list-reporters".toList ∈ optionNames ts
    · rw [if_pos ((hsome _ (by decide)).2 h3), if_pos h3]
      rfl
    rw [if_neg (fun h => h3 ((hsome _ (by decide)).1 h)), if_neg h3, hf]
    dsimp only
    rw [hexe]
    by_cases h4 : "--list-tests".toList ∈ optionNames ts
    · rw [if_pos h4, (hsome _ (by decide)).2 h4]
      rfl
    · rw [if_neg h4, show (Cli.getOption input "--list-tests".toList).isSome = false from
        Bool.eq_false_iff.2 fun h => h4 ((hsome _ (by decide)).1 h)]
      rfl

omit [Run.MessageLimit] in
/-- A command line asks for a run exactly if none of these options are given. -/
theorem request_run {argv : List Text} {ts : List Token} (hts : tokens argv = some ts) (hn : (optionNames ts).Nodup) :
    request ts = .run ↔ ∀ l ∈ Props.listing, l ∉ optionNames ts := by
  obtain ⟨color, msgs, r, hp, hw, hi⟩ := Props.C31_parse (maxArgs := argv.length) false [] (Nat.le_refl _)
  obtain ⟨input, rfl⟩ := Option.isSome_iff_exists.mp (hw.mpr ⟨ts, hts, hn⟩)
  obtain ⟨ts', ht', hl, hpos, hpos'⟩ := Props.C31_lookup (Nat.le_refl _) hp
  rw [hts] at ht'
  cases ht'
  have hv := Props.C32_values_present (Nat.le_refl _) hp
  have hsome := Props.getOption_isSome hl "--list-tests-with-tag".toList (by decide)
  have hg : Props.valueOf input "--list-tests-with-tag" = given "--list-tests-with-tag" ts :=
    value_given (Nat.le_refl _) hp hts _ (by decide)
  rw [Props.valueOf] at hg
  have hiff : given "--list-tests-with-tag" ts = none ↔ "--list-tests-with-tag".toList ∉ optionNames ts := by
    rw [← hg, ← hsome]
    cases ho : Cli.getOption input "--list-tests-with-tag".toList with
    | none => simp
    | some o =>
      obtain ⟨tag, ht⟩ := Option.isSome_iff_exists.mp (hv "--list-tests-with-tag" (by simp) o ho)
      simp [ht]
  have hall : (∀ l ∈ Props.listing, l ∉ optionNames ts) ↔ "--help".toList ∉ optionNames ts ∧
      "--list-tests-with-tag".toList ∉ optionNames ts ∧ "--list-tags".toList ∉ optionNames ts ∧
      "--list-reporters".toList ∉ optionNames ts ∧ "--list-tests".toList ∉ optionNames ts := by
    unfold Props.listing
    simp only [List.map_cons, List.map_nil, List.forall_mem_cons, List.not_mem_nil, false_implies, implies_true, and_true]
  rw [hall, ← hiff]
  unfold request
  by_cases h1 : "--help".toList ∈ optionNames ts
  · rw [if_pos h1]; exact ⟨fun h => (by cases h), fun h => absurd h1 h.1⟩
  rw [if_neg h1]
  cases hgv : given "--list-tests-with-tag" ts with
  | some tag => exact ⟨fun h => (by cases h), fun h => (by cases h.2.1)⟩
  | none =>
    dsimp only
    by_cases h2 : "--list-tags".toList ∈ optionNames ts
    · rw [if_pos h2]; exact ⟨fun h => (by cases h), fun h => absurd h2 h.2.2.1⟩
    rw [if_neg h2]
    by_cases h3 : "--list-reporters".toList ∈ optionNames ts
    · rw [if_pos h3]; exact ⟨fun h => (by cases h), fun h => absurd h3 h.2.2.2.1⟩
    rw [if_neg h3]
    by_cases h4 : "--list-tests".toList ∈ optionNames ts
    · rw [if_pos h4]; exact ⟨fun h => (by cases h), fun h => absurd h4 h.2.2.2.2⟩
    rw [if_neg h4]
    exact ⟨fun _ => ⟨h1, rfl, h2, h3, h4⟩, fun _ => rfl⟩

end Verif.Whole
