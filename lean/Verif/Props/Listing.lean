import Verif.Lemmas.Listing
import Verif.Props.Whole
/-!
# C88: lists asked for on the command line
-/
namespace Verif.Props
open Verif.Whole Verif.Whole.Spec Verif.Report Verif.Report.Spec Verif.Events Verif.Events.Spec

/-- A test as it is listed. -/
def entryOf (src : Source) (c : Reg.Case) : Report.Id × Location := (declared src c.test, src.loc c.test.loc)

/-- The events told when tests are listed. -/
theorem lists_told [Run.MessageLimit] (p : Program) (fuel : Nat) (argv0 : Text)
    {argv : List Text} (hlen : argv.length ≤ p.maxArgs) (tags : Reg.Case → List Text)
    (ht : ∀ c ∈ p.cases, Reg.Spec.Tagged p.lim.cfg.maxTag c.test.id (tags c))
    (hname : ∀ c ∈ p.cases, Reg.Spec.Registrable p.lim.maxName c.test)
    {ts : List Cli.Spec.Token} (hts : Cli.Spec.tokens argv = some ts) (hn : (Cli.Spec.optionNames ts).Nodup)
    (hq : request ts = .tests ∨ ∃ tag, request ts = .testsWithTag tag) :
    ∃ sel : Reg.Case → Bool,
      (∀ c ∈ p.cases, sel c = true ↔ Listed ts ⟨Reg.Spec.fullName c.test.id, tags c⟩) ∧
      Events.main p.src p.lim fuel p.maxArgs (p.reporters.map (·.1)) (Whole.init p) (Whole.config p) argv0 argv p.cases =
        some (.ok (0, (listEvents ((p.cases.filter sel).map (entryOf p.src))).map .event)) := by
  obtain ⟨v, hm⟩ := eventsMain p.src p.lim fuel (p.reporters.map (·.1)) (Whole.init p) (Whole.config p) argv0 p.cases hlen
    hts hn
  rw [hm]
  unfold Listed
  rcases hq with hq | ⟨tag, hq⟩
  · rw [hq]
    dsimp only [does]
    obtain ⟨sel, h1, h2⟩ := C80_list_partial p.src (lim := { p.lim with cfg := { p.lim.cfg with verbosity := v } }) fuel
      (Cli.extractExecutable argv0) (Cli.Spec.positionalsOf ts) tags ht hname
    refine ⟨sel, h1, ?_⟩
    rw [h2, listEvents, List.map_map]
    rfl
  · rw [hq]
    dsimp only [does]
    have hpred : ∀ c ∈ p.cases, ∃ b, (do return (← Filter.matchTags p.lim.cfg.maxTag c.test.id.tags tag).included) =
        Outcome.ok b ∧ (b = true ↔ (tag = [] → Verif.Spec.visibleTags (tags c) ≠ []) ∧ ∀ g ∈ Verif.Spec.tagGroups tag,
          Verif.Spec.Accepts g (Verif.Spec.visibleTags (tags c))) := by
      intro c hc
      obtain ⟨h1, h2, h3⟩ := ht c hc
      by_cases hne : tag = []
      · subst hne
        obtain ⟨r, e, v⟩ := Filter.matchTagsSingle_verdict (Filter.shows_tagString h2 h3) []
        refine ⟨r.included, ?_, ?_⟩
        · rw [Filter.matchTags, h1]
          have hf : Util.findFirstNotEscaped [] ']' = none := rfl
          simp only [List.length_nil, Filter.matchTagsLoop, hf, Option.map_none, e, Outcome.bind_ok, Filter.combine]
          cases hr : r.included <;> simp [hr]
        · rw [v.1]
          have hall : ∀ s : Text, Verif.Spec.PatMatches [] s := fun s => .inl rfl
          cases hv : Verif.Spec.visibleTags (tags c) <;> simp [Verif.Spec.Accepts, Verif.Spec.tagGroups, hall]
      · obtain ⟨r, e, v⟩ := Filter.matchTagsLoop_verdict (Filter.shows_tagString h2 h3) (tag.length + 1) tag none True False
          (Nat.lt_succ_self _) hne (.inl ⟨rfl, trivial, id⟩)
        refine ⟨r.included, ?_, by rw [v.1]; simp [hne]⟩
        rw [Filter.matchTags, h1, e]
        rfl
    refine ⟨fun c => decide ((do return (← Filter.matchTags p.lim.cfg.maxTag c.test.id.tags tag).included) =
      Outcome.ok true), ?_, ?_⟩
    · intro c hc
      obtain ⟨b, e, v⟩ := hpred c hc
      rw [← v]
      dsimp only
      rw [e]
      cases b <;> simp
    · rw [Events.listTestsWithTag, Events.listTests,
        listLoop_told p.src fun c hc => (hpred c hc).imp fun b h => h.1, listEvents, List.map_map]
      rfl

/-- **C88** (tests). With `--list-tests` or `--list-tests-with-tag`, whatever the reporter: the exit status is 0; the list,
as the reporter writes it, of the tests asked for, in the order of registration, is the whole of the file named with
`--out`, or else follows the remarks about the command line on the standard output. No test is run: the fuel may be 0. -/
theorem C88_tests [Run.MessageLimit] {p : Program} (hr : Roomy p) (fuel : Nat) {opens : Text → Bool} (argv0 : Text)
    {argv : List Text} (hlen : argv.length ≤ p.maxArgs) (tags : Reg.Case → List Text)
    (ht : ∀ c ∈ p.cases, Reg.Spec.Tagged p.lim.cfg.maxTag c.test.id (tags c))
    (hname : ∀ c ∈ p.cases, Reg.Spec.Registrable p.lim.maxName c.test)
    {ts : List Cli.Spec.Token} (hts : Cli.Spec.tokens argv = some ts) (hn : (Cli.Spec.optionNames ts).Nodup)
    (ho : Writable p.maxPath opens ts) (hq : request ts = .tests ∨ ∃ tag, request ts = .testsWithTag tag) :
    ∃ sel : Reg.Case → Bool,
      (∀ c ∈ p.cases, sel c = true ↔ Listed ts ⟨Reg.Spec.fullName c.test.id, tags c⟩) ∧
      (Listable p.rl (kindFor p ts) ((p.cases.filter sel).map (entryOf p.src)) →
        ∃ w report, Whole.main p fuel opens argv0 argv = some (.ok (0, w)) ∧ Delivered p argv ts report w ∧
          Lists (kindFor p ts) ((p.cases.filter sel).map (entryOf p.src)) report) := by
  obtain ⟨sel, h1, h2⟩ := lists_told p fuel argv0 hlen tags ht hname hts hn hq
  refine ⟨sel, h1, fun hfit => ?_⟩
  obtain ⟨d, e1, e2⟩ := reportAll_list (color := (settled p ts).1.withColor) hfit
  obtain ⟨w, m1, m2⟩ := main_events hr hlen hts hn ho h2 e1
  exact ⟨w, d.out, m1, m2, e2⟩

/-- **C88** (reporters), the part that holds: with `--list-reporters` the exit status is 0 and the names of the reporters
are on the standard output, a line for each (cut if it does not fit). Missing: with `--out`, they should be in the file, but
it is opened (so emptied) and stays empty. -/
theorem C88_reporters_partial [Run.MessageLimit] {p : Program} (hr : Roomy p) (fuel : Nat) {opens : Text → Bool}
    (argv0 : Text) {argv : List Text} (hlen : argv.length ≤ p.maxArgs)
    {ts : List Cli.Spec.Token} (hts : Cli.Spec.tokens argv = some ts) (hn : (Cli.Spec.optionNames ts).Nodup)
    (ho : Writable p.maxPath opens ts) (hq : request ts = .reporters) :
    ∃ w, Whole.main p fuel opens argv0 argv = some (.ok (0, w)) ∧
      Announced p argv ts (p.reporters.flatMap fun r => Verif.Spec.cut p.rl.message (r.1 ++ "\n".toList)) w := by
  obtain ⟨v, hm⟩ := eventsMain p.src p.lim fuel (p.reporters.map (·.1)) (Whole.init p) (Whole.config p) argv0 p.cases hlen
    hts hn
  rw [hq] at hm
  obtain ⟨w, m1, m2⟩ := main_lines hr hlen hts hn ho hm
  rw [List.flatMap_map] at m2
  exact ⟨w, m1, m2⟩

/-- **C88** (tags), the part that holds: with `--list-tags`, if the tags are not written in short form (see C49) and are
not too many, the exit status is 0, and each tag (with its brackets and, mistakenly, another pair of brackets) is on a line of
the standard output, in order. Missing: as for reporters. -/
theorem C88_tags_partial [Run.MessageLimit] {p : Program} (hr : Roomy p) (fuel : Nat) {opens : Text → Bool} (argv0 : Text)
    {argv : List Text} (hlen : argv.length ≤ p.maxArgs) (tags : Reg.Case → List Text)
    (h1 : ∀ c ∈ p.cases, Reg.Spec.Tagged p.lim.cfg.maxTag c.test.id (tags c)) (h2 : ∀ c ∈ p.cases, NoShorthand (tags c))
    {used : List Text} (hd : used.Nodup)
    (hu : ∀ x, x ∈ used ↔ ∃ c ∈ p.cases, x ∈ Verif.Spec.visibleTags (tags c)) (hmax : used.length ≤ p.lim.maxUniqueTags)
    {ts : List Cli.Spec.Token} (hts : Cli.Spec.tokens argv = some ts) (hn : (Cli.Spec.optionNames ts).Nodup)
    (ho : Writable p.maxPath opens ts) (hq : request ts = .tags) :
    ∃ (w : Output.State) (l : List Text), l.Nodup ∧ l.Pairwise (· ≤ ·) ∧ (∀ x, x ∈ l ↔ x ∈ used) ∧
      Whole.main p fuel opens argv0 argv = some (.ok (0, w)) ∧
      Announced p argv ts (l.flatMap fun t => Verif.Spec.cut p.rl.message ("[".toList ++ t ++ "]\n".toList)) w := by
  obtain ⟨v, hm⟩ := eventsMain p.src p.lim fuel (p.reporters.map (·.1)) (Whole.init p) (Whole.config p) argv0 p.cases hlen
    hts hn
  rw [hq] at hm
  obtain ⟨l, l1, l2, l3, l4⟩ := (C49_list_tags_partial (lim := { p.lim with cfg := { p.lim.cfg with verbosity := v } })
    tags h1 h2 hd hu).1 hmax
  have hm' : Events.main p.src p.lim fuel p.maxArgs (p.reporters.map (·.1)) (Whole.init p) (Whole.config p) argv0 argv
      p.cases = some (.ok (0, (l.map fun t => ['['] ++ t ++ [']']).map .line)) := by
    rw [hm]
    unfold Reg.listAllTags at l4
    dsimp only [does]
    cases hc : Reg.collectTags { p.lim with cfg := { p.lim.cfg with verbosity := v } } p.cases [] with
    | abort => rw [hc] at l4; cases l4
    | ub => rw [hc] at l4; cases l4
    | ok tags' =>
      rw [hc, Outcome.bind_ok, Outcome.pure_eq] at l4
      have l5 : (tags'.mergeSort Reg.textLe).map (fun t => ['['] ++ t ++ [']']) = l.map fun t => ['['] ++ t ++ [']'] := by
        have := Outcome.ok.inj l4
        have h := congrArg (List.map fun o => match o with | Reg.Out.line s => s | _ => []) this
        rw [List.map_map, List.map_map] at h
        exact h
      have l6 : (tags'.mergeSort Reg.textLe).map (fun t => Events.Out.line (['['] ++ t ++ [']'])) =
          (l.map fun t => ['['] ++ t ++ [']']).map .line := by
        rw [← l5, List.map_map]
        rfl
      show some _ = _
      rw [← l6]
      rfl
  obtain ⟨w, m1, m2⟩ := main_lines hr hlen hts hn ho hm'
  refine ⟨w, l, l1, l2, l3, m1, ?_⟩
  rw [List.flatMap_map] at m2
  simp only [List.append_assoc] at m2 ⊢
  exact m2

/-- **C88** (help), the part that holds: with `--help` the exit status is 0 and the help text of C61 is on the standard
output. Missing: as for reporters. -/
theorem C88_help_partial [Run.MessageLimit] {p : Program} (hr : Roomy p) (fuel : Nat) {opens : Text → Bool}
    (argv0 : Text) {argv : List Text} (hlen : argv.length ≤ p.maxArgs)
    {ts : List Cli.Spec.Token} (hts : Cli.Spec.tokens argv = some ts) (hn : (Cli.Spec.optionNames ts).Nodup)
    (ho : Writable p.maxPath opens ts) (hq : "--help".toList ∈ Cli.Spec.optionNames ts) :
    ∃ w, Whole.main p fuel opens argv0 argv = some (.ok (0, w)) ∧
      Announced p argv ts (Cli.Spec.helpText p.rl.message (settled p ts).1.withColor p.rl.version
        (Cli.extractExecutable argv0)) w := by
  obtain ⟨v, hm⟩ := eventsMain p.src p.lim fuel (p.reporters.map (·.1)) (Whole.init p) (Whole.config p) argv0 p.cases hlen
    hts hn
  rw [show request ts = .help by unfold request; rw [if_pos hq]] at hm
  exact main_help hr hlen hts hn ho hm

/-! ## Examples -/

/-- The tests of the example have tags that can be read and names that can be registered. -/
private theorem example_tagged : (∀ c ∈ exampleProgram.cases, Reg.Spec.Tagged exampleProgram.lim.cfg.maxTag c.test.id
      (teamcityTags c)) ∧ (∀ c ∈ exampleProgram.cases, Reg.Spec.Registrable exampleProgram.lim.maxName c.test) ∧
    ∀ c ∈ exampleProgram.cases, NoShorthand (teamcityTags c) := by
  refine ⟨fun c hc => (teamcity_sound c hc).tags, fun c hc => (teamcity_sound c hc).name, ?_⟩
  simp only [exampleProgram, teamcityCases, List.forall_mem_cons]
  refine ⟨?_, ?_, ?_, by simp⟩
  all_goals simp [NoShorthand, teamcityTags, mkTest, Verif.Spec.Hides]

open Defaults in
/-- With `-l -r teamcity`: all tests, also the hidden one, and the quote in the name of the third is escaped. -/
example : ∃ w, Whole.main exampleProgram 0 (fun _ => true) "prog".toList (["-l", "-r", "teamcity"].map String.toList) =
      some (.ok (0, w)) ∧ Shows w "first\nhidden\nit|'s third\n".toList none := by
  obtain ⟨sel, h1, h2⟩ := C88_tests exampleProgram_roomy 0 (opens := fun _ => true) "prog".toList
    (argv := ["-l", "-r", "teamcity"].map String.toList) (by decide) teamcityTags example_tagged.1 example_tagged.2.1
    (ts := _) rfl (by decide) (by intro path h; cases h) (.inl (by decide))
  have hs : exampleProgram.cases.filter sel = teamcityCases := by
    rw [List.filter_eq_self.2]
    · rfl
    · intro c hc
      exact (h1 c hc).2 (.inl (by decide))
  rw [hs] at h2
  obtain ⟨w, report, m1, m2, m3⟩ := h2 ⟨by unfold TeamCity.LimitsOk; decide, by decide⟩
  obtain rfl : report = _ := m3
  exact ⟨w, m1, m2⟩

open Defaults in
/-- With `--list-tests-with-tag [x] -o f`: the third test, in the file. -/
example : ∃ w, Whole.main exampleProgram 0 (fun _ => true) "prog".toList
      (["--list-tests-with-tag", "[x]", "-o", "f"].map String.toList) = some (.ok (0, w)) ∧
    Shows w [] (some ("f".toList, "Matching test cases:\n  it's third\n      [x]\n1 matching test cases\n".toList)) := by
  obtain ⟨sel, h1, h2⟩ := C88_tests exampleProgram_roomy 0 (opens := fun _ => true) "prog".toList
    (argv := ["--list-tests-with-tag", "[x]", "-o", "f"].map String.toList) (by decide) teamcityTags example_tagged.1
    example_tagged.2.1 (ts := _) rfl (by decide)
    (by intro path h; obtain rfl : "f".toList = path := Option.some.inj h; decide) (.inr ⟨"[x]".toList, by decide⟩)
  have hacc : ∀ tags : List Text, (∀ g ∈ Verif.Spec.tagGroups "[x]".toList, Verif.Spec.Accepts g
      (Verif.Spec.visibleTags tags)) ↔ ∃ s ∈ Verif.Spec.visibleTags tags, Util.isMatch s "[x]".toList = true := by
    intro tags
    rw [show Verif.Spec.tagGroups "[x]".toList = ["[x]".toList] by decide, List.forall_mem_singleton]
    simp only [Filter.isMatch_iff]
    rfl
  have hs : exampleProgram.cases.filter sel = [teamcityCases[2]] := by
    have s0 : sel teamcityCases[0] ≠ true := fun h => absurd ((hacc (teamcityTags teamcityCases[0])).1
      ((h1 teamcityCases[0] (by simp [exampleProgram, teamcityCases])).1 h).2) (by decide)
    have s1 : sel teamcityCases[1] ≠ true := fun h => absurd ((hacc (teamcityTags teamcityCases[1])).1
      ((h1 teamcityCases[1] (by simp [exampleProgram, teamcityCases])).1 h).2) (by decide)
    have s2 : sel teamcityCases[2] = true := (h1 teamcityCases[2] (by simp [exampleProgram, teamcityCases])).2
      ⟨by decide, (hacc (teamcityTags teamcityCases[2])).2 (by decide)⟩
    show [teamcityCases[0], teamcityCases[1], teamcityCases[2]].filter sel = _
    rw [List.filter_cons_of_neg s0, List.filter_cons_of_neg s1, List.filter_cons_of_pos s2]
    rfl
  rw [hs] at h2
  obtain ⟨w, report, m1, m2, m3⟩ := h2 ⟨by unfold Console.LimitsOk; decide, by decide, by decide⟩
  obtain rfl : report = _ := m3
  exact ⟨w, m1, m2⟩

open Defaults in
/-- **C88** fails for the list of reporters (and likewise for that of tags, and the help text) with `--out`: the file stays
empty. -/
theorem C88_not_in_file : ∃ w, Whole.main exampleProgram 0 (fun _ => true) "prog".toList
      (["--list-reporters", "-o", "f"].map String.toList) = some (.ok (0, w)) ∧
    Shows w "console\nteamcity\nxml\n".toList (some ("f".toList, [])) := by
  obtain ⟨w, m1, m2⟩ := C88_reporters_partial exampleProgram_roomy 0 (opens := fun _ => true) "prog".toList
    (argv := ["--list-reporters", "-o", "f"].map String.toList) (by decide) (ts := _) rfl (by decide)
    (by intro path h; obtain rfl : "f".toList = path := Option.some.inj h; decide) (by decide)
  exact ⟨w, m1, m2⟩

open Defaults in
/-- The tags of the example; **C88** fails also in this: the brackets of tags are doubled. -/
theorem C88_brackets_doubled : ∃ w, Whole.main exampleProgram 0 (fun _ => true) "prog".toList
      (["--list-tags"].map String.toList) = some (.ok (0, w)) ∧ Shows w "[[.]]\n[[x]]\n".toList none := by
  obtain ⟨w, l, l1, l2, l3, m1, m2⟩ := C88_tags_partial exampleProgram_roomy 0 (opens := fun _ => true) "prog".toList
    (argv := ["--list-tags"].map String.toList) (by decide) teamcityTags example_tagged.1 example_tagged.2.2
    (used := ["[.]", "[x]"].map String.toList) (by decide) (by
      intro x
      simp [exampleProgram, teamcityCases, teamcityTags, mkTest, Verif.Spec.visibleTags, Verif.Spec.ordinary,
        Verif.Spec.bracket]
      constructor <;> rintro (rfl | rfl) <;> simp) (by decide) (ts := _) rfl (by decide)
    (by intro path h; cases h) (by decide)
  obtain rfl := C49_unique l1 (by decide) l2 (show (["[.]", "[x]"].map String.toList).Pairwise (· ≤ ·) by decide) l3
  exact ⟨w, m1, m2⟩

open Defaults in
/-- `--help` wins over everything else. -/
example : ∃ w, Whole.main exampleProgram 0 (fun _ => true) "bin/prog.exe".toList
      (["-l", "--list-tags", "-h"].map String.toList) = some (.ok (0, w)) ∧
    Shows w (Cli.Spec.helpText 1024 false "1.3.2".toList "prog".toList) none := by
  obtain ⟨w, m1, m2⟩ := C88_help_partial exampleProgram_roomy 0 (opens := fun _ => true) "bin/prog.exe".toList
    (argv := ["-l", "--list-tags", "-h"].map String.toList) (by decide) (ts := _) rfl (by decide)
    (by intro path h; cases h) (by decide)
  exact ⟨w, m1, m2⟩

end Verif.Props
