import Verif.Lemmas.Total
import Verif.Spec.Declared
import Verif.Props.Telling
import Verif.Props.Listing
/-!
# C92: the exit status of a program does not depend on texts, nor on how the report is shown

Unlike in C87, no text needs to fit in a buffer.
-/
namespace Verif.Props
open Verif.Whole Verif.Whole.Spec Verif.Report Verif.Report.Spec Verif.Events Verif.Events.Spec

theorem mem_sum_le {l : List Nat} {n : Nat} (h : n ∈ l) : n ≤ l.sum := by
  induction l with
  | nil => cases h
  | cons a l ih =>
    rw [List.sum_cons]
    rcases List.mem_cons.1 h with rfl | h
    · omega
    · have := ih h; omega

private theorem small_of_mayTell [Run.MessageLimit] {p : Program} {tags : Reg.Case → List Text} (hc : Countable p tags)
    {name : Text} {filters : List Text} {e : Events.Event} (h : MayTell p.src tags p.cases name filters e) : Small e := by
  cases h with
  | runStarted => exact ⟨trivial, trivial, trivial⟩
  | @runEnded run fail allowedFail skip counts n success h1 h2 h3 h4 =>
    have := hc.tests
    have := hc.assertions
    obtain ⟨h5, h6⟩ := h4
    exact ⟨⟨by omega, by omega, by omega, by omega⟩, trivial, by omega, by omega, by omega, by omega, by omega, by omega,
      by omega⟩
  | @test c e hmem h =>
    have hle := mem_sum_le (List.mem_map_of_mem (f := fun c => assertions c.test (tags c)) hmem)
    have hsum := hc.assertions
    cases h with
    | started => exact ⟨hc.lines _, trivial, hc.lines _⟩
    | ended state n hw => exact ⟨trivial, hc.durations n, trivial⟩
    | @entered k first hs => exact ⟨hc.sections k, trivial, hc.sections k⟩
    | left skipped n hs hw =>
      obtain ⟨h5, h6⟩ := hw
      exact ⟨trivial, trivial, by omega, by omega, by omega⟩
    | succeeded _ => exact ⟨hc.lines _, hc.lines _, hc.lines _⟩
    | failed _ _ _ => exact ⟨hc.lines _, hc.lines _, hc.lines _⟩
    | skipped _ => exact ⟨hc.lines _, hc.lines _, hc.lines _⟩

/-- **C92**. For a well-formed command line that asks for a run: whatever the texts in tests, in their names, in section names
and in captures, however long, whichever reporter is chosen, wherever its report goes, the program ends; its exit status is 0
exactly if no test that was selected fails, and 1 otherwise. -/
theorem C92_outcome [Run.MessageLimit] {p : Program} (hr : Roomy p) {fuel : Nat} {opens : Text → Bool} (argv0 : Text)
    {argv : List Text} (hlen : argv.length ≤ p.maxArgs) (tags : Reg.Case → List Text)
    (hcases : ∀ c ∈ p.cases, Sound p.lim fuel c.test (tags c)) (hc : Countable p tags)
    {ts : List Cli.Spec.Token} (hts : Cli.Spec.tokens argv = some ts) (hn : (Cli.Spec.optionNames ts).Nodup)
    (hno : ∀ l ∈ listing, l ∉ Cli.Spec.optionNames ts) (ho : Writable p.maxPath opens ts) :
    ∃ (code : Nat) (w : Output.State) (report : Text),
      Whole.main p fuel opens argv0 argv = some (.ok (code, w)) ∧ Delivered p argv ts report w ∧
      (code = 0 ∨ code = 1) ∧
      (code = 0 ↔ ∀ c ∈ p.cases,
        Verif.Spec.Selected (Cli.Spec.positionalsOf ts) ⟨Reg.Spec.fullName c.test.id, tags c⟩ →
          Run.Spec.verdictOf c.test (tags c) ≠ .failed) := by
  obtain ⟨code, es, name, sel, h1, -, h2, h3, -⟩ := C80_only p.src (p.reporters.map (·.1)) (Whole.init p) (Whole.config p)
    argv0 hlen tags hcases hts hn hno
  obtain ⟨g1, g2⟩ := code_iff p.src _ _ _ argv0 hlen tags hcases hts hn hno h1 h2
  obtain ⟨d, hd⟩ := run_returns hr.message hc.names (settled p ts).1.withColor (kindFor p ts)
    fun e he => small_of_mayTell hc (h3 e he)
  obtain ⟨w, m1, m2⟩ := main_events hr hlen hts hn ho h1 hd
  exact ⟨code, w, d.out, m1, m2, g1, g2.trans ⟨fun h c hm hs => h c hm ((h2 c hm).2 hs), fun h c hm hs => h c hm
    ((h2 c hm).1 hs)⟩⟩

/-- What decides on success: the name of each test, its tags, and whether it passes. -/
def decisive [Run.MessageLimit] (p : Program) (tags : Reg.Case → List Text) :
    List (Text × List Text × Run.CaseState) :=
  p.cases.map fun c => (Reg.Spec.fullName c.test.id, tags c, Run.Spec.verdictOf c.test (tags c))

/-- **C92** (comparison). Two programs whose tests have the same names, tags and verdicts (with other texts, places,
durations, limits and reporters), with command lines that have the same filters (with other values of `--reporter`,
`--verbosity`, `--color`, `--colour-mode` and `--out`) end with the same exit status. -/
theorem C92_same [Run.MessageLimit] {p p' : Program} (hr : Roomy p) (hr' : Roomy p') {fuel fuel' : Nat}
    {opens opens' : Text → Bool} (argv0 argv0' : Text) {argv argv' : List Text} (hlen : argv.length ≤ p.maxArgs)
    (hlen' : argv'.length ≤ p'.maxArgs) (tags tags' : Reg.Case → List Text)
    (hcases : ∀ c ∈ p.cases, Sound p.lim fuel c.test (tags c)) (hc : Countable p tags)
    (hcases' : ∀ c ∈ p'.cases, Sound p'.lim fuel' c.test (tags' c)) (hc' : Countable p' tags')
    {ts ts' : List Cli.Spec.Token} (hts : Cli.Spec.tokens argv = some ts) (hn : (Cli.Spec.optionNames ts).Nodup)
    (hts' : Cli.Spec.tokens argv' = some ts') (hn' : (Cli.Spec.optionNames ts').Nodup)
    (hno : ∀ l ∈ listing, l ∉ Cli.Spec.optionNames ts) (hno' : ∀ l ∈ listing, l ∉ Cli.Spec.optionNames ts')
    (ho : Writable p.maxPath opens ts) (ho' : Writable p'.maxPath opens' ts')
    (hsame : decisive p tags = decisive p' tags') (hpos : Cli.Spec.positionalsOf ts = Cli.Spec.positionalsOf ts') :
    ∃ code w w', Whole.main p fuel opens argv0 argv = some (.ok (code, w)) ∧
      Whole.main p' fuel' opens' argv0' argv' = some (.ok (code, w')) := by
  obtain ⟨code, w, _, h1, -, h2, h3⟩ := C92_outcome hr (opens := opens) argv0 hlen tags hcases hc hts hn hno ho
  obtain ⟨code', w', _, h1', -, h2', h3'⟩ := C92_outcome hr' (opens := opens') argv0' hlen' tags' hcases' hc' hts' hn'
    hno' ho'
  have conv : ∀ (q : Program) (tg : Reg.Case → List Text) (P : Text × List Text × Run.CaseState → Prop),
      (∀ c ∈ q.cases, P (Reg.Spec.fullName c.test.id, tg c, Run.Spec.verdictOf c.test (tg c))) ↔
        ∀ x ∈ decisive q tg, P x := by
    intro q tg P
    unfold decisive
    rw [List.forall_mem_map]
  rw [conv p tags fun x => Verif.Spec.Selected (Cli.Spec.positionalsOf ts) ⟨x.1, x.2.1⟩ → x.2.2 ≠ .failed] at h3
  rw [conv p' tags' fun x => Verif.Spec.Selected (Cli.Spec.positionalsOf ts') ⟨x.1, x.2.1⟩ → x.2.2 ≠ .failed, ← hsame,
    ← hpos] at h3'
  have : code = 0 ↔ code' = 0 := h3.trans h3'.symm
  obtain rfl : code = code' := by omega
  exact ⟨code, w, w', h1, h1'⟩

/-- **C92** (lists of tests). With `--list-tests` or `--list-tests-with-tag`, whatever the texts in the names and tags of the
tests: the exit status is 0. -/
theorem C92_lists [Run.MessageLimit] {p : Program} (hr : Roomy p) (fuel : Nat) {opens : Text → Bool} (argv0 : Text)
    {argv : List Text} (hlen : argv.length ≤ p.maxArgs) (tags : Reg.Case → List Text)
    (ht : ∀ c ∈ p.cases, Reg.Spec.Tagged p.lim.cfg.maxTag c.test.id (tags c))
    (hname : ∀ c ∈ p.cases, Reg.Spec.Registrable p.lim.maxName c.test) (hc : Countable p tags)
    {ts : List Cli.Spec.Token} (hts : Cli.Spec.tokens argv = some ts) (hn : (Cli.Spec.optionNames ts).Nodup)
    (ho : Writable p.maxPath opens ts) (hq : request ts = .tests ∨ ∃ tag, request ts = .testsWithTag tag) :
    ∃ w report, Whole.main p fuel opens argv0 argv = some (.ok (0, w)) ∧ Delivered p argv ts report w := by
  obtain ⟨sel, -, h2⟩ := lists_told p fuel argv0 hlen tags ht hname hts hn hq
  obtain ⟨d, hd⟩ := list_returns hr.message hc.names (settled p ts).1.withColor (kindFor p ts)
    (tests := (p.cases.filter sel).map (entryOf p.src)) (by
      intro t ht
      obtain ⟨c, -, rfl⟩ := List.mem_map.1 ht
      exact hc.lines _)
  obtain ⟨w, m1, m2⟩ := main_events hr hlen hts hn ho h2 hd
  exact ⟨w, d.out, m1, m2⟩

/-- **C92** (any command line). For every command line, well-formed or not, whatever it asks for except for the list of tags:
the program ends with exit status 0 or 1; it is 1 for a command line that is refused, and 0 for one that asks for help or for
a list. Missing: with `--list-tags`, the same holds under the conditions of `C88_tags_partial`, but not if a tag is only
written in its short form, see `C49_shorthand_undefined`. -/
theorem C92_ends_partial [Run.MessageLimit] {p : Program} (hr : Roomy p) {fuel : Nat} {opens : Text → Bool} (argv0 : Text)
    {argv : List Text} (hlen : argv.length ≤ p.maxArgs) (tags : Reg.Case → List Text)
    (hcases : ∀ c ∈ p.cases, Sound p.lim fuel c.test (tags c)) (hc : Countable p tags)
    (ho : ∀ ts, Cli.Spec.tokens argv = some ts → Writable p.maxPath opens ts)
    (hq : ∀ ts, Cli.Spec.tokens argv = some ts → request ts ≠ .tags) :
    ∃ code w, Whole.main p fuel opens argv0 argv = some (.ok (code, w)) ∧ (code = 0 ∨ code = 1) ∧
      (¬ Cli.Spec.WellFormed argv → code = 1) ∧
      (Cli.Spec.WellFormed argv → ∀ ts, Cli.Spec.tokens argv = some ts → request ts ≠ .run → code = 0) := by
  by_cases hw : Cli.Spec.WellFormed argv
  · obtain ⟨ts, hts, hn⟩ := hw
    suffices h : ∃ code w, Whole.main p fuel opens argv0 argv = some (.ok (code, w)) ∧ (code = 0 ∨ code = 1) ∧
        (request ts ≠ .run → code = 0) by
      obtain ⟨code, w, h1, h2, h3⟩ := h
      refine ⟨code, w, h1, h2, fun h => absurd ⟨ts, hts, hn⟩ h, fun _ ts' hts' => ?_⟩
      obtain rfl : ts = ts' := Option.some.inj (hts.symm.trans hts')
      exact h3
    have ho := ho ts hts
    have ht : ∀ c ∈ p.cases, Reg.Spec.Tagged p.lim.cfg.maxTag c.test.id (tags c) := fun c h => (hcases c h).tags
    have hname : ∀ c ∈ p.cases, Reg.Spec.Registrable p.lim.maxName c.test := fun c h => (hcases c h).name
    cases hreq : request ts with
    | help =>
      obtain ⟨w, h, -⟩ := C88_help_partial hr fuel argv0 hlen hts hn ho (by
        unfold request at hreq
        split at hreq
        · assumption
        · split at hreq
          · cases hreq
          · split at hreq
            · cases hreq
            · split at hreq
              · cases hreq
              · split at hreq <;> cases hreq)
      exact ⟨0, w, h, .inl rfl, fun _ => rfl⟩
    | testsWithTag tag =>
      obtain ⟨w, _, h, -⟩ := C92_lists hr fuel argv0 hlen tags ht hname hc hts hn ho (.inr ⟨tag, hreq⟩)
      exact ⟨0, w, h, .inl rfl, fun _ => rfl⟩
    | tags => exact absurd hreq (hq ts hts)
    | reporters =>
      obtain ⟨w, h, -⟩ := C88_reporters_partial hr fuel argv0 hlen hts hn ho hreq
      exact ⟨0, w, h, .inl rfl, fun _ => rfl⟩
    | tests =>
      obtain ⟨w, _, h, -⟩ := C92_lists hr fuel argv0 hlen tags ht hname hc hts hn ho (.inl hreq)
      exact ⟨0, w, h, .inl rfl, fun _ => rfl⟩
    | run =>
      obtain ⟨code, w, _, h1, -, h2, -⟩ := C92_outcome hr (opens := opens) argv0 hlen tags hcases hc hts hn
        ((request_run hts hn).1 hreq) ho
      exact ⟨code, w, h1, h2, fun h => absurd rfl h⟩
  · obtain ⟨w, h, -⟩ := C87_refused hr fuel opens argv0 hlen hw
    exact ⟨1, w, h, .inr rfl, fun _ => rfl, fun h => absurd h hw⟩

/-! ## Examples -/

/-- The example program, with line numbers of type `std::size_t`. -/
def plainProgram : Program :=
  { exampleProgram with src := { exampleSource with
      loc := fun n => ⟨"f.cpp".toList, n % 2 ^ 64⟩
      sec := fun n => ⟨⟨"s".toList, []⟩, ⟨"f.cpp".toList, n % 2 ^ 64⟩⟩ } }

/-- The same, but each assertion has a text of a million characters, which does not fit in any buffer. -/
def wordyProgram : Program :=
  { plainProgram with src := { plainProgram.src with data := fun _ _ => .message (List.replicate 1000000 '\x00') } }

theorem plainProgram_roomy : Roomy plainProgram := ⟨by decide, by decide, by decide⟩
theorem wordyProgram_roomy : Roomy wordyProgram := ⟨by decide, by decide, by decide⟩

open Defaults in
theorem plainProgram_countable : Countable plainProgram teamcityTags where
  lines _ := Nat.mod_lt _ (by decide)
  sections _ := Nat.mod_lt _ (by decide)
  durations _ := by simp [plainProgram, exampleSource]
  tests := by decide
  assertions := by decide
  names := by decide

open Defaults in
theorem wordyProgram_countable : Countable wordyProgram teamcityTags :=
  ⟨plainProgram_countable.lines, plainProgram_countable.sections, plainProgram_countable.durations,
    plainProgram_countable.tests, plainProgram_countable.assertions, plainProgram_countable.names⟩

open Defaults in
/-- It ends with the same exit status, 1, with another reporter, and with another name. -/
example : ∃ w w', Whole.main plainProgram 5 (fun _ => true) "bin/prog.exe".toList
      (["-v", "high", "-o", "f"].map String.toList) = some (.ok (1, w)) ∧
    Whole.main wordyProgram 5 (fun _ => false) "x".toList (["-r", "xml", "--color", "always"].map String.toList) =
      some (.ok (1, w')) := by
  obtain ⟨code, w, w', h1, h2⟩ := C92_same plainProgram_roomy wordyProgram_roomy
    (opens := fun _ => true) (opens' := fun _ => false) "bin/prog.exe".toList "x".toList
    (argv := ["-v", "high", "-o", "f"].map String.toList) (argv' := ["-r", "xml", "--color", "always"].map String.toList)
    (by decide) (by decide) teamcityTags teamcityTags teamcity_sound plainProgram_countable teamcity_sound
    wordyProgram_countable (ts := _) rfl (by decide) (ts' := _) rfl (by decide) (by decide) (by decide)
    (by intro path h; obtain rfl : "f".toList = path := Option.some.inj h; decide) (by intro path h; cases h) rfl rfl
  obtain ⟨code', w1, _, h3, -, h4, h5⟩ := C92_outcome plainProgram_roomy (opens := fun _ => true) "bin/prog.exe".toList
    (argv := ["-v", "high", "-o", "f"].map String.toList) (by decide) teamcityTags teamcity_sound plainProgram_countable
    (ts := _) rfl (by decide) (by decide)
    (by intro path h; obtain rfl : "f".toList = path := Option.some.inj h; decide)
  have h6 : code' = 1 := by
    rcases h4 with rfl | rfl
    · exact absurd rfl (h5.1 rfl teamcityCases[2] (by simp [plainProgram, exampleProgram, teamcityCases]) ⟨nofun, by
        rintro ⟨x, hx, h⟩
        obtain rfl : x = "x".toList := List.mem_singleton.1 hx
        exact absurd h (by simp [Verif.Spec.Hides])⟩)
    · rfl
  subst h6
  rw [h3] at h1
  cases h1
  exact ⟨_, w', h3, h2⟩

open Defaults in
/-- A list of its tests, whatever their names. -/
example : ∃ w report, Whole.main wordyProgram 0 (fun _ => true) "prog".toList (["-l", "first"].map String.toList) =
    some (.ok (0, w)) ∧ Shows w ([] ++ report) none :=
  C92_lists wordyProgram_roomy 0 (opens := fun _ => true) "prog".toList
    (argv := ["-l", "first"].map String.toList) (by decide) teamcityTags (fun c hc => (teamcity_sound c hc).tags)
    (fun c hc => (teamcity_sound c hc).name) wordyProgram_countable (ts := _) rfl (by decide) (by intro path h; cases h)
    (.inl (by decide))

open Defaults in
/-- An option given twice. -/
example : ∃ w, Whole.main wordyProgram 5 (fun _ => true) "prog".toList (["-l", "-l"].map String.toList) =
    some (.ok (1, w)) := by
  obtain ⟨code, w, h1, -, h2, -⟩ := C92_ends_partial wordyProgram_roomy (opens := fun _ => true)
    "prog".toList (argv := ["-l", "-l"].map String.toList) (by decide) teamcityTags teamcity_sound wordyProgram_countable
    (fun ts h => by cases h; intro path h; cases h) (fun ts h => by cases h; decide)
  obtain rfl := h2 (by
    rintro ⟨ts, h, hn⟩
    cases h
    exact absurd hn (by decide))
  exact ⟨w, h1⟩

end Verif.Props
