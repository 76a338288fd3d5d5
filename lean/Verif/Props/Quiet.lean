import Verif.Lemmas.Quiet
import Verif.Props.Program
/-!
# C96: sections inside try blocks
-/
namespace Verif.Props
open Verif.Run Verif.Run.Spec Verif.Reg Verif.Reg.Spec

/-- **C96**. A try block in which nothing is thrown makes no difference, whatever its handler does: the run of any test gives the
same state, events and user actions as that of the test without these blocks, or fails to end with it. -/
theorem C96_same_run [Run.MessageLimit] (cfg : Cfg) (fuel : Nat) (t : TestCase) : run cfg fuel t = run cfg fuel (unTryTest t) :=
  (run_unTry cfg fuel t).symm

/-- **C96**. Nor does it for the program: the same output and exit status, for any command line. -/
theorem C96_same_program [Run.MessageLimit] (lim : Limits) (fuel maxArgs : Nat) (reporters : List Text) (init : Nat → Nat → Nat)
    (config : Cli.Config) (argv0 : Text) (argv : List Text) (cases : List Case) :
    main lim fuel maxArgs reporters init config argv0 argv cases =
      main lim fuel maxArgs reporters init config argv0 argv (cases.map fun c => { c with test := unTryTest c.test }) :=
  (main_unTry lim fuel maxArgs reporters init config argv0 argv cases).symm

/-- **C96**. Sections inside such try blocks are therefore each executed as the documentation says: the run tells the story of the test
without the blocks. (Missing: try blocks in which something is thrown, see `C96_lost`.) -/
theorem C96_meaning_partial [Run.MessageLimit] {cfg : Cfg} {t : TestCase} {tags : List Filter.ParsedTag}
    (hf : Fits cfg (unTryTest t) tags) (ht : Always Tidy (unTryTest t).body) {fuel : Nat}
    (hfuel : passCount (unTryTest t).body.first ≤ fuel) :
    ∃ s, run cfg fuel t = some (.ok s) ∧ s.log.filterMap observed =
      (caseStory (unTryTest t) (tags.contains .shouldFail)).filter (Item.visible cfg.verbosity) := by
  rw [C96_same_run]
  exact C19_meaning hf ht hfuel

/-- **C96**. If nothing at all is thrown, the user statements that are run are those of one execution per leaf section, counting the
sections inside try blocks. -/
theorem C96_executions_partial [Run.MessageLimit] {cfg : Cfg} {t : TestCase} {tags : List Filter.ParsedTag}
    (hf : Fits cfg (unTryTest t) tags) (hc : Always Calm (unTryTest t).body) {fuel : Nat}
    (hfuel : (runsOf (unTryTest t).body).length ≤ fuel) :
    ∃ s, run cfg fuel t = some (.ok s) ∧ userActs s.log = (runsOf (unTryTest t).body).flatten := by
  rw [C96_same_run]
  exact C19_executions hf hc hfuel

/-- `try { SECTION(1) { user 10; } SECTION(2) { CHECK(false); user 20; } } catch (...) { user 99; } SECTION(3) { user 30; }` -/
def quietSections : Prog :=
  .tryCatch none
    (.sec 1 2 (.stmt (.act 10) .done) (.sec 2 3 (.stmt (.check 4 (.val false) false "CHECK(false)".toList) (.stmt (.act 20) .done)) .done))
    (.stmt (.act 99) .done) (.sec 3 5 (.stmt (.act 30) .done) .done)

/-- It is outside of what C19 covers, and meets the hypotheses here; three executions take place. -/
example : ¬ Tidy quietSections ∧ Fits (defaults 3) (unTryTest (plain quietSections)) [] ∧
    Always Calm (unTryTest (plain quietSections)).body ∧ Always Tidy (unTryTest (plain quietSections)).body ∧
    passCount (unTryTest (plain quietSections)).body.first = 3 ∧
    runsOf (unTryTest (plain quietSections)).body = [[10], [20], [30]] := by
  refine ⟨?_, plain_fits (body := unTry quietSections) (by decide) (by decide), plain_always (body := unTry quietSections) ?_,
    plain_always (body := unTry quietSections) ?_, by decide, by decide⟩
  · simp [Tidy, quietSections, leaves]
  · simp [unTry, quietSections, quiet, calmStmt, Calm]
  · simp [unTry, quietSections, quiet, calmStmt, Tidy]

open Defaults in
example : ∃ s, run (defaults 3) 3 (plain quietSections) = some (.ok s) ∧ userActs s.log = [10, 20, 30] ∧ s.state = .failed :=
  ⟨_, rfl, by decide, by decide⟩

/-- **C96**. The exit status and the story told by the whole program, for tests with sections in such try blocks. (Missing: as above.) -/
theorem C96_program_partial [Run.MessageLimit] {lim : Limits} {fuel maxArgs : Nat} (reporters : List Text) (init : Nat → Nat → Nat)
    (config : Cli.Config) (argv0 : Text) {argv : List Text} {cases : List Case} (hlen : argv.length ≤ maxArgs)
    (tags : Filter.TestId → List Text) (hcases : ∀ c ∈ cases, Sound lim fuel (unTryTest c.test) (tags c.test.id))
    {ts : List Cli.Spec.Token} (hts : Cli.Spec.tokens argv = some ts) (hn : (Cli.Spec.optionNames ts).Nodup)
    (hno : ∀ l ∈ listing, l ∉ Cli.Spec.optionNames ts) :
    ∃ (code : Nat) (out : List Out) (sel : Case → Bool) (v : Nat),
      main lim fuel maxArgs reporters init config argv0 argv cases = some (.ok (code, out)) ∧
      (∀ c ∈ cases, sel c = true ↔
        Verif.Spec.Selected (Cli.Spec.positionalsOf ts) ⟨fullName c.test.id, tags c.test.id⟩) ∧
      (code = 0 ↔ ∀ c ∈ cases, sel c = true → verdictOf (unTryTest c.test) (tags c.test.id) ≠ .failed) ∧
      v = verbosityOfRun reporters init config ts ∧
      out.filterMap told = (cases.filter sel).flatMap fun c =>
        (caseStory (unTryTest c.test) (hasTag (tags c.test.id) "!shouldfail")).filter (Item.visible v) := by
  obtain ⟨code, out, sel, v, h1, h2, _, h4, h5, h6⟩ := C67_program reporters init config argv0 hlen (fun c => tags c.test.id)
    (cases := cases.map unTryCase) (by
      intro c hc
      obtain ⟨d, hd, rfl⟩ := List.mem_map.mp hc
      exact hcases d hd) hts hn hno
  refine ⟨code, out, fun c => sel (unTryCase c), v, (main_unTry ..).symm.trans h1, ?_, ?_, h5, ?_⟩
  · intro c hc
    exact h2 _ (List.mem_map_of_mem hc)
  · rw [h4]
    constructor
    · intro h c hc
      exact h _ (List.mem_map_of_mem hc)
    · intro h c hc
      obtain ⟨d, hd, rfl⟩ := List.mem_map.mp hc
      exact h d hd
  · rw [h6, List.filter_map, List.flatMap_map]
    rfl

/-- A program with two tests, one of which has its sections in a try block, and a command line. -/
def quietCases : List Case := [{ test := mkTest "t" "[a]" quietSections }, { test := mkTest "u" "" .done }]

example : (∀ c ∈ quietCases, Sound (defaultLimits 1) 5 (unTryTest c.test) (if c.test.id.tags = [] then [] else ["a".toList])) ∧
    ∃ ts, Cli.Spec.tokens (["~u"].map String.toList) = some ts ∧ (Cli.Spec.optionNames ts).Nodup ∧
      (∀ l ∈ listing, l ∉ Cli.Spec.optionNames ts) ∧ Cli.Spec.positionalsOf ts = ["~u".toList] := by
  constructor
  · simp only [quietCases, List.forall_mem_cons]
    refine ⟨sound_same rfl (by decide) ⟨by decide, ?_, ?_⟩ ?_ (by decide) (by decide) (by decide),
      sound_same rfl (by decide) ⟨by decide, ?_, ?_⟩ ?_ (by decide) (by decide) (by decide), by simp⟩
    all_goals simp [mkTest, Verif.Spec.TagOk, Verif.Spec.Hides, Tidy, defaultLimits, defaults, unTryTest, unTry, quietSections,
      quiet, calmStmt]
  · exact ⟨_, rfl, by decide, by decide, rfl⟩

/-! ## What is lost when something is thrown -/

/-- `try { SECTION(id) { user a; throw e; } rest } catch (...) { snitch::notify_exception_handled(); }` -/
def throwingFirst (id loc a : Nat) (e : Exn) (rest : Prog) : Prog :=
  .tryCatch none (.sec id loc (.stmt (.act a) (.stmt (.throw e) .done)) rest) (.stmt .notify .done) .done

/-- **C96** (negation of the rest). If the first section of the try block throws and the test handles the exception as documented, then
whatever follows in the block, however many sections it has and whether or not they would fail, is never executed; the test is
executed once and passes. -/
theorem C96_lost [Run.MessageLimit] {cfg : Cfg} (hn : 1 ≤ cfg.maxNested) (tid : Filter.TestId) (tloc id loc a : Nat) (e : Exn)
    (rest : Prog) (htags : Filter.forEachTag cfg.maxTag tid.tags = .ok []) {fuel : Nat} (hfuel : 1 ≤ fuel) :
    ∃ s, run cfg fuel ⟨tid, tloc, throwingFirst id loc a e rest⟩ = some (.ok s) ∧ s.state = .success ∧ userActs s.log = [a] := by
  obtain ⟨f, rfl⟩ : ∃ f, fuel = f + 1 := ⟨fuel - 1, by omega⟩
  have h0 : ¬ cfg.maxNested ≤ 0 := by omega
  have h1 : 1 < cfg.maxNested + 2 := by omega
  unfold run
  by_cases h2 : 2 ≤ cfg.verbosity <;> by_cases h3 : 3 ≤ cfg.verbosity <;>
    simp [htags, runLoop, Body.no, throwingFirst, exec, execStmt, enterSection, ensureLevel, enterLevel, startSection, Level.next,
      wanted, arrive, notify, closeHeld, pushLocation, popLocation, hold, leaveSection, leaveEntered, finishLevel, decDepth,
      setSections, initState, freshState, emit, resetPass, clearFinished, afterLoop, reportEnd, settle, setInCheck, setUnhandled,
      reportAssertion, registerAssertion, checkShouldFail, endCase, reportSectionStarted, reportSectionEnded, catches, userActs,
      Info.count, h0, h1, h2, h3]

/-- The conditions can be met. -/
example : 1 ≤ (defaults 3).maxNested ∧ Filter.forEachTag (defaults 3).maxTag "".toList = .ok [] := ⟨by decide, rfl⟩

/-- `try { SECTION(1) { user 10; throw e; } SECTION(2) { user 20; CHECK(false); } } catch (...) { notify_exception_handled(); }` -/
def lostSection : Prog :=
  throwingFirst 1 2 10 ⟨[], none, false⟩
    (.sec 2 3 (.stmt (.act 20) (.stmt (.check 4 (.val false) false "CHECK(false)".toList) .done)) .done)

set_option maxRecDepth 20000 in
open Defaults in
/-- **C96** (negation of the rest), for a whole program: the check in the second section would fail, yet the exit status is 0. Without
the first section it is 1. -/
theorem C96_lost_program :
    (∃ out, main (defaultLimits 1) 5 1024 [] (fun _ v => v) (initialConfig true) "p".toList []
      [{ test := mkTest "t" "" lostSection }] = some (.ok (0, out))) ∧
    (∃ out, main (defaultLimits 1) 5 1024 [] (fun _ v => v) (initialConfig true) "p".toList []
      [{ test := mkTest "t" "" (.tryCatch none (.sec 2 3 (.stmt (.act 20)
        (.stmt (.check 4 (.val false) false "CHECK(false)".toList) .done)) .done) (.stmt .notify .done) .done) }] =
          some (.ok (1, out))) :=
  ⟨⟨_, rfl⟩, ⟨_, rfl⟩⟩

open Defaults in
/-- **C96**. With a section after the try block there is a second execution, in which the second section of the block is reached: what is
executed in the block depends on what follows it. -/
theorem C96_lost_unless_followed :
    (∃ s, run (defaults 2) 5 (plain lostSection) = some (.ok s) ∧ userActs s.log = [10]) ∧
    ∃ s, run (defaults 2) 5 (plain (.block lostSection (.sec 3 9 (.stmt (.act 30) .done) .done))) = some (.ok s) ∧
      20 ∈ userActs s.log ∧ s.state = .failed :=
  ⟨⟨_, rfl, by decide⟩, ⟨_, rfl, by decide, by decide⟩⟩

end Verif.Props
