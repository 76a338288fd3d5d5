import Mathlib.Data.List.Forall2
import Verif.Lemmas.Setup
import Verif.Props.Quiet
/-!
# C103: Code before the sections is as good as code in each of them
-/
namespace Verif.Props
open Verif Verif.Run Verif.Run.Spec Verif.Reg Verif.Reg.Spec

/-- **C103**. Let the code before the sections of a test be moved to the begin of each of the sections, both tests being written as
documented and keeping within the limits. Whatever this code does (checks, skips, exceptions, captures of its own), the two tests have the
same verdict, and say the same except for section starts and ends and the places of checks: the same statements are executed, and the
same checks, failures and skips are told with the same captures and texts, in the same order and each as often. -/
theorem C103_test [Run.MessageLimit] {lim : Limits} {fuel : Nat} {t u : TestCase} {ts : List Text} (h : SetupTest t u)
    (ht : Sound lim fuel t ts) (hu : Sound lim fuel u ts) :
    ∃ s r : TS, run lim.cfg fuel t = some (.ok s) ∧ run lim.cfg fuel u = some (.ok r) ∧ s.state = r.state ∧ said s.log = said r.log := by
  obtain ⟨s, h1, h2, h3⟩ := C67_verdict ht.alike ht.sections ht.captures ht.tags ht.tidy ht.fuel
  obtain ⟨r, r1, r2, r3⟩ := C67_verdict hu.alike hu.sections hu.captures hu.tags hu.tidy hu.fuel
  refine ⟨s, r, h1, r1, ?_, ?_⟩
  · rw [h2, r2]
    exact Setup.verdict_said (Setup.said_happens h ht.alike) ts
  · rw [Setup.said_observed, Setup.said_observed, h3, r3, Setup.visible_said, Setup.visible_said, Setup.said_case h ht.alike]

private theorem mem_forall₂ {α β : Type} {R : α → β → Prop} {l : List α} {m : List β} (h : List.Forall₂ R l m) :
    ∀ a ∈ l, ∃ b ∈ m, R a b := by
  induction h with
  | nil => intro a ha; cases ha
  | cons h _ ih =>
    intro a ha
    rcases List.mem_cons.1 ha with rfl | ha
    · exact ⟨_, List.mem_cons_self .., h⟩
    · obtain ⟨b, hb, hr⟩ := ih a ha
      exact ⟨b, List.mem_cons_of_mem _ hb, hr⟩

/-- **C103**. A program in whose tests this is done has the same exit status, for every command line that asks for a run. -/
theorem C103_program [Run.MessageLimit] {lim : Limits} {fuel maxArgs : Nat} (reporters : List Text) (init : Nat → Nat → Nat)
    (config : Cli.Config) (argv0 : Text) {argv : List Text} {cs ds : List Case} (hlen : argv.length ≤ maxArgs)
    (h : List.Forall₂ (fun c d : Case => c = d ∨ SetupTest c.test d.test) cs ds) (tags : Filter.TestId → List Text)
    (hcs : ∀ c ∈ cs, Sound lim fuel c.test (tags c.test.id)) (hds : ∀ d ∈ ds, Sound lim fuel d.test (tags d.test.id))
    {ts : List Cli.Spec.Token} (hts : Cli.Spec.tokens argv = some ts) (hn : (Cli.Spec.optionNames ts).Nodup)
    (hno : ∀ l ∈ listing, l ∉ Cli.Spec.optionNames ts) :
    ∃ code out out', main lim fuel maxArgs reporters init config argv0 argv cs = some (.ok (code, out)) ∧
      main lim fuel maxArgs reporters init config argv0 argv ds = some (.ok (code, out')) := by
  obtain ⟨code, out, sel, v, h1, h2, h3, h4, _⟩ := C67_program (lim := lim) (fuel := fuel) (maxArgs := maxArgs) reporters init config argv0
    hlen (fun c => tags c.test.id) hcs hts hn hno
  obtain ⟨code', out', sel', v', g1, g2, g3, g4, _⟩ := C67_program (lim := lim) (fuel := fuel) (maxArgs := maxArgs) reporters init config
    argv0 hlen (fun c => tags c.test.id) hds hts hn hno
  have hid : ∀ {c d : Case}, (c = d ∨ SetupTest c.test d.test) → d.test.id = c.test.id := by
    rintro c d (rfl | h)
    · rfl
    · exact h.id
  have hv : ∀ {c d : Case}, c ∈ cs → (c = d ∨ SetupTest c.test d.test) →
      verdictOf c.test (tags c.test.id) = verdictOf d.test (tags d.test.id) := by
    rintro c d hc (rfl | h)
    · rfl
    · rw [h.id]
      exact Setup.verdict_said (Setup.said_happens h (hcs c hc).alike) _
  have hiff : code = 0 ↔ code' = 0 := by
    rw [h4, g4]
    constructor
    · intro hh d hd hsel
      obtain ⟨c, hc, hcd⟩ := mem_forall₂ h.flip d hd
      have := (g2 d hd).mp hsel
      rw [hid hcd] at this
      have := hh c hc ((h2 c hc).mpr this)
      rwa [hv hc hcd] at this
    · intro hh c hc hsel
      obtain ⟨d, hd, hcd⟩ := mem_forall₂ h c hc
      have := (h2 c hc).mp hsel
      rw [← hid hcd] at this
      have := hh d hd ((g2 d hd).mpr this)
      rwa [← hv hc hcd] at this
  have hcode : code' = code := by
    rcases h3 with rfl | rfl <;> rcases g3 with rfl | rfl <;> simp_all
  exact ⟨code, out, out', h1, by rw [← hcode]; exact g1⟩

/-! ## The hypotheses can be met -/

/-- A function called for the set-up, which has a capture, a failing check and a statement. -/
def settingUp : Prog := .capture ["i := 1".toList] (.stmt (.check 4 (.val false) false "c".toList) (.stmt (.act 1) .done))

/-- Two sections, the second one with sections in it. -/
def setUpSections : List Sec :=
  [⟨1, 2, .stmt (.act 10) .done⟩,
   ⟨2, 3, .sec 3 5 (.stmt (.check 6 (.val true) true "r".toList) .done) (.sec 4 7 (.stmt (.act 40) .done) .done)⟩]

/-- A statement after the sections. -/
def tearDown : Prog := .stmt (.act 2) .done

theorem setup_ok : SetupTest (mkTest "t" "" (before settingUp setUpSections tearDown)) (mkTest "t" "" (within settingUp setUpSections tearDown)) where
  id := rfl
  loc := rfl
  body n := by
    refine ⟨settingUp, setUpSections, tearDown, rfl, rfl, by simp [setUpSections], ?_, ?_⟩ <;> cases n <;> rfl

theorem setup_sound : Sound (defaultLimits 3) 5 (mkTest "t" "" (before settingUp setUpSections tearDown)) [] ∧
    Sound (defaultLimits 3) 5 (mkTest "t" "" (within settingUp setUpSections tearDown)) [] := by
  constructor
  all_goals
    refine sound_same rfl (by decide) ⟨by decide, ?_, ?_⟩ ?_ (by decide) (by decide) (by decide)
    all_goals simp [mkTest, Tidy, before, within, sectionsThen, settingUp, setUpSections, tearDown]

example : ∃ (lim : Limits) (fuel : Nat) (t u : TestCase) (ts : List Text), SetupTest t u ∧ t.body ≠ u.body ∧ Sound lim fuel t ts ∧
    Sound lim fuel u ts :=
  ⟨_, _, _, _, _, setup_ok, by decide, setup_sound⟩

example : List.Forall₂ (fun c d : Case => c = d ∨ SetupTest c.test d.test)
      [{ test := mkTest "t" "" (before settingUp setUpSections tearDown) }] [{ test := mkTest "t" "" (within settingUp setUpSections tearDown) }] ∧
    (∀ c ∈ [({ test := mkTest "t" "" (before settingUp setUpSections tearDown) } : Case)], Sound (defaultLimits 3) 5 c.test []) ∧
    (∀ c ∈ [({ test := mkTest "t" "" (within settingUp setUpSections tearDown) } : Case)], Sound (defaultLimits 3) 5 c.test []) := by
  refine ⟨.cons (.inr setup_ok) .nil, ?_, ?_⟩
  all_goals
    intro c hc
    rw [List.mem_singleton] at hc
    subst hc
  · exact setup_sound.1
  · exact setup_sound.2

/-- What is said, and the verdict, if the run ends. -/
def saidIn (o : Option (Outcome TS)) : Option (List Said × CaseState) :=
  match o with
  | some (.ok s) => some (said s.log, s.state)
  | _ => none

open Defaults in
/-- The set-up is done three times, once for each leaf section, wherever it is written. -/
example :
    saidIn (run (defaults 0) 5 (mkTest "t" "" (before settingUp setUpSections tearDown))) =
      some ([.checked false ["i := 1".toList] "c".toList, .did 1, .did 10, .did 2,
        .checked false ["i := 1".toList] "c".toList, .did 1, .did 2,
        .checked false ["i := 1".toList] "c".toList, .did 1, .did 40, .did 2], .failed) ∧
    saidIn (run (defaults 0) 5 (mkTest "t" "" (within settingUp setUpSections tearDown))) =
      saidIn (run (defaults 0) 5 (mkTest "t" "" (before settingUp setUpSections tearDown))) := by decide +kernel

/-! ## What it does change -/

/-- The places of the failures. -/
def pathsIn (o : Option (Outcome TS)) : List (List Nat) :=
  match o with
  | some (.ok s) => s.log.filterMap fun e => match e with
    | .assertionFailed ctx .. => some ctx.path
    | _ => none
  | _ => []

open Defaults in
/-- **C103**. A failure in the code before the sections is shown without a section, also if it happens only on the way to one of them;
in the sections it is shown with the sections. -/
theorem C103_place :
    pathsIn (run (defaults 0) 5 (mkTest "t" "" (before settingUp setUpSections tearDown))) = [[], [], []] ∧
    pathsIn (run (defaults 0) 5 (mkTest "t" "" (within settingUp setUpSections tearDown))) = [[1], [2], [2]] := by decide +kernel

open Defaults in
/-- **C103**. There have to be sections: without any, there is nothing to move the code to. -/
theorem C103_none :
    saidIn (run (defaults 0) 5 (plain (before (.stmt (.act 1) .done) [] .done))) = some ([.did 1], .success) ∧
    saidIn (run (defaults 0) 5 (plain (within (.stmt (.act 1) .done) [] .done))) = some ([], .success) := by decide +kernel

end Verif.Props
