import Mathlib.Data.List.Forall2
import Verif.Lemmas.Extend
import Verif.Props.Reorder
/-!
# C104: Adding sections hides no failure
-/
namespace Verif.Props
open Verif Verif.Run Verif.Run.Spec Verif.Reg Verif.Reg.Spec

private theorem always_body {P : Prog → Prop} {b : Body} (hl : b.later = []) (h : P b.first) : Always P b := by
  intro n
  unfold Body.no
  rw [hl]
  cases n <;> exact h

/-- A test keeps within the limits if it does with further sections. -/
theorem sound_smaller {lim : Limits} {fuel : Nat} {t u : TestCase} {ts : List Text} (h : ExtendedTest t u) (hs : Sound lim fuel u ts) :
    Sound lim fuel t ts := by
  obtain ⟨k1, k2, _, k4, _⟩ := Extend.less h.body
  have ht : Tidy u.body.first := hs.tidy 0
  have hd : secDepth u.body.first ≤ _ := hs.sections 0
  have hc : capDepth u.body.first ≤ _ := hs.captures 0
  refine sound_same h.same ?_ ?_ (k4 ht) (Nat.le_trans k1 hd) (Nat.le_trans k2 hc) ?_
  · have := hs.name
    unfold Registrable at this ⊢
    rw [← h.id]
    exact this
  · rw [← h.id]
    exact hs.tags
  · have := hs.fuel
    have hl := (Extend.leaves_extended h.body).1
    unfold passCount at this ⊢
    omega

private theorem smaller_noSkip {t u : TestCase} (h : ExtendedTest t u) (hs : Always NoSkip u.body) : Always NoSkip t.body :=
  always_body h.same ((Extend.less h.body).2.2.2.2.1 (hs 0))

private theorem smaller_own {t u : TestCase} (h : ExtendedTest t u) (hs : Always OwnThrows u.body) : Always OwnThrows t.body :=
  always_body h.same ((Extend.less h.body).2.2.2.2.2 (hs 0))

theorem fails_extended [Run.MessageLimit] {t u : TestCase} (h : ExtendedTest t u) (ha : Alike t.body) (hu : Alike u.body)
    (hs : Always NoSkip u.body) (ho : Always OwnThrows u.body) (hf : (happens t).any Item.isFailure = true) :
    (happens u).any Item.isFailure = true := by
  rw [fails_iff ha (smaller_noSkip h hs) (smaller_own h ho)] at hf
  rw [fails_iff hu hs ho]
  obtain ⟨n, h1, h2⟩ := hf
  have hm := (Extend.alones_extended h).mem (List.mem_map_of_mem (List.mem_range.2 h1))
  obtain ⟨m, g1, g2⟩ := List.mem_map.1 hm
  exact ⟨m, List.mem_range.1 g1, by rw [g2]; exact h2⟩

private theorem verdicts [Run.MessageLimit] {t u : TestCase} {ts : List Text} (h : ExtendedTest t u) (hs : Always NoSkip u.body) :
    verdictOf t ts = (if (happens t).any Item.isFailure then (if hasTag ts "!mayfail" || hasTag ts "!shouldfail" then .allowedFail else .failed)
      else if hasTag ts "!shouldfail" then (if hasTag ts "!mayfail" then .allowedFail else .failed) else .success) ∧
    verdictOf u ts = (if (happens u).any Item.isFailure then (if hasTag ts "!mayfail" || hasTag ts "!shouldfail" then .allowedFail else .failed)
      else if hasTag ts "!shouldfail" then (if hasTag ts "!mayfail" then .allowedFail else .failed) else .success) := by
  unfold verdictOf
  rw [skipsTest_none (Separate.happens_noSkip hs), skipsTest_none (Separate.happens_noSkip (smaller_noSkip h hs))]
  exact ⟨rfl, rfl⟩

theorem verdict_extended [Run.MessageLimit] {t u : TestCase} {ts : List Text} (h : ExtendedTest t u) (ha : Alike t.body)
    (hu : Alike u.body) (hs : Always NoSkip u.body) (ho : Always OwnThrows u.body) :
    (hasTag ts "!shouldfail" = false → verdictOf t ts ≠ .success → verdictOf u ts = verdictOf t ts) ∧
    (hasTag ts "!shouldfail" = true → verdictOf t ts = .allowedFail → verdictOf u ts = .allowedFail) := by
  obtain ⟨e1, e2⟩ := verdicts (ts := ts) h hs
  have hf := fails_extended h ha hu hs ho
  rw [e1, e2]
  cases h1 : (happens t).any Item.isFailure <;> cases h2 : (happens u).any Item.isFailure <;> cases hasTag ts "!mayfail" <;>
    cases hasTag ts "!shouldfail" <;> simp_all

/-- **C104**. Sections may be added next to other sections, anywhere in a test which does the same in each execution, as long as the
larger test has no skips and keeps within the limits: a test which does not succeed has the same verdict as before, and a test which
fails as it should still does. This also holds if exceptions or failing `REQUIRE`s keep one of the tests from reaching all sections. -/
theorem C104_verdict [Run.MessageLimit] {lim : Limits} {fuel : Nat} {t u : TestCase} {ts : List Text} (h : ExtendedTest t u)
    (hu : Sound lim fuel u ts) (hn : Always NoSkip u.body) (ho : Always OwnThrows u.body) :
    ∃ s r : TS, run lim.cfg fuel t = some (.ok s) ∧ run lim.cfg fuel u = some (.ok r) ∧
      (hasTag ts "!shouldfail" = false → s.state ≠ .success → r.state = s.state) ∧
      (hasTag ts "!shouldfail" = true → s.state = .allowedFail → r.state = .allowedFail) := by
  have hs := sound_smaller h hu
  obtain ⟨s, h1, h2, _⟩ := C67_verdict hs.alike hs.sections hs.captures hs.tags hs.tidy hs.fuel
  obtain ⟨r, r1, r2, _⟩ := C67_verdict hu.alike hu.sections hu.captures hu.tags hu.tidy hu.fuel
  refine ⟨s, r, h1, r1, ?_⟩
  rw [h2, r2]
  exact verdict_extended h hs.alike hu.alike hn ho

/-- **C104**. If nothing is thrown and no `REQUIRE` fails (`CHECK`s may fail), everything which was done before is still done, as often:
the statements, and the failures with their places. The rest is new. -/
theorem C104_all [Run.MessageLimit] {lim : Limits} {fuel : Nat} {t u : TestCase} {ts : List Text} (h : ExtendedTest t u)
    (hu : Sound lim fuel u ts) (hc : Always Calm u.body) (hf : hasTag ts "!shouldfail" = false) :
    ∃ (s r : TS) (new : List Deed), run lim.cfg fuel t = some (.ok s) ∧ run lim.cfg fuel u = some (.ok r) ∧
      (deeds r.log).Perm (deeds s.log ++ new) := by
  have hs := sound_smaller h hu
  have hct : Always Calm t.body := always_body h.same ((Extend.less h.body).2.2.1 (hc 0))
  obtain ⟨s, h1, h2, _⟩ := told_noSkip hs (fun n => Separate.calm_noSkip _ (hct n)) hf
  obtain ⟨r, r1, r2, _⟩ := told_noSkip hu (fun n => Separate.calm_noSkip _ (hc n)) hf
  have hp : Extend.Part (deeds s.log) (deeds r.log) := by
    rw [h2, r2, deeds_calm hs.alike hct, deeds_calm hu.alike hc]
    exact (Extend.alones_extended h).flatMap _
  obtain ⟨new, hp⟩ := hp
  exact ⟨s, r, new, h1, r1, hp⟩

private theorem forall₂_left {α β : Type} {R : α → β → Prop} {l : List α} {m : List β} (h : List.Forall₂ R l m) :
    ∀ a ∈ l, ∃ b ∈ m, R a b := by
  induction h with
  | nil => intro a ha; cases ha
  | cons h _ ih =>
    intro a ha
    rcases List.mem_cons.1 ha with rfl | ha
    · exact ⟨_, List.mem_cons_self .., h⟩
    · obtain ⟨b, hb, hr⟩ := ih a ha
      exact ⟨b, List.mem_cons_of_mem _ hb, hr⟩

/-- **C104**. If a program without `[!shouldfail]` succeeds after sections have been added to its tests, it did so before: for every
command line that asks for a run, an exit status which says that something failed still says so. -/
theorem C104_program [Run.MessageLimit] {lim : Limits} {fuel maxArgs : Nat} (reporters : List Text) (init : Nat → Nat → Nat)
    (config : Cli.Config) (argv0 : Text) {argv : List Text} {cs ds : List Case} (hlen : argv.length ≤ maxArgs)
    (h : List.Forall₂ (fun c d : Case => ExtendedTest c.test d.test) cs ds) (tags : Filter.TestId → List Text)
    (hds : ∀ d ∈ ds, Sound lim fuel d.test (tags d.test.id) ∧ Always NoSkip d.test.body ∧ Always OwnThrows d.test.body ∧
      hasTag (tags d.test.id) "!shouldfail" = false)
    {ts : List Cli.Spec.Token} (hts : Cli.Spec.tokens argv = some ts) (hn : (Cli.Spec.optionNames ts).Nodup)
    (hno : ∀ l ∈ listing, l ∉ Cli.Spec.optionNames ts) :
    ∃ code code' out out', main lim fuel maxArgs reporters init config argv0 argv cs = some (.ok (code, out)) ∧
      main lim fuel maxArgs reporters init config argv0 argv ds = some (.ok (code', out')) ∧
      (code = 0 ∨ code = 1) ∧ (code' = 0 ∨ code' = 1) ∧ (code = 1 → code' = 1) := by
  have hsound : ∀ c ∈ cs, Sound lim fuel c.test (tags c.test.id) := by
    intro c hc
    obtain ⟨d, hd, hcd⟩ := forall₂_left h c hc
    rw [← hcd.id]
    exact sound_smaller hcd (hds d hd).1
  obtain ⟨code, out, sel, v, h1, h2, h3, h4, _⟩ := C67_program (lim := lim) (fuel := fuel) (maxArgs := maxArgs) reporters init config argv0
    hlen (fun c => tags c.test.id) hsound hts hn hno
  obtain ⟨code', out', sel', v', g1, g2, g3, g4, _⟩ := C67_program (lim := lim) (fuel := fuel) (maxArgs := maxArgs) reporters init config
    argv0 hlen (fun c => tags c.test.id) (fun d hd => (hds d hd).1) hts hn hno
  refine ⟨code, code', out, out', h1, g1, h3, g3, ?_⟩
  have hz : code' = 0 → code = 0 := by
    rw [h4, g4]
    intro hh c hc hsel
    obtain ⟨d, hd, hcd⟩ := forall₂_left h c hc
    obtain ⟨d1, d2, d3, d4⟩ := hds d hd
    have hsel' := (h2 c hc).mp hsel
    rw [← hcd.id] at hsel'
    have hv := hh d hd ((g2 d hd).mpr hsel')
    intro hbad
    refine hv ?_
    rw [← hcd.id] at hbad
    rw [(verdict_extended hcd (hsound c hc).alike d1.alike d2 d3).1 d4 (by rw [hbad]; decide)]
    exact hbad
  intro hc
  rcases g3 with g | g
  · have := hz g
    omega
  · exact g

/-! ## The hypotheses can be met -/

/-- A section in which a `REQUIRE` fails. -/
def unextended : Prog := .stmt (.act 1) (.sec 1 2 (.sec 2 3 (.stmt (.check 4 (.val false) true "r".toList) .done) .done) (.stmt (.act 2) .done))

/-- A section before and one in it. -/
def extended : Prog :=
  .stmt (.act 1) (.sec 4 6 (.stmt (.act 40) .done)
    (.sec 1 2 (.sec 2 3 (.stmt (.check 4 (.val false) true "r".toList) .done) (.sec 3 5 (.stmt (.act 30) .done) .done)) (.stmt (.act 2) .done)))

theorem extended_ok : ExtendedTest (mkTest "t" "" unextended) (mkTest "t" "" extended) where
  id := rfl
  loc := rfl
  same := rfl
  same' := rfl
  body := .stmt _ (.trans (.sec _ _ (.after ..) (.refl _)) (.before ..))

theorem extended_sound : Sound (defaultLimits 3) 5 (mkTest "t" "" extended) [] ∧ Always NoSkip (mkTest "t" "" extended).body ∧
    Always OwnThrows (mkTest "t" "" extended).body := by
  refine ⟨sound_same rfl (by decide) ⟨by decide, ?_, ?_⟩ ?_ (by decide) (by decide) (by decide), always_one ?_, always_one ?_⟩
  all_goals simp [mkTest, Tidy, extended, NoSkip, OwnThrows]

example : ∃ (lim : Limits) (fuel : Nat) (t u : TestCase) (ts : List Text), ExtendedTest t u ∧ t.body ≠ u.body ∧ Sound lim fuel u ts ∧
    Always NoSkip u.body ∧ Always OwnThrows u.body :=
  ⟨_, _, _, _, _, extended_ok, by decide, extended_sound⟩

open Defaults in
/-- The new section before is executed, the one behind the failing `REQUIRE` is not reached; both tests fail. -/
example :
    doneIn (run (defaults 3) 5 (mkTest "t" "" unextended)) = some ([.did 1, .failed ⟨[1, 2], [], 4, .exact⟩ "r".toList], .failed) ∧
    doneIn (run (defaults 3) 5 (mkTest "t" "" extended)) =
      some ([.did 1, .did 40, .did 2, .did 1, .failed ⟨[1, 2], [], 4, .exact⟩ "r".toList], .failed) := by decide +kernel

/-- A test which nothing interrupts, with a failing `CHECK`. -/
example : ∃ t u : TestCase, ExtendedTest t u ∧ t.body ≠ u.body ∧ Sound (defaultLimits 3) 5 u [] ∧ Always Calm u.body ∧
    hasTag [] "!shouldfail" = false := by
  refine ⟨mkTest "t" "" (.sec 2 3 (.stmt (.check 4 (.val false) false []) .done) .done),
    mkTest "t" "" (.sec 1 2 (.stmt (.act 1) .done) (.sec 2 3 (.stmt (.check 4 (.val false) false []) .done) .done)),
    ⟨rfl, rfl, rfl, rfl, .before ..⟩, by decide,
    sound_same rfl (by decide) ⟨by decide, ?_, ?_⟩ ?_ (by decide) (by decide) (by decide), always_one ?_, by decide⟩
  all_goals simp [mkTest, Tidy, Calm, calmStmt]

example : List.Forall₂ (fun c d : Case => ExtendedTest c.test d.test) [{ test := mkTest "t" "" unextended }]
      [{ test := mkTest "t" "" extended }] ∧
    (∀ d ∈ [({ test := mkTest "t" "" extended } : Case)], Sound (defaultLimits 3) 5 d.test [] ∧ Always NoSkip d.test.body ∧
      Always OwnThrows d.test.body ∧ hasTag [] "!shouldfail" = false) := by
  refine ⟨.cons extended_ok .nil, ?_⟩
  intro c hc
  rw [List.mem_singleton] at hc
  subst hc
  exact ⟨extended_sound.1, extended_sound.2.1, extended_sound.2.2, by decide⟩

/-! ## What has to be asked for -/

open Defaults in
/-- **C104**. That nothing is skipped has to be asked for: a section with a skip, put before a section with a failure, hides it. -/
theorem C104_skip :
    doneIn (run (defaults 3) 5 (plain (.sec 2 4 (.stmt (.check 5 (.val false) false "c".toList) .done) .done))) =
      some ([.failed ⟨[2], [], 5, .exact⟩ "c".toList], .failed) ∧
    doneIn (run (defaults 3) 5 (plain (.sec 1 2 (.stmt (.skip 3 false "s".toList) .done)
      (.sec 2 4 (.stmt (.check 5 (.val false) false "c".toList) .done) .done)))) = some ([], .skipped) := by decide +kernel

open Defaults in
/-- **C104**. And that the new section is next to another one: if it is the first one of its section, an execution is not one more but
the one there was, and its code comes before a failing `REQUIRE`, which need not be reached. -/
theorem C104_first :
    doneIn (run (defaults 3) 5 (plain (.stmt (.act 1) (.stmt (.check 5 (.val false) true "c".toList) .done)))) =
      some ([.did 1, .failed ⟨[], [], 5, .exact⟩ "c".toList], .failed) ∧
    doneIn (run (defaults 3) 5 (plain (.stmt (.act 1) (.sec 1 2 (.stmt (.check 3 (.val false) true "n".toList) .done)
      (.stmt (.check 5 (.val false) true "c".toList) .done))))) =
      some ([.did 1, .failed ⟨[1], [], 3, .exact⟩ "n".toList], .failed) := by decide +kernel

end Verif.Props
