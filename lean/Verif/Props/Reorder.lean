import Mathlib.Data.List.Forall2
import Verif.Lemmas.Reorder
import Verif.Props.Gather
/-!
# C102: The order of sections does not matter
-/
namespace Verif.Props
open Verif Verif.Run Verif.Run.Spec Verif.Reg Verif.Reg.Spec

/-- A property of the one body of a test which does the same in each execution. -/
private theorem always_same {P : Prog → Prop} {b : Body} (hl : b.later = []) (h : P b.first) : Always P b := by
  intro n
  unfold Body.no
  rw [hl]
  cases n <;> exact h

/-- A test keeps within the limits if it does with its sections in another order. -/
theorem sound_reordered {lim : Limits} {fuel : Nat} {t u : TestCase} {ts : List Text} (h : ReorderedTest t u) (hs : Sound lim fuel t ts) :
    Sound lim fuel u ts := by
  obtain ⟨k1, k2, _, k4, _⟩ := Reorder.kept h.body
  have ht : Tidy t.body.first := hs.tidy 0
  have hd : secDepth t.body.first ≤ _ := hs.sections 0
  have hc : capDepth t.body.first ≤ _ := hs.captures 0
  refine sound_same h.same' ?_ ?_ (k4.2 ht) (by rw [k1]; exact hd) (by rw [k2]; exact hc) ?_
  · have := hs.name
    unfold Registrable at this ⊢
    rw [h.id]
    exact this
  · rw [h.id]
    exact hs.tags
  · have := hs.fuel
    unfold passCount at this ⊢
    rw [Reorder.leaves_reordered h.body]
    exact this

private theorem reordered_noSkip {t u : TestCase} (h : ReorderedTest t u) (hs : Always NoSkip t.body) : Always NoSkip u.body :=
  always_same h.same' ((Reorder.kept h.body).2.2.2.2.1.2 (hs 0))

private theorem reordered_own {t u : TestCase} (h : ReorderedTest t u) (hs : Always OwnThrows t.body) : Always OwnThrows u.body :=
  always_same h.same' ((Reorder.kept h.body).2.2.2.2.2.2 (hs 0))

theorem fails_reordered [Run.MessageLimit] {t u : TestCase} (h : ReorderedTest t u) (ha : Alike t.body) (hu : Alike u.body)
    (hs : Always NoSkip t.body) (ho : Always OwnThrows t.body) :
    (happens t).any Item.isFailure = (happens u).any Item.isFailure := by
  have key : ∀ v : TestCase, (∃ n, n < passCount v.body.first ∧ (happens (alone v n)).any Item.isFailure = true) ↔
      ∃ x ∈ (List.range (passCount v.body.first)).map (alone v), (happens x).any Item.isFailure = true := by
    intro v
    simp only [List.mem_map, List.mem_range]
    constructor
    · rintro ⟨n, h1, h2⟩
      exact ⟨_, ⟨n, h1, rfl⟩, h2⟩
    · rintro ⟨_, ⟨n, h1, rfl⟩, h2⟩
      exact ⟨n, h1, h2⟩
  rw [Bool.eq_iff_iff, fails_iff ha hs ho, fails_iff hu (reordered_noSkip h hs) (reordered_own h ho), key, key]
  have hp := Reorder.alones_reordered h
  exact ⟨fun ⟨x, h1, h2⟩ => ⟨x, hp.mem_iff.1 h1, h2⟩, fun ⟨x, h1, h2⟩ => ⟨x, hp.mem_iff.2 h1, h2⟩⟩

theorem verdict_reordered [Run.MessageLimit] {t u : TestCase} {ts : List Text} (h : ReorderedTest t u) (ha : Alike t.body)
    (hu : Alike u.body) (hs : Always NoSkip t.body) (ho : Always OwnThrows t.body) : verdictOf t ts = verdictOf u ts := by
  unfold verdictOf
  rw [skipsTest_none (Separate.happens_noSkip hs), skipsTest_none (Separate.happens_noSkip (reordered_noSkip h hs)),
    fails_reordered h ha hu hs ho]

/-- **C102**. Sections which follow one another may be put in another order, anywhere in a test without skips which does the same in
each execution and keeps within the limits: the verdict is the same, whatever the tags, also if exceptions or failing `REQUIRE`s
keep the test from reaching all sections. -/
theorem C102_verdict [Run.MessageLimit] {lim : Limits} {fuel : Nat} {t u : TestCase} {ts : List Text} (h : ReorderedTest t u)
    (hs : Sound lim fuel t ts) (hn : Always NoSkip t.body) (ho : Always OwnThrows t.body) :
    ∃ s r : TS, run lim.cfg fuel t = some (.ok s) ∧ run lim.cfg fuel u = some (.ok r) ∧ s.state = r.state := by
  have hu := sound_reordered h hs
  obtain ⟨s, h1, h2, _⟩ := C67_verdict hs.alike hs.sections hs.captures hs.tags hs.tidy hs.fuel
  obtain ⟨r, r1, r2, _⟩ := C67_verdict hu.alike hu.sections hu.captures hu.tags hu.tidy hu.fuel
  exact ⟨s, r, h1, r1, by rw [h2, r2, verdict_reordered h hs.alike hu.alike hn ho]⟩

theorem deeds_calm [Run.MessageLimit] {t : TestCase} (ha : Alike t.body) (hc : Always Calm t.body) (v : Nat) :
    Separate.dl v (happens t) =
      ((List.range (passCount t.body.first)).map (alone t)).flatMap fun x => Separate.dl v (happens x) := by
  obtain ⟨m, _, _, a3, _, a5, _⟩ := Separate.happens_sum ha (fun n => Separate.calm_noSkip _ (hc n)) v
  have hm : m = passCount t.body.first := by
    rcases a5 with a5 | a5
    · exact a5.1
    · exact absurd (calm_pass (Separate.calm_only _ _ (hc (m - 1))) _ _).exit a5
  rw [a3, hm, List.flatMap_map, ← List.flatMap_def]

/-- **C102**. If nothing is thrown and no `REQUIRE` fails (`CHECK`s may fail), also what is done is the same, each thing as often, only
in another order: the statements, and the failures with their places. -/
theorem C102_all [Run.MessageLimit] {lim : Limits} {fuel : Nat} {t u : TestCase} {ts : List Text} (h : ReorderedTest t u)
    (hs : Sound lim fuel t ts) (hc : Always Calm t.body) (hf : hasTag ts "!shouldfail" = false) :
    ∃ s r : TS, run lim.cfg fuel t = some (.ok s) ∧ run lim.cfg fuel u = some (.ok r) ∧ (deeds s.log).Perm (deeds r.log) := by
  have hu := sound_reordered h hs
  have hcu : Always Calm u.body := always_same h.same' ((Reorder.kept h.body).2.2.1.2 (hc 0))
  obtain ⟨s, h1, h2, _⟩ := told_noSkip hs (fun n => Separate.calm_noSkip _ (hc n)) hf
  obtain ⟨r, r1, r2, _⟩ := told_noSkip hu (fun n => Separate.calm_noSkip _ (hcu n)) hf
  refine ⟨s, r, h1, r1, ?_⟩
  rw [h2, r2, deeds_calm hs.alike hc, deeds_calm hu.alike hcu]
  exact (Reorder.alones_reordered h).flatMap_right _

private theorem forall₂_mem' {α β : Type} {R : α → β → Prop} {l : List α} {m : List β} (h : List.Forall₂ R l m) :
    ∀ a ∈ l, ∃ b ∈ m, R a b := by
  induction h with
  | nil => intro a ha; cases ha
  | cons h _ ih =>
    intro a ha
    rcases List.mem_cons.1 ha with rfl | ha
    · exact ⟨_, List.mem_cons_self .., h⟩
    · obtain ⟨b, hb, hr⟩ := ih a ha
      exact ⟨b, List.mem_cons_of_mem _ hb, hr⟩

/-- **C102**. A program whose tests have their sections in another order has the same exit status, for every command line that asks for
a run. -/
theorem C102_program [Run.MessageLimit] {lim : Limits} {fuel maxArgs : Nat} (reporters : List Text) (init : Nat → Nat → Nat)
    (config : Cli.Config) (argv0 : Text) {argv : List Text} {cs ds : List Case} (hlen : argv.length ≤ maxArgs)
    (h : List.Forall₂ (fun c d : Case => ReorderedTest c.test d.test) cs ds) (tags : Filter.TestId → List Text)
    (hcs : ∀ c ∈ cs, Sound lim fuel c.test (tags c.test.id) ∧ Always NoSkip c.test.body ∧ Always OwnThrows c.test.body)
    {ts : List Cli.Spec.Token} (hts : Cli.Spec.tokens argv = some ts) (hn : (Cli.Spec.optionNames ts).Nodup)
    (hno : ∀ l ∈ listing, l ∉ Cli.Spec.optionNames ts) :
    ∃ code out out', main lim fuel maxArgs reporters init config argv0 argv cs = some (.ok (code, out)) ∧
      main lim fuel maxArgs reporters init config argv0 argv ds = some (.ok (code, out')) := by
  have hsound : ∀ d ∈ ds, Sound lim fuel d.test (tags d.test.id) := by
    intro d hd
    obtain ⟨c, hc, hcd⟩ := forall₂_mem' h.flip d hd
    rw [hcd.id]
    exact sound_reordered hcd (hcs c hc).1
  obtain ⟨code, out, sel, v, h1, h2, h3, h4, _⟩ := C67_program (lim := lim) (fuel := fuel) (maxArgs := maxArgs) reporters init config argv0
    hlen (fun c => tags c.test.id) (fun c hc => (hcs c hc).1) hts hn hno
  obtain ⟨code', out', sel', v', g1, g2, g3, g4, _⟩ := C67_program (lim := lim) (fuel := fuel) (maxArgs := maxArgs) reporters init config
    argv0 hlen (fun c => tags c.test.id) hsound hts hn hno
  have hv : ∀ {c d : Case}, c ∈ cs → d ∈ ds → ReorderedTest c.test d.test →
      verdictOf c.test (tags c.test.id) = verdictOf d.test (tags d.test.id) := by
    intro c d hc hd hcd
    rw [hcd.id]
    exact verdict_reordered hcd (hcs c hc).1.alike (hsound d hd).alike (hcs c hc).2.1 (hcs c hc).2.2
  have hiff : code = 0 ↔ code' = 0 := by
    rw [h4, g4]
    constructor
    · intro hh d hd hsel
      obtain ⟨c, hc, hcd⟩ := forall₂_mem' h.flip d hd
      have := (g2 d hd).mp hsel
      rw [hcd.id] at this
      have := hh c hc ((h2 c hc).mpr this)
      rwa [hv hc hd hcd] at this
    · intro hh c hc hsel
      obtain ⟨d, hd, hcd⟩ := forall₂_mem' h c hc
      have := (h2 c hc).mp hsel
      rw [← hcd.id] at this
      have := hh d hd ((g2 d hd).mpr this)
      rwa [← hv hc hd hcd] at this
  have hcode : code' = code := by
    rcases h3 with rfl | rfl <;> rcases g3 with rfl | rfl <;> simp_all
  exact ⟨code, out, out', h1, by rw [← hcode]; exact g1⟩

/-! ## The hypotheses can be met -/

/-- Sections in a section, one of which is ended by a `REQUIRE`, before another section. -/
def ordered : Prog :=
  .stmt (.act 1) (.sec 1 2 (.sec 2 3 (.stmt (.check 4 (.val false) true "r".toList) .done) (.sec 3 5 (.stmt (.act 30) .done) .done))
    (.sec 4 6 (.stmt (.check 7 (.val false) false "c".toList) .done) (.stmt (.act 2) .done)))

/-- The sections in the opposite order, inside and outside. -/
def reordered : Prog :=
  .stmt (.act 1) (.sec 4 6 (.stmt (.check 7 (.val false) false "c".toList) .done)
    (.sec 1 2 (.sec 3 5 (.stmt (.act 30) .done) (.sec 2 3 (.stmt (.check 4 (.val false) true "r".toList) .done) .done)) (.stmt (.act 2) .done)))

theorem reordered_ok : ReorderedTest (mkTest "t" "" ordered) (mkTest "t" "" reordered) where
  id := rfl
  loc := rfl
  same := rfl
  same' := rfl
  body := .stmt _ (.trans (.sec _ _ (.swap ..) (.refl _)) (.swap ..))

theorem ordered_sound : Sound (defaultLimits 3) 5 (mkTest "t" "" ordered) [] ∧ Always NoSkip (mkTest "t" "" ordered).body ∧
    Always OwnThrows (mkTest "t" "" ordered).body := by
  refine ⟨sound_same rfl (by decide) ⟨by decide, ?_, ?_⟩ ?_ (by decide) (by decide) (by decide), always_one ?_, always_one ?_⟩
  all_goals simp [mkTest, Tidy, ordered, NoSkip, OwnThrows]

example : ∃ (lim : Limits) (fuel : Nat) (t u : TestCase) (ts : List Text), ReorderedTest t u ∧ t.body ≠ u.body ∧ Sound lim fuel t ts ∧
    Always NoSkip t.body ∧ Always OwnThrows t.body :=
  ⟨_, _, _, _, _, reordered_ok, by decide, ordered_sound⟩

open Defaults in
/-- The one test is ended at once, the other one reaches all sections; both fail. -/
example :
    doneIn (run (defaults 3) 5 (mkTest "t" "" ordered)) = some ([.did 1, .failed ⟨[1, 2], [], 4, .exact⟩ "r".toList], .failed) ∧
    doneIn (run (defaults 3) 5 (mkTest "t" "" reordered)) =
      some ([.did 1, .failed ⟨[4], [], 7, .exact⟩ "c".toList, .did 2, .did 1, .did 30, .did 2,
        .did 1, .failed ⟨[1, 2], [], 4, .exact⟩ "r".toList], .failed) := by decide +kernel

/-- A test which nothing interrupts, with a failing `CHECK`. -/
example : ∃ t u : TestCase, ReorderedTest t u ∧ t.body ≠ u.body ∧ Sound (defaultLimits 3) 5 t [] ∧ Always Calm t.body := by
  refine ⟨mkTest "t" "" (.sec 1 2 (.stmt (.act 1) .done) (.sec 2 3 (.stmt (.check 4 (.val false) false []) .done) .done)),
    mkTest "t" "" (.sec 2 3 (.stmt (.check 4 (.val false) false []) .done) (.sec 1 2 (.stmt (.act 1) .done) .done)),
    ⟨rfl, rfl, rfl, rfl, .swap ..⟩, by decide,
    sound_same rfl (by decide) ⟨by decide, ?_, ?_⟩ ?_ (by decide) (by decide) (by decide), always_one ?_⟩
  all_goals simp [mkTest, Tidy, Calm, calmStmt]

example : List.Forall₂ (fun c d : Case => ReorderedTest c.test d.test) [{ test := mkTest "t" "" ordered }]
      [{ test := mkTest "t" "" reordered }] ∧
    (∀ c ∈ [({ test := mkTest "t" "" ordered } : Case)], Sound (defaultLimits 3) 5 c.test [] ∧ Always NoSkip c.test.body ∧
      Always OwnThrows c.test.body) := by
  refine ⟨.cons reordered_ok .nil, ?_⟩
  intro c hc
  rw [List.mem_singleton] at hc
  subst hc
  exact ordered_sound

/-! ## What has to be asked for -/

open Defaults in
/-- **C102**. That nothing is skipped has to be asked for: with a skip in one section and a failure in another one, the first of the two
decides. -/
theorem C102_skip :
    doneIn (run (defaults 3) 5 (plain skipThenFail)) = some ([], .skipped) ∧
    doneIn (run (defaults 3) 5 (plain (.sec 2 4 (.stmt (.check 5 (.val false) false "c".toList) .done)
      (.sec 1 2 (.stmt (.skip 3 false "s".toList) .done) .done)))) =
      some ([.failed ⟨[2], [], 5, .exact⟩ "c".toList], .failed) := by decide +kernel

open Defaults in
/-- **C102**. And that there is nothing between the sections: a statement between them comes after the one and before the other. -/
theorem C102_between :
    doneIn (run (defaults 3) 5 (plain (.sec 1 2 (.stmt (.act 1) .done) (.stmt (.act 5) (.sec 2 3 (.stmt (.act 2) .done) .done))))) =
      some ([.did 1, .did 5, .did 5, .did 2], .success) ∧
    doneIn (run (defaults 3) 5 (plain (.sec 2 3 (.stmt (.act 2) .done) (.stmt (.act 5) (.sec 1 2 (.stmt (.act 1) .done) .done))))) =
      some ([.did 2, .did 5, .did 5, .did 1], .success) := by decide +kernel

end Verif.Props
