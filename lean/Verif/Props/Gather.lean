import Verif.Lemmas.Gather
import Verif.Props.Separate
/-!
# C101: Tests can be made sections of one test

The tests `ps` become the sections of a test `t`: in each execution the code of `t` is `gather ps`.
-/
namespace Verif.Props
open Verif Verif.Run Verif.Run.Spec Verif.Reg Verif.Reg.Spec

/-- What a test without skips does, and how it ends. -/
theorem told_noSkip [Run.MessageLimit] {lim : Limits} {fuel : Nat} {t : TestCase} {ts : List Text} (h : Sound lim fuel t ts)
    (hs : Always NoSkip t.body) (hf : hasTag ts "!shouldfail" = false) :
    ∃ s, run lim.cfg fuel t = some (.ok s) ∧ deeds s.log = Separate.dl lim.cfg.verbosity (happens t) ∧ s.state = verdictOf t ts := by
  obtain ⟨s, h1, hv, h2⟩ := C67_verdict h.alike h.sections h.captures h.tags h.tidy h.fuel
  refine ⟨s, h1, Separate.deeds_observed _ _ _ ?_, hv⟩
  rw [h2, hf]
  have : caseStory t false = effective (happens t ++ []) := rfl
  rw [this, List.append_nil, effective_none (Separate.happens_noSkip hs)]

/-- The runs of several tests. -/
private theorem choose_runs [Run.MessageLimit] {lim : Limits} {fuel : Nat} {ps : List Part} {ts : List Text}
    (hp : ∀ p ∈ ps, Sound lim fuel p.test ts ∧ Always NoSkip p.test.body) (hf : hasTag ts "!shouldfail" = false) :
    ∃ r : Part → TS, ∀ p ∈ ps, run lim.cfg fuel p.test = some (.ok (r p)) ∧
      deeds (r p).log = Separate.dl lim.cfg.verbosity (happens p.test) ∧ (r p).state = verdictOf p.test ts := by
  have hex : ∀ p : Part, ∃ s : TS, p ∈ ps → run lim.cfg fuel p.test = some (.ok s) ∧
      deeds s.log = Separate.dl lim.cfg.verbosity (happens p.test) ∧ s.state = verdictOf p.test ts := by
    intro p
    by_cases hm : p ∈ ps
    · obtain ⟨s, h⟩ := told_noSkip (hp p hm).1 (hp p hm).2 hf
      exact ⟨s, fun _ => h⟩
    · exact ⟨{}, fun h => absurd h hm⟩
  exact ⟨fun p => (hex p).choose, fun p hm => (hex p).choose_spec hm⟩

/-- **C101**. Tests without skips (and not expected to fail) are made sections of one test, and all keep within the limits. Then what
this test does, its statements and its failures in order, is what the tests do one after the other, up to and including the first
one that is ended by an exception; only that the section of the test is added in front of the sections shown with a failure, and that
the place of an exception thrown directly in the test is that of the section. -/
theorem C101_sum [Run.MessageLimit] {lim : Limits} {fuel : Nat} {t : TestCase} {ps : List Part} {ts : List Text}
    (hg : ∀ n, t.body.no n = gather ps n) (hne : ps ≠ []) (h : Sound lim fuel t ts)
    (hp : ∀ p ∈ ps, Sound lim fuel p.test ts ∧ Always NoSkip p.test.body) (hf : hasTag ts "!shouldfail" = false) :
    ∃ (s : TS) (r : Part → TS) (before after : List Part), run lim.cfg fuel t = some (.ok s) ∧
      (∀ p ∈ ps, run lim.cfg fuel p.test = some (.ok (r p))) ∧
      ps = before ++ after ∧
      deeds s.log = before.flatMap (fun p => (deeds (r p).log).map p.deed) ∧
      (∀ p ∈ before.dropLast, ¬ stopped p.test) ∧
      (after = [] ∨ ∃ p, before.getLast? = some p ∧ stopped p.test) := by
  have hs : Always NoSkip t.body := fun n => by rw [hg]; exact Gather.noSkip_gather (fun p hm => (hp p hm).2) n
  obtain ⟨s, h1, h2, _⟩ := told_noSkip h hs hf
  obtain ⟨r, hr⟩ := choose_runs hp hf
  obtain ⟨before, after, b1, b2, b3, b4⟩ := Gather.dl_gather lim.cfg.verbosity t.loc ps fun p hm => (hp p hm).2
  refine ⟨s, r, before, after, h1, fun p hm => (hr p hm).1, b1, ?_, b3, b4⟩
  rw [h2, Gather.happens_whole hs, Gather.whole_gather hg (fun p hm => (hp p hm).1.alike) hne, b2]
  have : ∀ l : List Part, (∀ p ∈ l, p ∈ ps) → l.flatMap (fun p => (Separate.dl lim.cfg.verbosity (happens p.test)).map p.deed) =
      l.flatMap fun p => (deeds (r p).log).map p.deed := by
    intro l hl
    induction l with
    | nil => rfl
    | cons p l ih =>
      rw [List.flatMap_cons, List.flatMap_cons, ih fun q hq => hl q (List.mem_cons_of_mem _ hq),
        (hr p (hl p (List.mem_cons_self ..))).2.1]
  exact this before fun p hm => by rw [b1]; exact List.mem_append_left _ hm

/-- Tests which nothing interrupts are not ended by an exception. -/
theorem calm_stopped [Run.MessageLimit] {t : TestCase} (h : Always Calm t.body) : ¬ stopped t := by
  rw [Gather.stopped_whole fun n => Separate.calm_noSkip _ (h n), Classical.not_not]
  unfold Gather.whole Gather.runs
  generalize List.range' 0 (passCount t.body.first) = l
  induction l with
  | nil => rfl
  | cons i l ih =>
    have := (calm_pass (h i) (topCtx t.loc) (if leaves (t.body.no i) = 0 then none else some i)).exit
    simp only [List.map_cons, Gather.chain, andThen]
    unfold passNo
    rw [this]
    exact ih

/-- **C101**. If nothing is thrown and no `REQUIRE` fails (`CHECK`s may fail), all the tests take part. -/
theorem C101_all [Run.MessageLimit] {lim : Limits} {fuel : Nat} {t : TestCase} {ps : List Part} {ts : List Text}
    (hg : ∀ n, t.body.no n = gather ps n) (hne : ps ≠ []) (h : Sound lim fuel t ts)
    (hp : ∀ p ∈ ps, Sound lim fuel p.test ts ∧ Always Calm p.test.body) (hf : hasTag ts "!shouldfail" = false) :
    ∃ (s : TS) (r : Part → TS), run lim.cfg fuel t = some (.ok s) ∧
      (∀ p ∈ ps, run lim.cfg fuel p.test = some (.ok (r p))) ∧
      deeds s.log = ps.flatMap (fun p => (deeds (r p).log).map p.deed) := by
  obtain ⟨s, r, before, after, h1, h2, h3, h4, _, h6⟩ := C101_sum hg hne h
    (fun p hm => ⟨(hp p hm).1, fun n => Separate.calm_noSkip _ ((hp p hm).2 n)⟩) hf
  refine ⟨s, r, h1, h2, ?_⟩
  rcases h6 with rfl | ⟨p, hl, hst⟩
  · rw [List.append_nil] at h3
    rw [h3]; exact h4
  · have hm : p ∈ ps := by rw [h3]; exact List.mem_append_left _ (List.mem_of_getLast? hl)
    exact absurd hst (calm_stopped (hp p hm).2)

theorem verdict_gather [Run.MessageLimit] {t : TestCase} {ps : List Part} {ts : List Text} (hg : ∀ n, t.body.no n = gather ps n)
    (hne : ps ≠ []) (ha : ∀ p ∈ ps, Alike p.test.body) (hs : ∀ p ∈ ps, Always NoSkip p.test.body)
    (ho : ∀ p ∈ ps, Always OwnThrows p.test.body) (hf : hasTag ts "!shouldfail" = false) :
    (verdictOf t ts = .success ↔ ∀ p ∈ ps, verdictOf p.test ts = .success) ∧
    (verdictOf t ts = .failed ↔ ∃ p ∈ ps, verdictOf p.test ts = .failed) := by
  have hv := verdict_noSkip (t := t) (ts := ts) (fun n => by rw [hg]; exact Gather.noSkip_gather hs n) hf
  have hi := Gather.fails_gather hg ha hs ho hne
  have e1 : ∀ b c : Bool, (if b then (if c then CaseState.allowedFail else .failed) else .success) = .success ↔ ¬ b = true := by decide
  have e2 : ∀ b c : Bool, (if b then (if c then CaseState.allowedFail else .failed) else .success) = .failed ↔
      b = true ∧ c = false := by decide
  have hva : ∀ p ∈ ps, (verdictOf p.test ts = .success ↔ ¬ (happens p.test).any Item.isFailure = true) ∧
      (verdictOf p.test ts = .failed ↔ (happens p.test).any Item.isFailure = true ∧ hasTag ts "!mayfail" = false) := fun p hm => by
    rw [verdict_noSkip (hs p hm) hf]
    exact ⟨e1 _ _, e2 _ _⟩
  rw [hv, e1, e2, hi]
  constructor
  · constructor
    · intro h p hm
      exact (hva p hm).1.2 fun hc => h ⟨p, hm, hc⟩
    · rintro h ⟨p, hm, hc⟩
      exact (hva p hm).1.1 (h p hm) hc
  · constructor
    · rintro ⟨⟨p, hm, hc⟩, h3⟩
      exact ⟨p, hm, (hva p hm).2.2 ⟨hc, h3⟩⟩
    · rintro ⟨p, hm, hc⟩
      obtain ⟨a, b⟩ := (hva p hm).2.1 hc
      exact ⟨⟨p, hm, a⟩, b⟩

/-- **C101**. The test succeeds exactly if all the tests do, and fails exactly if one of them does, also when an exception keeps it from
reaching the later ones. -/
theorem C101_verdict [Run.MessageLimit] {lim : Limits} {fuel : Nat} {t : TestCase} {ps : List Part} {ts : List Text}
    (hg : ∀ n, t.body.no n = gather ps n) (hne : ps ≠ []) (h : Sound lim fuel t ts)
    (hp : ∀ p ∈ ps, Sound lim fuel p.test ts ∧ Always NoSkip p.test.body ∧ Always OwnThrows p.test.body)
    (hf : hasTag ts "!shouldfail" = false) :
    ∃ (s : TS) (r : Part → TS), run lim.cfg fuel t = some (.ok s) ∧
      (∀ p ∈ ps, run lim.cfg fuel p.test = some (.ok (r p))) ∧
      (s.state = .success ↔ ∀ p ∈ ps, (r p).state = .success) ∧
      (s.state = .failed ↔ ∃ p ∈ ps, (r p).state = .failed) := by
  have hs : Always NoSkip t.body := fun n => by rw [hg]; exact Gather.noSkip_gather (fun p hm => (hp p hm).2.1) n
  obtain ⟨s, h1, _, h2⟩ := told_noSkip h hs hf
  obtain ⟨r, hr⟩ := choose_runs (fun p hm => ⟨(hp p hm).1, (hp p hm).2.1⟩) hf
  obtain ⟨v1, v2⟩ := verdict_gather hg hne (fun p hm => (hp p hm).1.alike) (fun p hm => (hp p hm).2.1)
    (fun p hm => (hp p hm).2.2) hf
  refine ⟨s, r, h1, fun p hm => (hr p hm).1, ?_, ?_⟩
  · rw [h2, v1]
    exact ⟨fun h p hm => by rw [(hr p hm).2.2]; exact h p hm, fun h p hm => by rw [← (hr p hm).2.2]; exact h p hm⟩
  · rw [h2, v2]
    exact ⟨fun ⟨p, hm, h⟩ => ⟨p, hm, by rw [(hr p hm).2.2]; exact h⟩, fun ⟨p, hm, h⟩ => ⟨p, hm, by rw [← (hr p hm).2.2]; exact h⟩⟩

/-- **C101**. In particular, a section around the whole code of a test changes nothing but the places shown with failures: the
statements, the failures and the verdict are the same. -/
theorem C101_wrap [Run.MessageLimit] {lim : Limits} {fuel : Nat} {t : TestCase} {p : Part} {ts : List Text}
    (hg : ∀ n, t.body.no n = .sec p.id p.loc (p.test.body.no n) .done) (h : Sound lim fuel t ts) (hp : Sound lim fuel p.test ts)
    (hs : Always NoSkip p.test.body) (hf : hasTag ts "!shouldfail" = false) :
    ∃ s r : TS, run lim.cfg fuel t = some (.ok s) ∧ run lim.cfg fuel p.test = some (.ok r) ∧
      deeds s.log = (deeds r.log).map p.deed ∧ s.state = r.state := by
  have hg' : ∀ n, t.body.no n = gather [p] n := hg
  have hm : ∀ q ∈ [p], Always NoSkip q.test.body := fun q hq => by rw [List.mem_singleton.1 hq]; exact hs
  have hst : Always NoSkip t.body := fun n => by rw [hg']; exact Gather.noSkip_gather hm n
  have hd : ∀ v, Separate.dl v (happens t) = (Separate.dl v (happens p.test)).map p.deed := by
    intro v
    obtain ⟨before, after, b1, b2, _, b4⟩ := Gather.dl_gather v t.loc [p] hm
    rw [Gather.happens_whole hst, Gather.whole_gather hg' (fun q hq => by rw [List.mem_singleton.1 hq]; exact hp.alike) (by simp), b2]
    cases before with
    | nil =>
      rcases b4 with rfl | ⟨q, hq, _⟩
      · cases b1
      · cases hq
    | cons q before =>
      rw [List.cons_append, List.cons.injEq] at b1
      obtain ⟨rfl, b1⟩ := b1
      rw [(List.append_eq_nil_iff.1 b1.symm).1]
      simp
  obtain ⟨s, h1, h2, h3⟩ := told_noSkip h hst hf
  obtain ⟨r, r1, r2, r3⟩ := told_noSkip hp hs hf
  refine ⟨s, r, h1, r1, by rw [h2, r2, hd], ?_⟩
  rw [h3, r3, verdict_noSkip hst hf, verdict_noSkip hs hf, Gather.any_dl 0, Gather.any_dl 0 (happens p.test), hd, Gather.any_deed]

/-- **C101**. For the whole program it makes no difference whether tests are registered one by one or as the sections of one test:
when all tests are run, the exit status is the same. -/
theorem C101_program [Run.MessageLimit] {lim : Limits} {fuel maxArgs : Nat} (reporters : List Text) (init : Nat → Nat → Nat)
    (config : Cli.Config) (argv0 : Text) {argv : List Text} {pre post : List Case} {g : Case} {ps : List Part}
    (hlen : argv.length ≤ maxArgs) (tags : Case → List Text)
    (hg : ∀ n, g.test.body.no n = gather ps n) (hne : ps ≠ [])
    (hothers : ∀ c ∈ pre ++ g :: post, Sound lim fuel c.test (tags c))
    (hps : ∀ p ∈ ps, Sound lim fuel p.test (tags g) ∧ Always NoSkip p.test.body ∧ Always OwnThrows p.test.body ∧
      tags { test := p.test } = tags g)
    (hf : hasTag (tags g) "!shouldfail" = false)
    {ts : List Cli.Spec.Token} (hts : Cli.Spec.tokens argv = some ts) (hn : (Cli.Spec.optionNames ts).Nodup)
    (hno : ∀ l ∈ listing, l ∉ Cli.Spec.optionNames ts) (hpos : Cli.Spec.positionalsOf ts = []) :
    ∃ (code : Nat) (out out' : List Out),
      main lim fuel maxArgs reporters init config argv0 argv (pre ++ g :: post) = some (.ok (code, out)) ∧
      main lim fuel maxArgs reporters init config argv0 argv (pre ++ ps.map (fun p => { test := p.test }) ++ post) =
        some (.ok (code, out')) := by
  obtain ⟨code, out, sel, v, h1, h2, h3, h4, _⟩ := C67_program reporters init config argv0 hlen tags hothers hts hn hno
  have hcases : ∀ c ∈ pre ++ ps.map (fun p => ({ test := p.test } : Case)) ++ post, Sound lim fuel c.test (tags c) := by
    intro c hc
    rcases List.mem_append.1 hc with hc | hc
    · rcases List.mem_append.1 hc with hc | hc
      · exact hothers c (List.mem_append_left _ hc)
      · obtain ⟨p, hm, rfl⟩ := List.mem_map.1 hc
        rw [(hps p hm).2.2.2]
        exact (hps p hm).1
    · exact hothers c (List.mem_append_right _ (List.mem_cons_of_mem _ hc))
  obtain ⟨code', out', sel', v', k1, k2, k3, k4, _⟩ := C67_program reporters init config argv0 hlen tags hcases hts hn hno
  rw [hpos] at h2 k2
  -- without filters, the tags tell what is run
  have hsel : ∀ c, ∀ n, Verif.Spec.Selected [] ⟨n, tags c⟩ ↔ ¬ ∃ x ∈ tags c, Verif.Spec.Hides x := by
    intro c n
    constructor
    · intro h hh
      obtain ⟨_, hc, _⟩ := h.2 hh
      cases hc
    · intro h
      exact ⟨fun f hf => (by cases hf), fun hh => absurd hh h⟩
  have hv := (verdict_gather hg hne (fun p hm => (hps p hm).1.alike) (fun p hm => (hps p hm).2.1)
    (fun p hm => (hps p hm).2.2.1) hf).2
  have hgm : g ∈ pre ++ g :: post := List.mem_append_right _ (List.mem_cons_self ..)
  have hiff : code = 0 ↔ code' = 0 := by
    rw [h4, k4]
    constructor
    · intro h c hc hs
      rw [k2 c hc, hsel] at hs
      rcases List.mem_append.1 hc with hc | hc
      · rcases List.mem_append.1 hc with hc | hc
        · have hm : c ∈ pre ++ g :: post := List.mem_append_left _ hc
          exact h c hm ((h2 c hm).2 ((hsel c _).2 hs))
        · obtain ⟨p, hm, rfl⟩ := List.mem_map.1 hc
          rw [(hps p hm).2.2.2] at hs ⊢
          intro hbad
          exact h g hgm ((h2 g hgm).2 ((hsel g _).2 hs)) (hv.2 ⟨p, hm, hbad⟩)
      · have hm : c ∈ pre ++ g :: post := List.mem_append_right _ (List.mem_cons_of_mem _ hc)
        exact h c hm ((h2 c hm).2 ((hsel c _).2 hs))
    · intro h c hc hs
      rw [h2 c hc, hsel] at hs
      have other : c ∈ pre ++ ps.map (fun p => ({ test := p.test } : Case)) ++ post → verdictOf c.test (tags c) ≠ .failed :=
        fun hm => h c hm ((k2 c hm).2 ((hsel c _).2 hs))
      rcases List.mem_append.1 hc with hc | hc
      · exact other (List.mem_append_left _ (List.mem_append_left _ hc))
      · rcases List.mem_cons.1 hc with rfl | hc
        · intro hbad
          obtain ⟨p, hm, hb⟩ := hv.1 hbad
          have hpm : ({ test := p.test } : Case) ∈ pre ++ ps.map (fun p => ({ test := p.test } : Case)) ++ post :=
            List.mem_append_left _ (List.mem_append_right _ (List.mem_map.2 ⟨p, hm, rfl⟩))
          refine h _ hpm ((k2 _ hpm).2 ((hsel _ _).2 ?_)) ?_
          · rw [(hps p hm).2.2.2]; exact hs
          · rw [(hps p hm).2.2.2]; exact hb
        · exact other (List.mem_append_right _ hc)
  have : code' = code := by omega
  subst this
  exact ⟨code', out, out', h1, k1⟩

/-! ## The hypotheses can be met -/

/-- A test with two sections, one of which throws; and a test with a failing `CHECK`. -/
def throwing : Prog := .stmt (.act 1) (.sec 1 2 (.stmt (.act 2) .done) (.sec 2 3 (.stmt (.throw ⟨[7], some "e".toList, false⟩) .done) .done))
def failing : Prog := .stmt (.check 4 (.val false) false "c".toList) (.stmt (.act 3) .done)

def gathering : List Part := [⟨10, 20, mkTest "a" "" failing⟩, ⟨11, 21, mkTest "b" "" throwing⟩, ⟨12, 22, mkTest "c" "" failing⟩]

theorem gathering_sound : (∀ n, (mkTest "t" "" (gather gathering 0)).body.no n = gather gathering n) ∧
    Sound (defaultLimits 3) 5 (mkTest "t" "" (gather gathering 0)) [] ∧
    ∀ p ∈ gathering, Sound (defaultLimits 3) 5 p.test [] ∧ Always NoSkip p.test.body ∧ Always OwnThrows p.test.body := by
  have e : ∀ (p : Prog) n, ({ first := p } : Body).no n = p := fun p n => by cases n <;> rfl
  refine ⟨fun n => ?_, sound_same rfl (by decide) ⟨by decide, ?_, ?_⟩ ?_ (by decide) (by decide) (by decide), ?_⟩
  · simp only [gathering, gather, mkTest, e]
  · simp
  · simp
  · simp [mkTest, Tidy, gathering, gather, e, failing, throwing]
  · intro p hp
    simp only [gathering, List.mem_cons, List.not_mem_nil, or_false] at hp
    rcases hp with rfl | rfl | rfl
    all_goals
      refine ⟨sound_same rfl (by decide) ⟨by decide, ?_, ?_⟩ ?_ (by decide) (by decide) (by decide), always_one ?_, always_one ?_⟩
      all_goals simp [mkTest, Tidy, failing, throwing, NoSkip, OwnThrows]

example : ∃ (lim : Limits) (fuel : Nat) (t : TestCase) (ps : List Part) (ts : List Text), (∀ n, t.body.no n = gather ps n) ∧
    ps.length = 3 ∧ Sound lim fuel t ts ∧
    (∀ p ∈ ps, Sound lim fuel p.test ts ∧ Always NoSkip p.test.body ∧ Always OwnThrows p.test.body) ∧
    hasTag ts "!shouldfail" = false :=
  ⟨_, _, _, gathering, [], gathering_sound.1, rfl, gathering_sound.2.1, gathering_sound.2.2, by decide⟩

open Defaults in
/-- The second test is ended by its exception, and the third one is not reached as a section. -/
example :
    doneIn (run (defaults 3) 5 (mkTest "a" "" failing)) = some ([.failed ⟨[], [], 4, .exact⟩ "c".toList, .did 3], .failed) ∧
    doneIn (run (defaults 3) 5 (mkTest "b" "" throwing)) = some ([.did 1, .did 2, .did 1,
      .failed ⟨[2], [], 3, .sectionScope⟩ "unexpected std::exception caught; message: e".toList], .failed) ∧
    doneIn (run (defaults 3) 5 (mkTest "t" "" (gather gathering 0))) =
      some ([.failed ⟨[10], [], 4, .exact⟩ "c".toList, .did 3, .did 1, .did 2, .did 1,
        .failed ⟨[11, 2], [], 3, .sectionScope⟩ "unexpected std::exception caught; message: e".toList], .failed) := by
  decide +kernel

/-- Tests that nothing interrupts. -/
example : ∃ (t : TestCase) (ps : List Part), (∀ n, t.body.no n = gather ps n) ∧ ps.length = 2 ∧ Sound (defaultLimits 3) 5 t [] ∧
    ∀ p ∈ ps, Sound (defaultLimits 3) 5 p.test [] ∧ Always Calm p.test.body := by
  have e : ∀ (p : Prog) n, ({ first := p } : Body).no n = p := fun p n => by cases n <;> rfl
  refine ⟨mkTest "t" "" (gather [⟨10, 20, mkTest "a" "" failing⟩, ⟨11, 21, mkTest "b" "" failing⟩] 0),
    [⟨10, 20, mkTest "a" "" failing⟩, ⟨11, 21, mkTest "b" "" failing⟩], ?_, rfl,
    sound_same rfl (by decide) ⟨by decide, ?_, ?_⟩ ?_ (by decide) (by decide) (by decide), ?_⟩
  · intro n
    simp only [gather, mkTest, e]
  · simp
  · simp
  · simp [mkTest, Tidy, gather, e, failing]
  · intro p hp
    simp only [List.mem_cons, List.not_mem_nil, or_false] at hp
    rcases hp with rfl | rfl
    all_goals
      refine ⟨sound_same rfl (by decide) ⟨by decide, ?_, ?_⟩ ?_ (by decide) (by decide) (by decide), always_one ?_⟩
      all_goals simp [mkTest, Tidy, failing, Calm, calmStmt]

/-- A section around a whole test with an exception thrown directly in it. -/
def bareThrow : Prog := .stmt (.act 1) (.stmt (.throw ⟨[7], some "e".toList, false⟩) .done)

example : ∃ (t : TestCase) (p : Part), (∀ n, t.body.no n = .sec p.id p.loc (p.test.body.no n) .done) ∧
    Sound (defaultLimits 3) 5 t [] ∧ Sound (defaultLimits 3) 5 p.test [] ∧ Always NoSkip p.test.body ∧
    p.test = mkTest "b" "" bareThrow := by
  have e : ∀ (p : Prog) n, ({ first := p } : Body).no n = p := fun p n => by cases n <;> rfl
  refine ⟨mkTest "t" "" (.sec 10 20 bareThrow .done), ⟨10, 20, mkTest "b" "" bareThrow⟩, ?_,
    sound_same rfl (by decide) ⟨by decide, ?_, ?_⟩ ?_ (by decide) (by decide) (by decide),
    sound_same rfl (by decide) ⟨by decide, ?_, ?_⟩ ?_ (by decide) (by decide) (by decide), always_one ?_, rfl⟩
  · intro n
    simp only [mkTest, e]
  all_goals simp [mkTest, Tidy, bareThrow, NoSkip]

open Defaults in
/-- The place of the exception was the test, and is the section. -/
example :
    doneIn (run (defaults 3) 5 (mkTest "b" "" bareThrow)) = some ([.did 1,
      .failed ⟨[], [], 1, .testCaseScope⟩ "unexpected std::exception caught; message: e".toList], .failed) ∧
    doneIn (run (defaults 3) 5 (mkTest "t" "" (.sec 10 20 bareThrow .done))) = some ([.did 1,
      .failed ⟨[10], [], 20, .sectionScope⟩ "unexpected std::exception caught; message: e".toList], .failed) := by
  decide +kernel

example : (∀ c ∈ ([] : List Case) ++ ({ test := mkTest "t" "" (gather gathering 0) } : Case) :: [],
      Sound (defaultLimits 3) 5 c.test []) ∧
    ∃ ts, Cli.Spec.tokens (["--verbosity", "high"].map String.toList) = some ts ∧ (Cli.Spec.optionNames ts).Nodup ∧
      (∀ l ∈ listing, l ∉ Cli.Spec.optionNames ts) ∧ Cli.Spec.positionalsOf ts = [] := by
  constructor
  · intro c hc
    rw [List.nil_append, List.mem_singleton] at hc
    subst hc
    exact gathering_sound.2.1
  · exact ⟨_, rfl, by decide, by decide, rfl⟩

/-! ## What has to be asked for -/

/-- The deepest nesting of sections that the limit allows. -/
def eightDeep : Prog := (List.range 8).foldr (fun i k => .sec i 2 k .done) (.stmt (.act 1) .done)

open Defaults in
/-- **C101**. Within the limits, that is: a test which nests sections as deeply as allowed runs, but not with one more section around it
(the program is ended). -/
theorem C101_limit :
    doneIn (run (defaults 3) 5 (plain eightDeep)) = some ([.did 1], .success) ∧
    run (defaults 3) 5 (plain (.sec 10 20 eightDeep .done)) = some .abort := by decide +kernel

/-- A test that is skipped and a test that fails. -/
def skipping : List Part := [⟨10, 20, plain (.stmt (.skip 3 true "s".toList) .done)⟩, ⟨11, 21, plain failing⟩]

open Defaults in
/-- **C101**. And without skips: a test that is skipped hides, as a section, the failure of the tests after it. -/
theorem C101_skip :
    doneIn (run (defaults 3) 5 (plain failing)) = some ([.failed ⟨[], [], 4, .exact⟩ "c".toList, .did 3], .failed) ∧
    doneIn (run (defaults 3) 5 (plain (gather skipping 0))) = some ([], .skipped) := by decide +kernel

end Verif.Props
