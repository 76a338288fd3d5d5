import Verif.Lemmas.Times
import Verif.Lemmas.Events
import Verif.Spec.Spans
/-! # The times of a test and of a run -/
namespace Verif.Timing
open Verif.Run Spec

/-- What holds at the end of a test, from an invariant. -/
theorem run_keeps [MessageLimit] {clock : Nat → Nat} {cfg : Cfg} {A : Bool → List Nat → Nat → Prop}
    {I : List Nat → Timed → Prop} (K : Keeps clock cfg A I) (hs : ∀ {s : Timed}, I [] s → s.watch.starts = [])
    {n fuel : Nat} {t : TestCase} {r : Ran} (ha : ∀ k, Entered A (t.body.no k) false [])
    (h0 : ∀ tags, I [] { ts := initState cfg t tags, watch := { reads := n + 1 } })
    (h : run clock n cfg fuel t = some (.ok r)) :
    ∃ s : Timed, I [] s ∧
      r = { test := t, ts := endCase cfg t s.ts, start := clock n, stop := clock s.watch.reads, marks := s.watch.marks
            reads := s.watch.reads + 1 } := by
  unfold run at h
  cases ht : Filter.forEachTag cfg.maxTag t.id.tags with
  | abort => rw [ht] at h; cases h
  | ub => rw [ht] at h; cases h
  | ok tags =>
    rw [ht] at h
    dsimp only at h
    cases hl : runLoop clock cfg t.body.no fuel 0 { ts := initState cfg t tags, watch := { reads := n + 1 } } with
    | none => rw [hl] at h; cases h
    | some o =>
      rw [hl] at h
      cases o with
      | abort => cases h
      | ub => cases h
      | ok x =>
        have h1 := K.runLoop hs ha fuel (h0 tags) hl
        refine ⟨_, K.afterLoop (r := x.2) h1, ?_⟩
        simp only [Option.some.injEq, Outcome.ok.injEq] at h
        exact h.symm

theorem init_ids (cfg : Cfg) (t : TestCase) (tags : List Filter.ParsedTag) :
    ids (initState cfg t tags).info = [] ∧ (initState cfg t tags).held = none ∧ endedIn (initState cfg t tags).log = [] := by
  unfold initState emit
  split <;> exact ⟨rfl, rfl, rfl⟩

theorem init_sane (clock : Nat → Nat) (n : Nat) (cfg : Cfg) (t : TestCase) (tags : List Filter.ParsedTag) :
    Sane clock (n + 1) [] { ts := initState cfg t tags, watch := { reads := n + 1 } } := by
  obtain ⟨h1, h2, h3⟩ := init_ids cfg t tags
  refine ⟨h1, rfl, ?_, ⟨Nat.le_refl _, by simp, by simp, by simp [tolds], ?_⟩⟩
  · intro h e
    rw [h2] at e
    cases e
  · rw [h3]; rfl

theorem init_known (clock : Nat → Nat) (n : Nat) (cfg : Cfg) (t : TestCase) (tags : List Filter.ParsedTag) :
    Known clock (n + 1) [] { ts := initState cfg t tags, watch := { reads := n + 1 } } := by
  refine ⟨init_sane clock n cfg t tags, by simp, ?_, ?_⟩
  · intro h e
    rw [(init_ids cfg t tags).2.1] at e
    cases e
  · intro pre id a z post e
    exact absurd e (by simp)

/-- The times of a test that has been run. -/
structure Times (clock : Nat → Nat) (n : Nat) (cfg : Cfg) (r : Ran) : Prop where
  start : r.start = clock n
  stop : r.stop = clock (r.reads - 1)
  later : n + 1 < r.reads
  tolds : ∀ x ∈ tolds r.marks, ∃ i j, n < i ∧ i < j ∧ j + 1 < r.reads ∧ x.2.1 = clock i ∧ x.2.2 = clock j
  ended : endedIn r.ts.log =
    (Spec.tolds r.marks).map (fun x => What.section x.1) ++ if 2 ≤ cfg.verbosity then [.test] else []

theorem sane_starts {clock : Nat → Nat} {b : Nat} {s : Timed} (h : Sane clock b [] s) : s.watch.starts = [] :=
  List.length_eq_zero_iff.1 (by rw [h.starts]; rfl)

theorem run_times [MessageLimit] {clock : Nat → Nat} {n fuel : Nat} {cfg : Cfg} {t : TestCase} {r : Ran}
    (h : run clock n cfg fuel t = some (.ok r)) :
    r.test = t ∧ Run.run cfg fuel t = some (.ok r.ts) ∧ Times clock n cfg r := by
  refine ⟨?_, ?_, ?_⟩
  · obtain ⟨s, -, e⟩ := run_keeps (sane_keeps clock cfg (n + 1)) sane_starts (fun k => entered_all _ _ _)
      (init_sane clock n cfg t) h
    rw [e]
  · rw [← er_run clock n cfg fuel t, h]; rfl
  · obtain ⟨s, hs, e⟩ := run_keeps (sane_keeps clock cfg (n + 1)) sane_starts (fun k => entered_all _ _ _)
      (init_sane clock n cfg t) h
    rw [e]
    refine ⟨rfl, rfl, ?_, ?_, ?_⟩
    · have := hs.read.base
      dsimp only
      omega
    · intro x hx
      obtain ⟨i, j, h1, h2, h3, h4, h5⟩ := hs.read.tolds x hx
      exact ⟨i, j, by omega, h2, Nat.succ_lt_succ h3, h4, h5⟩
    · dsimp only
      rw [hs.read.ended]
      unfold endCase emit
      split
      · show endedIn (s.ts.log ++ _) = _
        rw [endedIn_append]; rfl
      · rw [List.append_nil]

/-- Every duration of a section counts from its last entry. -/
theorem run_since [MessageLimit] {clock : Nat → Nat} {n fuel : Nat} {cfg : Cfg} {t : TestCase} {r : Ran}
    (hp : ∀ k, NoneInItself (t.body.no k)) (h : run clock n cfg fuel t = some (.ok r)) : SinceEntry r.marks := by
  obtain ⟨s, hs, e⟩ := run_keeps (known_keeps clock cfg (n + 1)) (fun h => sane_starts h.sane)
    (fun k => entered_apart _ [] (hp k) (by simp)) (init_known clock n cfg t) h
  rw [e]
  exact hs.told

/-- Tests that are run one after the other. -/
def InTurn (clock : Nat → Nat) (cfg : Cfg) (fuel : Nat) [MessageLimit] : Nat → List Ran → Nat → Prop
  | n, [], m => n = m
  | n, r :: rs, m => run clock n cfg fuel r.test = some (.ok r) ∧ InTurn clock cfg fuel r.reads rs m

theorem InTurn.append [MessageLimit] {clock : Nat → Nat} {cfg : Cfg} {fuel : Nat} : ∀ {as bs : List Ran} {n m k : Nat},
    InTurn clock cfg fuel n as m → InTurn clock cfg fuel m bs k → InTurn clock cfg fuel n (as ++ bs) k
  | [], _, _, _, _, h, h' => by cases h; exact h'
  | _ :: _, _, _, _, _, h, h' => ⟨h.1, h.2.append h'⟩

theorem runEach_inTurn [MessageLimit] {clock : Nat → Nat} {lim : Reg.Limits} {fuel : Nat} {pred : Filter.TestId → Outcome Bool}
    (cases : List Reg.Case) : ∀ {a b : Acc}, runEach clock lim fuel pred cases a = some (.ok b) →
    ∃ rs, b.tests = a.tests ++ rs ∧ InTurn clock lim.cfg fuel a.reads rs b.reads ∧
      rs.map (·.test) = (cases.filter fun c => decide (pred c.test.id = .ok true)).map (·.test) := by
  induction cases with
  | nil =>
    intro a b h
    cases h
    exact ⟨[], by simp, rfl, rfl⟩
  | cons c cs ih =>
    intro a b h
    unfold runEach at h
    cases hp : pred c.test.id with
    | abort => rw [hp] at h; cases h
    | ub => rw [hp] at h; cases h
    | ok sel =>
      rw [hp] at h
      cases sel with
      | false =>
        dsimp only at h
        obtain ⟨rs, h1, h2, h3⟩ := ih h
        exact ⟨rs, h1, h2, by rw [h3]; simp [hp]⟩
      | true =>
        dsimp only at h
        cases hr : run clock a.reads lim.cfg fuel c.test with
        | none => rw [hr] at h; cases h
        | some o =>
          rw [hr] at h
          cases o with
          | abort => cases h
          | ub => cases h
          | ok r =>
            dsimp only at h
            obtain ⟨rs, h1, h2, h3⟩ := ih h
            have ht := (run_times hr).1
            refine ⟨r :: rs, by rw [h1]; simp, ⟨by rw [ht]; exact hr, h2⟩, ?_⟩
            rw [List.map_cons, h3, ht]
            simp [hp]

theorem runSelected_inTurn [MessageLimit] {clock : Nat → Nat} {n : Nat} {lim : Reg.Limits} {fuel : Nat}
    {pred : Filter.TestId → Outcome Bool} {cases : List Reg.Case} {r : RunTimes}
    (h : runSelected clock n lim fuel pred cases = some (.ok r)) :
    r.start = clock n ∧ (∃ m, InTurn clock lim.cfg fuel (n + 1) r.tests m ∧ r.stop = clock m) ∧
      r.tests.map (·.test) = (cases.filter fun c => decide (pred c.test.id = .ok true)).map (·.test) := by
  unfold runSelected at h
  cases hr : runEach clock lim fuel pred cases { acc := { log := Reg.shown lim 1 .runStarted }, reads := n + 1 } with
  | none => rw [hr] at h; cases h
  | some o =>
    rw [hr] at h
    cases o with
    | abort => cases h
    | ub => cases h
    | ok a =>
      simp only [Option.some.injEq, Outcome.ok.injEq] at h
      obtain ⟨rs, h1, h2, h3⟩ := runEach_inTurn cases hr
      have hn : a.tests = rs := by rw [h1]; rfl
      subst h
      exact ⟨rfl, ⟨a.reads, by dsimp only; rw [hn]; exact h2, rfl⟩, by dsimp only; rw [hn]; exact h3⟩

theorem InTurn.le [MessageLimit] {clock : Nat → Nat} {cfg : Cfg} {fuel : Nat} : ∀ {rs : List Ran} {n m : Nat},
    InTurn clock cfg fuel n rs m → n ≤ m
  | [], _, _, h => by cases h; exact Nat.le_refl _
  | r :: rs, n, m, h => by
    have h1 := (run_times h.1).2.2.later
    have h2 := InTurn.le h.2
    omega

/-- Tests in turn, with a clock that never goes back. -/
theorem InTurn.steady [MessageLimit] {clock : Nat → Nat} {cfg : Cfg} {fuel : Nat} (hc : Steady clock) :
    ∀ {rs : List Ran} {n m : Nat}, InTurn clock cfg fuel n rs m →
    (∀ t ∈ rs, clock n ≤ t.start ∧ t.start ≤ t.stop ∧ t.stop ≤ clock m ∧
      ∀ x ∈ tolds t.marks, t.start ≤ x.2.1 ∧ x.2.1 ≤ x.2.2 ∧ x.2.2 ≤ t.stop) ∧
    rs.Pairwise (fun a b => a.stop ≤ b.start) ∧ clock n + (rs.map fun t => t.stop - t.start).sum ≤ clock m
  | [], n, m, h => by cases h; simp
  | r :: rs, n, m, h => by
    have ht := (run_times h.1).2.2
    obtain ⟨h1, h2, h3⟩ := h.2.steady hc
    have hl := InTurn.le h.2
    have hlater := ht.later
    have k1 : clock n ≤ r.start := by rw [ht.start]; exact Nat.le_refl _
    have k2 : r.start ≤ r.stop := by rw [ht.start, ht.stop]; exact hc _ _ (by omega)
    have k3 : r.stop ≤ clock r.reads := by rw [ht.stop]; exact hc _ _ (by omega)
    have k4 : clock r.reads ≤ clock m := hc _ _ hl
    have k5 := ht.start
    refine ⟨?_, ?_, ?_⟩
    · intro t htm
      rcases List.mem_cons.1 htm with rfl | htm
      · refine ⟨k1, k2, by omega, ?_⟩
        intro x hx
        obtain ⟨i, j, e1, e2, e3, e4, e5⟩ := ht.tolds x hx
        rw [e4, e5, ht.start, ht.stop]
        exact ⟨hc _ _ (by omega), hc _ _ (by omega), hc _ _ (by omega)⟩
      · obtain ⟨j1, j2, j3, j4⟩ := h1 t htm
        exact ⟨by omega, j2, j3, j4⟩
    · rw [List.pairwise_cons]
      refine ⟨?_, h2⟩
      intro t htm
      have := (h1 t htm).1
      omega
    · rw [List.map_cons, List.sum_cons]
      omega

/-! ## The events -/

/-- Whether an event of a test tells a duration; what the test does by itself is no event. -/
def bears : Run.Event → Option Bool
  | .user _ => none
  | .runStarted => none
  | .runEnded .. => none
  | .sectionEnded .. => some true
  | .caseEnded .. => some true
  | _ => some false

/-- What the durations of a test are told of. -/
def named (src : Events.Source) (t : TestCase) : What → Option Named
  | .section id => some (.section (src.sec id))
  | .test => some (.test (Events.Spec.declared src t))
  | .run => none

theorem tell_durations [MessageLimit] {src : Events.Source} {t : TestCase} {n : Nat} {e : Run.Event} {es : List Events.Event}
    (h : Events.tell src t n e = .ok es) :
    es.map (fun e => (durationOf e).isSome) = ([e].filterMap bears) ∧
    es.filterMap durationOf = ((endedIn [e]).filterMap (named src t)).map (fun w => (w, src.duration n)) ∧ es.length ≤ 1 := by
  cases e with
  | caseEnded i a f al st =>
    unfold Events.tell at h
    obtain ⟨st', h1, h2⟩ := bind_eq_ok h
    cases h2
    exact ⟨rfl, rfl, Nat.le_refl _⟩
  | _ =>
    cases h
    exact ⟨rfl, rfl, by simp⟩

/-- The durations in a list of which the entry `k` tells `d k`. -/
def given (d : Nat → Events.Duration) : Nat → List Bool → List Events.Duration
  | _, [] => []
  | k, true :: fs => d k :: given d (k + 1) fs
  | k, false :: fs => given d (k + 1) fs

theorem given_append (d : Nat → Events.Duration) (b : List Bool) : ∀ (k : Nat) (a : List Bool),
    given d k (a ++ b) = given d k a ++ given d (k + a.length) b
  | _, [] => rfl
  | k, true :: fs => by simp [given, given_append d b (k + 1) fs]; congr 1; omega
  | k, false :: fs => by simp [given, given_append d b (k + 1) fs]; congr 1; omega

/-- Durations can be chosen so that they are a given list, and `x₀` elsewhere. -/
theorem given_any (x₀ : Events.Duration) (ds : List Events.Duration) (fs : List Bool) (h : fs.count true = ds.length) :
    ∃ d, given d 0 fs = ds ∧ ∀ i, d i = x₀ ∨ d i ∈ ds := by
  suffices H : ∀ (fs : List Bool) (ds : List Events.Duration) (k : Nat), fs.count true = ds.length →
      ∃ d, given d k fs = ds ∧ ∀ i, d i = x₀ ∨ d i ∈ ds by exact H fs ds 0 h
  intro fs
  induction fs with
  | nil =>
    intro ds k h
    exact ⟨fun _ => x₀, (List.length_eq_zero_iff.1 h.symm).symm, fun _ => .inl rfl⟩
  | cons f fs ih =>
    intro ds k h
    cases f with
    | false =>
      obtain ⟨d, hd⟩ := ih ds (k + 1) (by simpa using h)
      exact ⟨d, hd⟩
    | true =>
      cases ds with
      | nil => simp at h
      | cons x ds =>
        obtain ⟨d, hd, hm⟩ := ih ds (k + 1) (by simpa using h)
        refine ⟨fun i => if i = k then x else d i, ?_, fun i => ?_⟩
        rotate_left
        · dsimp only
          split
          · exact .inr (List.mem_cons_self ..)
          · exact (hm i).imp id (List.mem_cons_of_mem _)
        rw [given, if_pos rfl, ← hd]
        congr 1
        have : ∀ (fs : List Bool) (j : Nat), k < j → given (fun i => if i = k then x else d i) j fs = given d j fs := by
          intro fs
          induction fs with
          | nil => intros; rfl
          | cons f fs ih =>
            intro j hj
            cases f
            · exact ih (j + 1) (by omega)
            · rw [given, given, if_neg (by omega), ih (j + 1) (by omega)]
        exact this fs (k + 1) (by omega)

theorem tellLog_durations [MessageLimit] {src : Events.Source} {t : TestCase} (log : List Run.Event) :
    ∀ {n : Nat} {es : List Events.Event}, Events.tellLog src t n log = .ok es →
    es.map (fun e => (durationOf e).isSome) = log.filterMap bears ∧
    (es.filterMap durationOf).map (·.1) = (endedIn log).filterMap (named src t) ∧
    (es.filterMap durationOf).map (·.2) = given src.duration n (log.filterMap bears) := by
  induction log with
  | nil => intro n es h; cases h; exact ⟨rfl, rfl, rfl⟩
  | cons e log ih =>
    intro n es h
    unfold Events.tellLog at h
    obtain ⟨x, h1, h2⟩ := bind_eq_ok h
    obtain ⟨rest, h3, h4⟩ := bind_eq_ok h2
    cases h4
    obtain ⟨k1, k2, k3⟩ := tell_durations h1
    obtain ⟨j1, j2, j3⟩ := ih h3
    have hb : (e :: log).filterMap bears = [e].filterMap bears ++ log.filterMap bears := by
      rw [← List.filterMap_append]; rfl
    have hi : endedIn (e :: log) = endedIn [e] ++ endedIn log := by rw [← endedIn_append]; rfl
    have hl : ([e].filterMap bears).length = x.length := by rw [← k1, List.length_map]
    refine ⟨?_, ?_, ?_⟩
    · show (x ++ rest).map _ = _
      rw [List.map_append, k1, j1, hb]
    · show ((x ++ rest).filterMap _).map _ = _
      rw [List.filterMap_append, List.map_append, k2, j2, hi, List.filterMap_append, List.map_map]
      congr 1
      exact List.map_id _
    · show ((x ++ rest).filterMap _).map _ = _
      rw [List.filterMap_append, List.map_append, j3, hb, given_append, hl]
      congr 1
      rw [k2]
      cases e <;> rfl

theorem durations_append {a b : List Events.Event} :
    (a ++ b).filterMap durationOf = a.filterMap durationOf ++ b.filterMap durationOf := List.filterMap_append

theorem endedIn_named [MessageLimit] {clock : Nat → Nat} {n : Nat} {cfg : Cfg} {r : Ran} (src : Events.Source)
    (h : Times clock n cfg r) :
    (endedIn r.ts.log).filterMap (named src r.test) = (spansOfTest src cfg.verbosity r).map (·.1) := by
  rw [h.ended, List.filterMap_append, spansOfTest, List.map_append, List.map_map, List.filterMap_map]
  congr 1
  · rw [← List.filterMap_eq_map]; rfl
  · split <;> rfl

theorem bears_count [MessageLimit] {clock : Nat → Nat} {n : Nat} {cfg : Cfg} {r : Ran} (src : Events.Source)
    (h : Times clock n cfg r) : (r.ts.log.filterMap bears).count true = (spansOfTest src cfg.verbosity r).length := by
  have h1 : ∀ log : List Run.Event, (∀ w ∈ endedIn log, w ≠ .run) → (log.filterMap bears).count true = (endedIn log).length := by
    intro log
    induction log with
    | nil => intro _; rfl
    | cons e log ih =>
      intro hw
      have ih := ih fun w hm => hw w (by
        rw [show endedIn (e :: log) = endedIn [e] ++ endedIn log by rw [← endedIn_append]; rfl]
        exact List.mem_append_right _ hm)
      cases e with
      | runEnded => exact absurd rfl (hw .run (by simp [endedIn]))
      | _ => simpa [endedIn, bears, List.filterMap_cons] using ih
  rw [h1 _ ?_, h.ended, spansOfTest]
  · split <;> simp
  · rw [h.ended]
    intro w hw
    rcases List.mem_append.1 hw with hw | hw
    · obtain ⟨x, -, rfl⟩ := List.mem_map.1 hw
      exact fun h => by cases h
    · split at hw
      · cases List.mem_singleton.1 hw
        exact fun h => by cases h
      · cases hw

theorem runEach_durations [MessageLimit] (src : Events.Source) {clock : Nat → Nat} {lim : Reg.Limits} {fuel : Nat}
    {pred : Filter.TestId → Outcome Bool} (cases : List Reg.Case) : ∀ {a b : Acc} {ea : Events.Acc},
    runEach clock lim fuel pred cases a = some (.ok b) → ea.cases = a.acc.cases → ea.totals = a.acc.totals →
    ∃ (rs : List Ran) (es : List Events.Event), b.tests = a.tests ++ rs ∧
      Events.runEach src lim fuel pred cases ea = some (.ok ⟨b.acc.cases, b.acc.totals, ea.events ++ es⟩) ∧
      es.length = (rs.flatMap (fun r => r.ts.log.filterMap bears)).length ∧
      (es.filterMap durationOf).map (·.1) = (rs.flatMap (spansOfTest src lim.cfg.verbosity)).map (·.1) ∧
      (es.filterMap durationOf).map (·.2) =
        given src.duration ea.events.length (rs.flatMap (fun r => r.ts.log.filterMap bears)) ∧
      (rs.flatMap (fun r => r.ts.log.filterMap bears)).count true = (rs.flatMap (spansOfTest src lim.cfg.verbosity)).length := by
  induction cases with
  | nil =>
    intro a b ea h hc ht
    cases h
    refine ⟨[], [], by simp, ?_, rfl, rfl, rfl, rfl⟩
    rw [Events.runEach, ← hc, ← ht, List.append_nil]
  | cons c cs ih =>
    intro a b ea h hc ht
    unfold runEach at h
    unfold Events.runEach
    cases hp : pred c.test.id with
    | abort => rw [hp] at h; cases h
    | ub => rw [hp] at h; cases h
    | ok sel =>
      rw [hp] at h
      cases sel with
      | false =>
        dsimp only at h ⊢
        exact ih (a := { a with acc := { a.acc with cases := a.acc.cases ++ [c] } })
          (ea := { ea with cases := ea.cases ++ [c] }) h (by dsimp only; rw [hc]) ht
      | true =>
        dsimp only at h ⊢
        cases hr : run clock a.reads lim.cfg fuel c.test with
        | none => rw [hr] at h; cases h
        | some o =>
          rw [hr] at h
          cases o with
          | abort => cases h
          | ub => cases h
          | ok r =>
            dsimp only at h
            obtain ⟨t1, t2, t3⟩ := run_times hr
            obtain ⟨es1, t4, -⟩ := Events.tellLog_run src t2 ea.events.length
            obtain ⟨d1, d2, d3⟩ := tellLog_durations _ t4
            rw [t2]
            dsimp only
            rw [t4]
            dsimp only
            obtain ⟨rs, es, h1, h2, h3, h4, h5, h6⟩ := ih
              (ea := { cases := ea.cases ++ [{ c with state := r.ts.state }], totals := ea.totals.add r.ts
                       events := ea.events ++ es1 }) h (by dsimp only; rw [hc]) (by dsimp only; rw [ht])
            have hlen : (r.ts.log.filterMap bears).length = es1.length := by rw [← d1, List.length_map]
            refine ⟨r :: rs, es1 ++ es, by rw [h1]; simp, ?_, ?_, ?_, ?_, ?_⟩
            · rw [h2]; simp
            · rw [List.flatMap_cons, List.length_append, List.length_append, h3, hlen]
            · rw [durations_append, List.map_append, d2, h4, ← t1, endedIn_named src t3, List.flatMap_cons, List.map_append]
            · rw [durations_append, List.map_append, d3, h5, List.flatMap_cons, given_append, hlen, List.length_append]
            · rw [List.flatMap_cons, List.count_append, h6, bears_count src t3, List.flatMap_cons, List.length_append]

theorem pairs_ext {α β : Type} : ∀ {l l' : List (α × β)}, l.map (·.1) = l'.map (·.1) → l.map (·.2) = l'.map (·.2) → l = l'
  | [], [], _, _ => rfl
  | [], _ :: _, h, _ => by simp at h
  | _ :: _, [], h, _ => by simp at h
  | x :: l, y :: l', h, h' => by
    simp only [List.map_cons, List.cons.injEq] at h h'
    rw [pairs_ext h.2 h'.2, Prod.ext h.1 h'.1]

/-- There are durations such that the events tell the spans of a run, as converted by `conv`. -/
theorem runSelected_durations [MessageLimit] (src : Events.Source) (conv : Nat → Nat → Events.Duration) (x₀ : Events.Duration) {clock : Nat → Nat} {n : Nat}
    {lim : Reg.Limits} {fuel : Nat} {pred : Filter.TestId → Outcome Bool} {cases : List Reg.Case} {r : RunTimes}
    (name : Text) (filters : List Text) (h : runSelected clock n lim fuel pred cases = some (.ok r)) :
    ∃ duration es, Events.runSelected { src with duration } lim fuel name filters pred cases =
        some (.ok (r.cases, es, r.success)) ∧
      es.filterMap durationOf = (spans src lim.cfg.verbosity r).map (fun x => (x.1, conv x.2.1 x.2.2)) ∧
      ∀ i, duration i = x₀ ∨ ∃ x ∈ spans src lim.cfg.verbosity r, duration i = conv x.2.1 x.2.2 := by
  unfold runSelected at h
  cases hr : runEach clock lim fuel pred cases { acc := { log := Reg.shown lim 1 .runStarted }, reads := n + 1 } with
  | none => rw [hr] at h; cases h
  | some o =>
    rw [hr] at h
    cases o with
    | abort => cases h
    | ub => cases h
    | ok a =>
      simp only [Option.some.injEq, Outcome.ok.injEq] at h
      have key := fun duration => runEach_durations { src with duration } cases
        (ea := { events := Events.shown lim 1 (.runStarted name filters) }) hr rfl rfl
      have htests : ∀ {rs : List Ran}, a.tests = [] ++ rs → a.tests = rs := fun h => h
      let fs : List Bool := a.tests.flatMap (fun r => r.ts.log.filterMap bears)
      let tail : List Bool := if 1 ≤ lim.cfg.verbosity then [true] else []
      let front : List Bool := if 1 ≤ lim.cfg.verbosity then [false] else []
      have hcount : (front ++ fs ++ tail).count true = ((spans src lim.cfg.verbosity r).map fun x => conv x.2.1 x.2.2).length := by
        obtain ⟨rs, es, h1, -, -, -, -, h6⟩ := key src.duration
        have h1 := htests h1
        subst h1
        rw [List.length_map, spans, List.length_append, List.count_append, List.count_append, ← h]
        dsimp only [fs, tail, front]
        rw [h6]
        split <;> simp
      obtain ⟨duration, hd, hmem⟩ := given_any x₀ _ _ hcount
      obtain ⟨rs, es, h1, h2, h3, h4, h5, h6⟩ := key duration
      have h1 := htests h1
      subst h1
      subst h
      refine ⟨duration, Events.shown lim 1 (.runStarted name filters) ++ es ++ Events.shown lim 1 (.runEnded name filters
        a.acc.totals.run a.acc.totals.fail a.acc.totals.allowedFail a.acc.totals.skip
        ⟨a.acc.totals.asserts, a.acc.totals.failures, a.acc.totals.allowed⟩
        (duration (Events.shown lim 1 (.runStarted name filters) ++ es).length) a.acc.totals.success), ?_, ?_, fun i => (hmem i).imp id fun h => by
          obtain ⟨x, h1, h2⟩ := List.mem_map.1 h; exact ⟨x, h1, h2.symm⟩⟩
      · unfold Events.runSelected
        rw [h2]
      · have hf : (Events.shown lim 1 (.runStarted name filters)).length = front.length := by
          dsimp only [front]
          unfold Events.shown
          split <;> rfl
        have hn : (Events.shown lim 1 (.runStarted name filters)).filterMap durationOf = [] := by
          unfold Events.shown
          split <;> rfl
        have hg : given duration 0 front = [] := by
          dsimp only [front]
          split <;> rfl
        have hl : (Events.shown lim 1 (.runStarted name filters) ++ es).length = 0 + (front ++ fs).length := by
          rw [List.length_append, List.length_append, hf, h3, Nat.zero_add]
        rw [given_append, given_append, hg, List.nil_append, Nat.zero_add, ← hf] at hd
        rw [durations_append, durations_append, hn, List.nil_append, hl]
        refine pairs_ext ?_ ?_
        · rw [List.map_append, h4, spans, List.map_map]
          show _ = (spans src lim.cfg.verbosity _).map (·.1)
          rw [spans, List.map_append]
          congr 1
          unfold Events.shown
          split <;> rfl
        · rw [List.map_append, h5, List.map_map]
          refine Eq.trans ?_ hd
          congr 1
          dsimp only [tail]
          unfold Events.shown
          split <;> simp [given, durationOf]

end Verif.Timing
