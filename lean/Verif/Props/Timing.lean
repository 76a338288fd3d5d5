import Verif.Lemmas.Spans
import Verif.Lemmas.Seconds
import Verif.Lemmas.Rounding
import Verif.Props.Events
/-!
# C90: durations

The clock is any function from the number of the reading to the time in nanoseconds; `Steady` says that it never goes back.
-/
namespace Verif.Props
open Verif.Timing Verif.Timing.Spec

/-- **C90** (measuring changes nothing). Whatever the clock says, the tests that run, what they do, what is told about them and
whether the run succeeds are the same. -/
theorem C90_harmless [Run.MessageLimit] (clock : Nat → Nat) (n : Nat) (lim : Reg.Limits) (fuel : Nat)
    (pred : Filter.TestId → Outcome Bool) (cases : List Reg.Case) :
    (∀ r, runSelected clock n lim fuel pred cases = some (.ok r) →
      Reg.runSelected lim fuel pred cases = some (.ok (r.cases, r.log, r.success))) ∧
    (∀ x, Reg.runSelected lim fuel pred cases = some (.ok x) → ∃ r, runSelected clock n lim fuel pred cases = some (.ok r)) := by
  have h := er_runSelected clock n lim fuel pred cases
  constructor
  · intro r hr
    rw [hr] at h
    exact h.symm
  · intro x hx
    rw [hx] at h
    cases hr : runSelected clock n lim fuel pred cases with
    | none => rw [hr] at h; cases h
    | some o =>
      rw [hr] at h
      cases o with
      | ok r => exact ⟨r, rfl⟩
      | abort => cases h
      | ub => cases h

/-- **C90** (what is measured). The spans of time whose lengths a run tells: every selected test, in order, has a span inside that
of the run, the spans of two tests do not overlap (so together they are not longer than the run), and the spans of the
sections of a test are inside its span. -/
theorem C90_nested [Run.MessageLimit] {clock : Nat → Nat} (hc : Steady clock) {n : Nat} {lim : Reg.Limits} {fuel : Nat}
    {pred : Filter.TestId → Outcome Bool} {cases : List Reg.Case} {r : RunTimes}
    (h : runSelected clock n lim fuel pred cases = some (.ok r)) :
    r.tests.map (·.test) = (cases.filter fun c => decide (pred c.test.id = .ok true)).map (·.test) ∧
    (∀ t ∈ r.tests, r.start ≤ t.start ∧ t.start ≤ t.stop ∧ t.stop ≤ r.stop ∧
      ∀ x ∈ tolds t.marks, t.start ≤ x.2.1 ∧ x.2.1 ≤ x.2.2 ∧ x.2.2 ≤ t.stop) ∧
    r.tests.Pairwise (fun a b => a.stop ≤ b.start) ∧
    r.start + (r.tests.map fun t => t.stop - t.start).sum ≤ r.stop := by
  obtain ⟨h1, ⟨m, h2, h3⟩, h4⟩ := runSelected_inTurn h
  obtain ⟨k1, k2, k3⟩ := h2.steady hc
  have hn : clock n ≤ clock (n + 1) := hc _ _ (Nat.le_succ n)
  rw [h1, h3]
  refine ⟨h4, ?_, k2, by omega⟩
  intro t ht
  obtain ⟨j1, j2, j3, j4⟩ := k1 t ht
  exact ⟨by omega, j2, j3, j4⟩

/-- **C90** (what the events tell). The durations in the events of a run are those of its spans, in the order in which they end:
those of the sections of a test whose end is told, that of the test, and that of the run at the end. (`conv` is what is made of
two times, see `C90_seconds`; the model of events leaves the durations open, as `src.duration`.) -/
theorem C90_events [Run.MessageLimit] (src : Events.Source) (conv : Nat → Nat → Events.Duration) {clock : Nat → Nat} {n : Nat}
    {lim : Reg.Limits} {fuel : Nat} {pred : Filter.TestId → Outcome Bool} {cases : List Reg.Case} {r : RunTimes}
    (name : Text) (filters : List Text) (h : runSelected clock n lim fuel pred cases = some (.ok r)) :
    ∃ duration es, Events.runSelected { src with duration } lim fuel name filters pred cases =
        some (.ok (r.cases, es, r.success)) ∧
      es.filterMap durationOf = (spans src lim.cfg.verbosity r).map fun x => (x.1, conv x.2.1 x.2.2) := by
  obtain ⟨duration, es, h1, h2, -⟩ := runSelected_durations src conv ⟨[], 0⟩ name filters h
  exact ⟨duration, es, h1, h2⟩

/-- **C90** (since when). Full claim: the duration of a section is the time spent in it. Proved: it is the time since the section was
last entered, if no section is inside itself and none is in a destructor. Missing: the time of earlier entries is lost, see
`C90_child_longer`. -/
theorem C90_since_entry_partial [Run.MessageLimit] {clock : Nat → Nat} {n fuel : Nat} {cfg : Run.Cfg} {t : Run.TestCase}
    {r : Ran} (hp : ∀ k, NoneInItself (t.body.no k)) (h : Timing.run clock n cfg fuel t = some (.ok r)) :
    SinceEntry r.marks := run_since hp h

/-- **C90** (overflow). The difference of two times is exact even if the counter of nanoseconds, which is taken modulo 2 ^ 64, overflows
between them, or if the clock goes back: as long as it is between -2 ^ 63 and 2 ^ 63. -/
theorem C90_difference {start stop : Int} (h1 : -2 ^ 63 ≤ stop - start) (h2 : stop - start < 2 ^ 63) :
    ticks (start % 2 ^ 64).toNat (stop % 2 ^ 64).toNat = stop - start := by
  unfold ticks
  dsimp only
  split <;> omega

/-- Ten nanoseconds during which the counter overflows, and a clock set back by five. -/
example : ticks (2 ^ 64 - 3) 7 = 10 ∧ ticks 12 7 = -5 := by decide

/-- **C90** (seconds). The seconds told are those passed, up to one part in 8388607 (about seven digits), never negative, and a
span that is not longer has a duration that is not longer, for clocks that have not reached 2 ^ 63 ns (292 years). -/
theorem C90_seconds {rnd : Rat → Rat} (hr : Verif.Spec.Rounds rnd) {start stop : Nat} (h : start ≤ stop) (hb : stop < 2 ^ 63) :
    0 ≤ seconds rnd start stop ∧
    |seconds rnd start stop - ((stop : ℚ) - start) / 10 ^ 9| ≤ ((stop : ℚ) - start) / 10 ^ 9 / 8388607 ∧
    ∀ start' stop', start ≤ start' → start' ≤ stop' → stop' ≤ stop → seconds rnd start' stop' ≤ seconds rnd start stop :=
  ⟨seconds_nonneg hr h hb, seconds_near hr h hb, fun _ _ h1 h2 h3 =>
    seconds_mono hr h2 (Nat.lt_of_le_of_lt h3 hb) h hb (by omega)⟩

/-- **C90** (in seconds, nested). No section is told to take longer than its test, and no test longer than the run. -/
theorem C90_seconds_nested [Run.MessageLimit] {rnd : Rat → Rat} (hr : Verif.Spec.Rounds rnd) {clock : Nat → Nat}
    (hc : Steady clock) (hb : ∀ n, clock n < 2 ^ 63) {n : Nat} {lim : Reg.Limits} {fuel : Nat}
    {pred : Filter.TestId → Outcome Bool} {cases : List Reg.Case} {r : RunTimes}
    (h : runSelected clock n lim fuel pred cases = some (.ok r)) :
    ∀ t ∈ r.tests, seconds rnd t.start t.stop ≤ seconds rnd r.start r.stop ∧
      ∀ x ∈ tolds t.marks, seconds rnd x.2.1 x.2.2 ≤ seconds rnd t.start t.stop := by
  obtain ⟨-, ⟨m, -, h3⟩, -⟩ := runSelected_inTurn h
  obtain ⟨-, h1, -, -⟩ := C90_nested hc h
  have hstop : r.stop < 2 ^ 63 := by rw [h3]; exact hb m
  intro t ht
  obtain ⟨j1, j2, j3, j4⟩ := h1 t ht
  refine ⟨(C90_seconds hr (by omega) hstop).2.2 _ _ j1 j2 j3, ?_⟩
  intro x hx
  obtain ⟨i1, i2, i3⟩ := j4 x hx
  exact (C90_seconds hr j2 (by omega)).2.2 _ _ i1 i2 i3

/-- **C90** (TeamCity). The number the TeamCity reporter makes of a duration is the microseconds passed, up to one and one part in
five million. -/
theorem C90_teamcity {rnd : Rat → Rat} (hr : Verif.Spec.Rounds rnd) {start stop : Nat} (h : start ≤ stop) (hb : stop < 2 ^ 63) :
    ∃ m, micros rnd (seconds rnd start stop) = .ok m ∧
      |(m : ℚ) - ((stop : ℚ) - start) / 10 ^ 3| ≤ 1 + ((stop : ℚ) - start) / 10 ^ 3 / 5000000 := micros_near hr h hb

/-- **C90** (TeamCity, the unit is wrong). The attribute `duration` of `testFinished` is in milliseconds; the reporter says 1000000 for
one second. -/
theorem C90_teamcity_not_milliseconds {rnd : Rat → Rat} (hr : Verif.Spec.Rounds rnd) {start : Nat}
    (hb : start + 10 ^ 9 < 2 ^ 63) : micros rnd (seconds rnd start (start + 10 ^ 9)) = .ok 1000000 := (micros_second hr hb).2

/-! ## Examples -/

/-- Section 1 contains the sections 2 and 3, so the test is executed twice. -/
def timedTest : Run.TestCase :=
  mkTest "a" "" (.sec 1 10 (.sec 2 11 (.stmt (.act 5) .done) (.sec 3 12 .done .done)) .done)

/-- A second test, without sections. -/
def timedCases : List Reg.Case := [{ test := timedTest }, { test := mkTest "b" "" .done }]

/-- A clock that goes ten nanoseconds from one reading to the next. -/
def tens (n : Nat) : Nat := 10 * n

theorem tens_steady : Steady tens := fun m n h => Nat.mul_le_mul_left 10 h

/-- The spans of a run, without names. -/
def timesOf (o : Option (Outcome RunTimes)) : List (Nat × Nat × List (Nat × Nat × Nat)) :=
  match o with
  | some (.ok r) => (r.start, r.stop, []) :: r.tests.map fun t => (t.start, t.stop, tolds t.marks)
  | _ => []

open Defaults in
/-- The run, and its two tests; the first with three sections. -/
theorem timed_example : timesOf (runSelected tens 0 (defaultLimits 2) 9 (Filter.selectDefault 256) timedCases) =
    [(0, 120, []), (10, 90, [(2, 30, 40), (3, 60, 70), (1, 50, 80)]), (100, 110, [])] := by decide +kernel

private theorem ok_of_times {o : Option (Outcome RunTimes)} (h : timesOf o ≠ []) : ∃ r, o = some (.ok r) := by
  match o with
  | some (.ok r) => exact ⟨r, rfl⟩
  | some .abort => exact absurd rfl h
  | some .ub => exact absurd rfl h
  | none => exact absurd rfl h

open Defaults in
/-- `C90_harmless`, `C90_nested` and `C90_events` apply to this run. -/
example (src : Events.Source) (conv : Nat → Nat → Events.Duration) :
    ∃ r, runSelected tens 0 (defaultLimits 2) 9 (Filter.selectDefault 256) timedCases = some (.ok r) ∧
      Reg.runSelected (defaultLimits 2) 9 (Filter.selectDefault 256) timedCases = some (.ok (r.cases, r.log, r.success)) ∧
      r.start + (r.tests.map fun t => t.stop - t.start).sum ≤ r.stop ∧
      ∃ duration es, Events.runSelected { src with duration } (defaultLimits 2) 9 "prog".toList [] (Filter.selectDefault 256)
        timedCases = some (.ok (r.cases, es, r.success)) ∧ (es.filterMap durationOf).map (·.2) =
          [conv 30 40, conv 60 70, conv 50 80, conv 10 90, conv 100 110, conv 0 120] := by
  obtain ⟨r, hr⟩ := ok_of_times (o := runSelected tens 0 (defaultLimits 2) 9 (Filter.selectDefault 256) timedCases)
    (by rw [timed_example]; simp)
  have he := timed_example
  rw [hr] at he
  refine ⟨r, hr, (C90_harmless ..).1 r hr, (C90_nested tens_steady hr).2.2.2, ?_⟩
  obtain ⟨duration, es, h1, h2⟩ := C90_events src conv "prog".toList [] hr
  refine ⟨duration, es, h1, ?_⟩
  rw [h2, List.map_map]
  simp only [timesOf, List.cons.injEq, Prod.mk.injEq] at he
  obtain ⟨⟨s1, s2, -⟩, he⟩ := he
  rcases ht : r.tests with _ | ⟨a, _ | ⟨b, _ | ⟨c, l⟩⟩⟩
  all_goals rw [ht] at he
  all_goals simp only [List.map_nil, List.map_cons, List.cons.injEq, Prod.mk.injEq, List.nil_eq, reduceCtorEq, and_false, and_true] at he
  obtain ⟨⟨a1, a2, a3⟩, b1, b2, b3⟩ := he
  simp [spans, spansOfTest, ht, a1, a2, a3, b1, b2, b3, s1, s2, defaultLimits, defaults]

open Defaults in
/-- `C90_since_entry_partial` applies to the first test: section 1 is told to have taken the time since its second entry. -/
example : ∃ r, Timing.run tens 1 (defaultLimits 2).cfg 9 timedTest = some (.ok r) ∧ SinceEntry r.marks ∧
    r.marks = [.entered 1 20, .entered 2 30, .told 2 30 40, .entered 1 50, .entered 3 60, .told 3 60 70, .told 1 50 80] := by
  have h : ∃ r, Timing.run tens 1 (defaultLimits 2).cfg 9 timedTest = some (.ok r) ∧
      r.marks = [.entered 1 20, .entered 2 30, .told 2 30 40, .entered 1 50, .entered 3 60, .told 3 60 70, .told 1 50 80] :=
    ⟨_, rfl, by decide +kernel⟩
  obtain ⟨r, h1, h2⟩ := h
  refine ⟨r, h1, C90_since_entry_partial ?_ h1, h2⟩
  intro k
  cases k <;> simp [timedTest, mkTest, NoneInItself, sectionIds, Run.Body.no]

/-- Section 2 takes a second. -/
def slowSecond (n : Nat) : Nat := if n < 4 then n else 10 ^ 9 + n

open Defaults in
/-- **C90** (the time of earlier entries is lost). Section 2 is inside section 1, yet is told to have taken 1000000001 ns, and section 1
3 ns: section 1 was entered again for section 3, and only that counts. -/
theorem C90_child_longer : Steady slowSecond ∧
    timesOf (runSelected slowSecond 0 (defaultLimits 2) 9 (Filter.selectDefault 256) [{ test := timedTest }]) =
      [(0, 1000000010, []),
        (1, 1000000009, [(2, 3, 1000000004), (3, 1000000006, 1000000007), (1, 1000000005, 1000000008)])] := by
  refine ⟨?_, by decide +kernel⟩
  intro m n h
  unfold slowSecond
  split <;> split <;> omega

/-- There is a rounding: to the nearest, ties to even. -/
example : Verif.Spec.Rounds Verif.Spec.toSingle := Verif.Spec.toSingle_rounds

open Verif.Spec in
/-- An hour and a nanosecond. -/
example : |seconds toSingle 5 3600000000006 - 3600000000001 / 10 ^ 9| ≤ 3600000000001 / 10 ^ 9 / 8388607 ∧
    ∃ m, micros toSingle (seconds toSingle 5 3600000000006) = .ok m ∧ |(m : ℚ) - 3600000000001 / 10 ^ 3| ≤ 1 + 3600000000001 / 10 ^ 3 / 5000000 := by
  have h1 := (C90_seconds toSingle_rounds (start := 5) (stop := 3600000000006) (by norm_num) (by norm_num)).2.1
  obtain ⟨m, h2, h3⟩ := C90_teamcity toSingle_rounds (start := 5) (stop := 3600000000006) (by norm_num) (by norm_num)
  norm_num at h1 h3 ⊢
  exact ⟨h1, m, h2, h3⟩

example : micros Verif.Spec.toSingle (seconds Verif.Spec.toSingle 7 (7 + 10 ^ 9)) = .ok 1000000 :=
  C90_teamcity_not_milliseconds Verif.Spec.toSingle_rounds (by norm_num)

open Defaults in
/-- A clock that stops before 2 ^ 63 ns: `C90_seconds_nested` applies. -/
example : ∃ clock, Steady clock ∧ (∀ n, clock n < 2 ^ 63) ∧
    timesOf (runSelected clock 0 (defaultLimits 2) 9 (Filter.selectDefault 256) timedCases) =
      [(0, 120, []), (10, 90, [(2, 30, 40), (3, 60, 70), (1, 50, 80)]), (100, 110, [])] := by
  refine ⟨fun n => min (10 * n) 1000, ?_, ?_, by decide +kernel⟩
  · intro m n h; dsimp only; omega
  · intro n; dsimp only; omega

end Verif.Props
