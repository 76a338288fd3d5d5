import Verif.Lemmas.CaseLog
/-!
# C19–C23, C48: sections, aborts, captures and the place of unexpected exceptions
-/
namespace Verif.Props
open Verif Verif.Run Verif.Run.Spec

/-- A test case that keeps within the compile-time limits of the framework, and whose executions reach the same sections
(whatever else they do); `tags` are its tags. -/
structure Fits (cfg : Cfg) (t : TestCase) (tags : List Filter.ParsedTag) : Prop where
  alike : Alike t.body
  sections : Always (secDepth · ≤ cfg.maxNested) t.body
  captures : Always (capDepth · ≤ cfg.maxCaptures) t.body
  tags : Filter.forEachTag cfg.maxTag t.id.tags = .ok tags

/-- Limits as in the default configuration, full verbosity. -/
def defaults (v : Nat) : Cfg := { verbosity := v, maxNested := 8, maxCaptures := 8, maxTag := 256 }

/-- The default length of messages, for the examples (the theorems are about any length). -/
scoped instance Defaults.messages : MessageLimit := ⟨1024⟩

/-- A test case without tags. -/
def plain (body : Prog) : TestCase := { id := { name := "t".toList, tags := [], type := [] }, loc := 1, body := body }

theorem plain_fits {v : Nat} {body : Prog} (h1 : secDepth body ≤ 8) (h2 : capDepth body ≤ 8) :
    Fits (defaults v) (plain body) [] := ⟨alike_one body, always_one h1, always_one h2, rfl⟩

theorem plain_always {P : Prog → Prop} {body : Prog} (h : P body) : Always P (plain body).body := always_one h

/-! ## C19 -/

/-- **C19**. For every test which nothing interrupts (checks may fail), at every verbosity, the user
statements that are run are those of one execution per leaf section, in depth-first order; each
execution runs everything outside sections and everything in the chain of sections to its leaf, in
program order. What is run may differ from execution to execution, as long as the sections are the same. -/
theorem C19_executions [Run.MessageLimit] {cfg : Cfg} {t : TestCase} {tags : List Filter.ParsedTag} (hf : Fits cfg t tags)
    (hc : Always Calm t.body) {fuel : Nat} (hfuel : (runsOf t.body).length ≤ fuel) :
    ∃ s, run cfg fuel t = some (.ok s) ∧ userActs s.log = (runsOf t.body).flatten := by
  obtain ⟨hstory, _⟩ := calm_story hc (topCtx t.loc) (passCount t.body.first) 0 [] rfl
  rw [runsOf_length] at hfuel
  obtain ⟨s, h1, h2⟩ := (run_story_any (fun n => calm_tidy (hc n)) hf.alike hf.sections hf.captures hf.tags fuel).2 (by
    rw [hstory]; exact hfuel)
  refine ⟨s, h1, ?_⟩
  rw [userActs_observed, h2, itemActs_visible, (caseStory_acts t _).1, hstory]
  simp only [List.nil_append]
  exact calm_acts hc hf.alike _

/-- **C19**. For a test which does the same in each execution, these are the `executions` of its body. -/
theorem C19_same_each_time (body : Prog) : runsOf (body : Body) = executions body := runsOf_one body

/-- **C19**. A body without sections is executed once. -/
theorem C19_no_section [Run.MessageLimit] {cfg : Cfg} {t : TestCase} {tags : List Filter.ParsedTag} (hf : Fits cfg t tags)
    (hc : Always Calm t.body) (hn : leaves t.body.first = 0) {fuel : Nat} (hfuel : 1 ≤ fuel) :
    ∃ s, run cfg fuel t = some (.ok s) ∧ userActs s.log = outside t.body.first := by
  have he : runsOf t.body = [outside t.body.first] := by
    have : leafRuns t.body.first = [] := List.eq_nil_of_length_eq_zero (by rw [leafRuns_length]; exact hn)
    simp [runsOf, passCount, hn, executions, orOutside, no_zero, this]
  obtain ⟨s, h1, h2⟩ := C19_executions hf hc (by rw [he]; exact hfuel)
  exact ⟨s, h1, by rw [h2, he]; simp⟩

/-- **C19** (any tidy body, with exceptions, aborts and skips). The log of the run tells exactly the
story of the test: the executions one after the other, each going to its leaf and ending early at an
exception, and the end of the test. -/
theorem C19_meaning [Run.MessageLimit] {cfg : Cfg} {t : TestCase} {tags : List Filter.ParsedTag} (hf : Fits cfg t tags)
    (ht : Always Tidy t.body) {fuel : Nat} (hfuel : passCount t.body.first ≤ fuel) :
    ∃ s, run cfg fuel t = some (.ok s) ∧ s.log.filterMap observed =
      (caseStory t (tags.contains .shouldFail)).filter (Item.visible cfg.verbosity) := by
  have hle : ∀ k n seen, (story t.body.no (topCtx t.loc) k n seen).2 ≤ k := by
    intro k
    induction k with
    | zero => intro n seen; simp [story]
    | succ k ih =>
      intro n seen
      unfold story
      split
      · simp
      · split
        · simp
        · simp only; have := ih (n + 1) (seen ++ ‹List Item›); omega
  exact (run_story_any ht hf.alike hf.sections hf.captures hf.tags fuel).2 (Nat.le_trans (hle _ _ _) hfuel)

/-- Two sections, the first with two sub-sections; statements before, between and after. -/
def exampleBody : Prog :=
  .stmt (.act 1) (.sec 10 100 (.stmt (.act 2) (.sec 11 101 (.stmt (.act 3) .done)
    (.sec 12 102 (.stmt (.check 7 (.val false) false []) (.stmt (.act 4) .done)) .done)))
    (.capture [['x']] (.stmt (.act 5) (.sec 13 103 (.stmt (.act 6) .done) (.stmt (.act 7) .done)))))

example : executions exampleBody = [[1, 2, 3, 5, 7], [1, 2, 4, 5, 7], [1, 5, 6, 7]] := by decide

open Defaults in
example : ∃ s, run (defaults 1) 3 (plain exampleBody) = some (.ok s) ∧
    userActs s.log = [1, 2, 3, 5, 7, 1, 2, 4, 5, 7, 1, 5, 6, 7] :=
  C19_executions (plain_fits (by decide) (by decide)) (plain_always (by simp [exampleBody, Calm, calmStmt])) (by decide)

/-- `int x = 0; S { x = 1; } T { x = 2; } if (x == 1) a1(); else a2(); CHECK(x == 1);`: what comes after the sections
depends on the section that was entered. -/
def dependentBody : Body where
  first := .sec 1 1 (.stmt (.act 5) .done) (.sec 2 2 (.stmt (.act 6) .done)
    (.stmt (.act 1) (.stmt (.check 7 (.val true) false []) .done)))
  later := [.sec 1 1 (.stmt (.act 5) .done) (.sec 2 2 (.stmt (.act 6) .done)
    (.stmt (.act 2) (.stmt (.check 7 (.val false) false []) .done)))]

/-- A test with a body like this. -/
def dependent : TestCase := { plain .done with body := dependentBody }

theorem dependent_calm : Always Calm dependent.body := by
  rw [always_iff]; simp [dependent, dependentBody, Calm, calmStmt]

theorem dependent_fits (v : Nat) : Fits (defaults v) dependent [] := by
  refine ⟨?_, ?_, ?_, rfl⟩
  · rw [Alike, always_iff]; decide
  · rw [always_iff]
    show secDepth dependentBody.first ≤ 8 ∧ ∀ p ∈ dependentBody.later, secDepth p ≤ 8
    decide
  · rw [always_iff]
    show capDepth dependentBody.first ≤ 8 ∧ ∀ p ∈ dependentBody.later, capDepth p ≤ 8
    decide

open Defaults in
example : ∃ s, run (defaults 1) 2 dependent = some (.ok s) ∧ userActs s.log = [5, 1, 6, 2] :=
  C19_executions (dependent_fits 1) dependent_calm (by decide)

/-- A body with an exception and a handler that notifies the framework. -/
def exampleTry : Prog :=
  .tryCatch none (.capture [['y']] (.stmt (.throw ⟨[1], none, false⟩) .done)) (.stmt .notify .done)
    (.sec 1 2 (.stmt (.throw ⟨[1], none, false⟩) .done) .done)

example : Tidy exampleTry ∧ Fits (defaults 3) (plain exampleTry) [] :=
  ⟨by simp [exampleTry, Tidy, Notifies, leaves], plain_fits (by decide) (by decide)⟩

/-! ## C20 -/

/-- **C20**. A body which nothing interrupts is executed exactly `max 1 L` times, where `L` is its number
of leaf sections: with fewer allowed executions the run is not finished, otherwise it is. -/
theorem C20_run_count [Run.MessageLimit] {cfg : Cfg} {t : TestCase} {tags : List Filter.ParsedTag} (hf : Fits cfg t tags)
    (hc : Always Calm t.body) (fuel : Nat) :
    (run cfg fuel t).isSome ↔ max 1 (leaves t.body.first) ≤ fuel := by
  obtain ⟨hstory, _⟩ := calm_story hc (topCtx t.loc) (passCount t.body.first) 0 [] rfl
  have h := run_story_any (fun n => calm_tidy (hc n)) hf.alike hf.sections hf.captures hf.tags fuel
  rw [hstory] at h
  simp only [passCount] at h
  constructor
  · intro hs
    by_cases hlt : max 1 (leaves t.body.first) ≤ fuel
    · exact hlt
    · rw [h.1 (by omega)] at hs; cases hs
  · intro hle
    obtain ⟨s, hs, _⟩ := h.2 hle
    rw [hs]; rfl

/-- **C20**. Whatever exceptions, aborts and skips do, the run of a tidy body ends after at most
`max 1 L` executions, without a failed assertion inside the framework. -/
theorem C20_terminates [Run.MessageLimit] {cfg : Cfg} {t : TestCase} {tags : List Filter.ParsedTag} (hf : Fits cfg t tags)
    (ht : Always Tidy t.body) {fuel : Nat} (hfuel : max 1 (leaves t.body.first) ≤ fuel) :
    ∃ s, run cfg fuel t = some (.ok s) := by
  obtain ⟨s, hs, _⟩ := C19_meaning hf ht hfuel
  exact ⟨s, hs⟩

/-- **C20**. The number of leaf sections is the number of executions specified by C19. -/
theorem C20_leaves (body : Prog) : (executions body).length = max 1 (leaves body) := by
  simp only [executions, orOutside_length, leafRuns_length]

open Defaults in
example : (run (defaults 0) 2 (plain exampleBody)).isSome = false ∧
    (run (defaults 0) 3 (plain exampleBody)).isSome = true := by
  have h := C20_run_count (cfg := defaults 0) (plain_fits (body := exampleBody) (by decide) (by decide))
    (plain_always (by simp [exampleBody, Calm, calmStmt]))
  have hl : leaves (plain exampleBody).body.first = 3 := by decide
  rw [hl] at h
  exact ⟨by have := h 2; simp at this; simp [this], by have := h 3; simpa using this⟩

/-! ## C21 -/

/-- **C21**. At verbosity high or full, every section of a body which nothing interrupts gives exactly
one start and one end event over all executions, nested like the sections; at lower verbosity there
are none. -/
theorem C21_section_events [Run.MessageLimit] {cfg : Cfg} {t : TestCase} {tags : List Filter.ParsedTag}
    (hf : Fits cfg t tags) (hc : Always Calm t.body) {fuel : Nat} (hfuel : max 1 (leaves t.body.first) ≤ fuel) :
    ∃ s, run cfg fuel t = some (.ok s) ∧
      sectionMarks s.log = if 2 ≤ cfg.verbosity then brackets t.body.first else [] := by
  obtain ⟨hstory, _⟩ := calm_story hc (topCtx t.loc) (passCount t.body.first) 0 [] rfl
  obtain ⟨s, h1, h2⟩ := (run_story_any (fun n => calm_tidy (hc n)) hf.alike hf.sections hf.captures hf.tags fuel).2 (by
    rw [hstory]; exact hfuel)
  refine ⟨s, h1, ?_⟩
  rw [sectionMarks_observed, h2, itemMarks_visible, (caseStory_acts t _).2, hstory]
  congr 1
  simp only [ending_marks, List.append_nil, List.nil_append]
  have hm := calm_marks (hc 0) (topCtx t.loc)
  rw [no_zero] at hm
  have hflat : ∀ l : List (List Item), itemMarks l.flatten = (l.map itemMarks).flatten := by
    intro l
    induction l with
    | nil => rfl
    | cons x l ih => simp [itemMarks_append, ih]
  unfold passItems
  rw [hflat, List.map_map, ← hm]
  by_cases hz : leaves t.body.first = 0
  · have hp := (calm_pass (hc 0) (topCtx t.loc) none).acts.2
    rw [no_zero] at hp
    simp [passCount, passNo, hz, hp, no_zero]
  · have : passCount t.body.first = leaves t.body.first := by unfold passCount; omega
    rw [this]
    congr 1
    apply List.map_congr_left
    intro i hi
    have hi : i < leaves t.body.first := by simpa using hi
    have hl := same_leaves (hf.alike i)
    have hl' : leaves (t.body.no i) = leaves t.body.first := hl
    simp only [Function.comp_def, passNo, if_neg (show ¬ leaves (t.body.no i) = 0 by omega)]
    rw [marks_sections (hc i) _ i (by omega), show t.body.first = t.body.no 0 from rfl, marks_sections (hc 0) _ i hi]
    exact congrArg (Sections.marks · i) (hf.alike i)

open Defaults in
example : ∃ s, run (defaults 2) 3 (plain exampleBody) = some (.ok s) ∧
    sectionMarks s.log = [(10, true), (11, true), (11, false), (12, true), (12, false), (10, false),
      (13, true), (13, false)] := by
  have h := C21_section_events (cfg := defaults 2) (plain_fits (body := exampleBody) (by decide) (by decide))
    (plain_always (by simp [exampleBody, Calm, calmStmt])) (fuel := 3) (by decide)
  exact h

/-- `try { S { a {} b { throw } c {} } } catch (...) { notify_exception_handled(); }` -/
def sectionsInTry : Prog :=
  .tryCatch none (.sec 1 1 (.sec 2 2 .done (.sec 3 3 (.stmt (.throw ⟨[], none, false⟩) .done)
    (.sec 4 4 .done .done))) .done) (.stmt .notify .done) .done

/-- `S { a { SKIP_CHECK } b {} }` -/
def skipCheckInSection : Prog :=
  .sec 1 1 (.sec 2 2 (.stmt (.skip 5 false []) .done) (.sec 3 3 .done .done)) .done

/-- `S { a {} b {} } REQUIRE(false);` -/
def abortAfterSection : Prog :=
  .sec 1 1 (.sec 2 2 .done (.sec 3 3 .done .done)) (.stmt (.check 5 (.val false) true []) .done)

open Defaults in
/-- **C21** fails when sections are inside a try block whose exception is handled by the test: the end of
the section is reported twice. -/
theorem C21_sections_in_try_block :
    ∃ s, run (defaults 2) 5 (plain sectionsInTry) = some (.ok s) ∧
      (sectionMarks s.log).count (1, true) = 1 ∧ (sectionMarks s.log).count (1, false) = 2 := by
  refine ⟨_, rfl, ?_, ?_⟩ <;> decide

open Defaults in
/-- **C21** fails with `SKIP_CHECK` in a section that has further siblings: the enclosing section is
started and never ended, though no exception escapes. -/
theorem C21_skip_check_leaves_section_open :
    ∃ s, run (defaults 2) 5 (plain skipCheckInSection) = some (.ok s) ∧
      sectionMarks s.log = [(1, true), (2, true), (2, false)] := by
  refine ⟨_, rfl, ?_⟩; decide

open Defaults in
/-- **C21**, **C22**: a test aborted after a section which has leaves left never reports the end of this
section (the section is not open at the place of the abort). -/
theorem C21_abort_after_unfinished_section :
    ∃ s, run (defaults 2) 5 (plain abortAfterSection) = some (.ok s) ∧
      sectionMarks s.log = [(1, true), (2, true), (2, false)] := by
  refine ⟨_, rfl, ?_⟩; decide

/-! ## C22 -/

/-- **C22**. Once a statement ends the test (failed `REQUIRE`, `FAIL`, `SKIP`, exception), nothing that
follows it in its block matters: two tests whose executions are the same, or the same until such a statement, run in the
same way. This holds for all tests, in particular for statements inside sections, try blocks and handlers. -/
theorem C22_rest_is_irrelevant [Run.MessageLimit] (cfg : Cfg) {b b' : Body}
    (h : ∀ n, b.no n = b'.no n ∨ ∃ m, endsTest m = true ∧ SameUntil m (b.no n) (b'.no n)) (fuel : Nat)
    (id : Filter.TestId) (loc : Nat) :
    run cfg fuel ⟨id, loc, b⟩ = run cfg fuel ⟨id, loc, b'⟩ := sameUntil_run h fuel id loc

/-- **C22**. If a statement at a place of the body ends the test, the body is not executed again (one
execution is enough), the user statements that are run are those before the place, and the sections
around the place are started in order and ended in reverse order; no other section is started. -/
theorem C22_abort_at [Run.MessageLimit] {cfg : Cfg} {t : TestCase} {tags : List Filter.ParsedTag} (hf : Fits cfg t tags)
    (ht : Always Tidy t.body) {fs : List Frame} {m : Stmt} {k : Prog} (hb : t.body.first = plug fs (.stmt m k))
    (hm : endsTest m = true) {fuel : Nat} (hfuel : 1 ≤ fuel) :
    ∃ s, run cfg fuel t = some (.ok s) ∧ userActs s.log = actsBefore fs ∧
      sectionMarks s.log = if 2 ≤ cfg.verbosity then
        (sectionsOf fs).map (fun id => (id, true)) ++
          (sectionsOf fs).reverse.map (fun id => (id, false)) else [] := by
  obtain ⟨e, a, hr⟩ := (endsTest_iff m (contextOf t.loc fs)).mp hm
  obtain ⟨post, hpost, hst⟩ := story_ends (pass_stmt m k) (hb ▸ ht 0) hr (bodies := t.body.no) hb
  rw [no_zero] at hst
  obtain ⟨p1, p2, _⟩ := hpost.quiet
  obtain ⟨s, h1, h2⟩ := (run_story_any ht hf.alike hf.sections hf.captures hf.tags fuel).2 (by
    rw [hst]; exact hfuel)
  refine ⟨s, h1, ?_, ?_⟩
  · rw [userActs_observed, h2, itemActs_visible, (caseStory_acts t _).1, hst]
    simp only [itemActs_append, passStmt_acts _ hm, itemsBefore_acts, p1, List.append_nil]
  · rw [sectionMarks_observed, h2, itemMarks_visible, (caseStory_acts t _).2, hst]
    simp only [itemMarks_append, passStmt_noMarks, itemsBefore_marks, p2, List.append_nil, ending_marks]
    have hp : a.path = sectionsOf fs := (passStmt_place hr).1
    rw [hp]

/-- **C22**. In general: if the executions before number `n` end normally without skipping the test, and
execution `n` ends with an exception, then there are exactly `n + 1` executions, and the log consists
of what they do and of the end: the failure for an unexpected exception and the ends of the sections
open at the place of the exception. -/
theorem C22_no_later_execution [Run.MessageLimit] {cfg : Cfg} {t : TestCase} {tags : List Filter.ParsedTag}
    (hf : Fits cfg t tags) (ht : Always Tidy t.body) (hsf : tags.contains .shouldFail = false)
    {n : Nat} (hn : n < passCount t.body.first) {l : List Item} {e : Exn} {a : Ctx}
    (hprev : ∀ i, i < n → (passNo (t.body.no i) (topCtx t.loc) i).2 = .normal ∧
      skipsTest (passItems t.body.no (topCtx t.loc) 0 (i + 1)) = false)
    (hlast : passNo (t.body.no n) (topCtx t.loc) n = (l, .raised e a)) (fuel : Nat) :
    (fuel ≤ n → run cfg fuel t = none) ∧
    (n < fuel → ∃ s, run cfg fuel t = some (.ok s) ∧
      s.log.filterMap observed = (effective (passItems t.body.no (topCtx t.loc) 0 n ++ l ++
        ending t.loc (.raised e a))).filter (Item.visible cfg.verbosity)) := by
  have hst := story_until t.body.no (topCtx t.loc) n (passCount t.body.first) 0 [] l (.raised e a) hn
    (by intro i hi; have := hprev i hi; rw [Nat.zero_add]; exact ⟨this.1, by simpa using this.2⟩)
    (by rw [Nat.zero_add]; exact hlast) (Or.inl (by simp))
  have h := run_story_any ht hf.alike hf.sections hf.captures hf.tags fuel
  rw [hst] at h
  refine ⟨fun hle => h.1 (by simp only; omega), fun hlt => ?_⟩
  obtain ⟨s, h1, h2⟩ := h.2 (by simp only; omega)
  refine ⟨s, h1, ?_⟩
  rw [h2]
  simp only [caseStory, hst, hsf, Bool.false_eq_true, if_false, List.append_nil, List.nil_append]

/-- `1; { CAPTURE(x); S { 2; T { REQUIRE(false); 3; } 4; } 5; } U { 6; }` -/
def exampleAbort : List Frame :=
  [.after 1, .inBlock (.sec 30 3 (.stmt (.act 6) .done) .done), .capture [['x']],
    .inSection 10 1 (.stmt (.act 5) .done), .after 2, .inSection 20 2 (.stmt (.act 4) .done)]

open Defaults in
example : ∃ s, run (defaults 3) 1 (plain (plug exampleAbort
      (.stmt (.check 9 (.val false) true []) (.stmt (.act 3) .done)))) = some (.ok s) ∧
    userActs s.log = [1, 2] ∧
    sectionMarks s.log = [(10, true), (20, true), (20, false), (10, false)] := by
  have h := C22_abort_at (cfg := defaults 3) (t := plain (plug exampleAbort
      (.stmt (.check 9 (.val false) true []) (.stmt (.act 3) .done)))) (fuel := 1)
    (plain_fits (by decide) (by decide)) (plain_always (by simp [plug, exampleAbort, Tidy])) rfl rfl (by decide)
  exact h

open Defaults in
/-- The second execution of `S { a {} b { throw } c {} }` ends the test. -/
example : let body := Prog.sec 1 1 (.sec 2 2 .done (.sec 3 3 (.stmt (.throw ⟨[], none, false⟩) .done)
      (.sec 4 4 .done .done))) .done
    1 < passCount body ∧ (passNo body (topCtx 1) 0).2 = .normal ∧
    skipsTest (passItems (fun _ => body) (topCtx 1) 0 1) = false ∧
    (passNo body (topCtx 1) 1).2 ≠ .normal := by decide

/-! ## C23 -/

/-- **C23**. A check in a body is reported with exactly the captures whose scope contains it, outermost
first, and with the sections around it (`fs` is what surrounds the check): the log is what happens
on the way to the check (which contains no assertion), then the event of this check, then the rest. -/
theorem C23_captures_of_check [Run.MessageLimit] {cfg : Cfg} {t : TestCase} {tags : List Filter.ParsedTag}
    (hf : Fits cfg t tags) (ht : Always Tidy t.body) {fs : List Frame} {loc : Nat} {ok abort : Bool}
    {data : Text} {k : Prog} (hb : t.body.first = plug fs (.stmt (.check loc (.val ok) abort data) k))
    (hv : ok = true → cfg.verbosity ≥ 3) {fuel : Nat} (hfuel : passCount t.body.first ≤ fuel) :
    ∃ s rest, run cfg fuel t = some (.ok s) ∧
      s.log.filterMap observed = (itemsBefore fs).filter (Item.visible cfg.verbosity) ++
        [.assertion ok { path := sectionsOf fs, caps := capturesOf fs, loc := loc, locType := .exact }
          data] ++ rest ∧ (itemsBefore fs).any Item.isAssertion = false := by
  obtain ⟨s, h1, h2⟩ := C19_meaning hf ht hfuel
  obtain ⟨post, h3, _⟩ := passNo_place (pass_stmt (.check loc (.val ok) abort data) k) fs (hb ▸ ht 0) t.loc
  obtain ⟨rest, h4⟩ := story_first t.body.no (topCtx t.loc)
  rw [no_zero, hb] at h4
  rw [h3] at h4
  obtain ⟨q1, q2⟩ := itemsBefore_quiet fs
  have hone : (itemsBefore fs ++
      (passStmt (contextOf t.loc fs) (.check loc (.val ok) abort data)).1).any Item.isSkip = false := by
    rw [List.any_append, q1]; rfl
  have hstory : ∃ r, caseStory t (tags.contains .shouldFail) = itemsBefore fs ++
      (passStmt (contextOf t.loc fs) (.check loc (.val ok) abort data)).1 ++ r := by
    obtain ⟨y, hy⟩ := caseStory_eq t (tags.contains .shouldFail)
    rw [hy, hb, h4]
    obtain ⟨r, hr, _⟩ := effective_append (l' := post ++ rest ++ y) hone
    refine ⟨r, ?_⟩
    rw [← hr]
    simp only [List.append_assoc]
  obtain ⟨r, hr⟩ := hstory
  refine ⟨s, r.filter (Item.visible cfg.verbosity), h1, ?_, q2⟩
  rw [h2, hr, List.filter_append, List.filter_append]
  congr 2
  simp only [passStmt, asserted, assertedAt, Ctx.exactly, contextOf]
  rw [List.filter_cons, if_pos]
  · rfl
  · simp only [Item.visible, Item.reported, Bool.true_and, Item.level]
    cases ok with
    | true => exact decide_eq_true (hv rfl)
    | false => simp

/-- **C23**. Captures are removed when their scope ends, normally or by an exception: after any piece of
a test body the captures (and the locations and open sections) are those before. -/
theorem C23_captures_restored [Run.MessageLimit] (cfg : Cfg) (fl : Bool) (K : Prog) {s s' : TS} {r : Res}
    (h : exec cfg fl K s = .ok (s', r)) :
    s'.info.captures = s.info.captures ∧ s'.info.locations = s.info.locations ∧
    s'.info.sections.current.map (·.id) = s.info.sections.current.map (·.id) := by
  have := exec_scope K h
  simp only [scope, Prod.mk.injEq] at this
  exact this

/-- **C23**. Adding more captures than allowed terminates the program. -/
theorem C23_too_many_captures [Run.MessageLimit] (cfg : Cfg) (fl : Bool) (caps : List Text) (k : Prog) (s : TS)
    (h0 : s.info.captures.length ≤ cfg.maxCaptures)
    (h : cfg.maxCaptures < s.info.captures.length + caps.length) :
    exec cfg fl (.capture caps k) s = .abort := by
  have key : ∀ (caps : List Text) (s : TS), s.info.captures.length ≤ cfg.maxCaptures →
      cfg.maxCaptures < s.info.captures.length + caps.length → addCaptures cfg fl caps s = .abort := by
    intro caps
    induction caps with
    | nil => intro s h0 h; simp only [List.length_nil] at h; omega
    | cons c caps ih =>
      intro s h0 h
      unfold addCaptures
      split
      · rfl
      · rename_i hlt
        have hl : (pushCapture c (arrive cfg fl s)).info.captures.length = s.info.captures.length + 1 := by
          simp [pushCapture, arrive_info]
        apply ih
        · rw [hl]; omega
        · rw [hl]; simp only [List.length_cons] at h; omega
  simp only [exec, key caps s h0 h]
  rfl

open Defaults in
example : ∃ s rest, run (defaults 3) 2 (plain (plug exampleAbort
      (.stmt (.check 9 (.val false) true ['d']) (.stmt (.act 3) .done)))) = some (.ok s) ∧
    s.log.filterMap observed = [.act 1, .enter 10 true, .act 2, .enter 20 true] ++
      [.assertion false ⟨[10, 20], [['x']], 9, .exact⟩ ['d']] ++ rest ∧
    (itemsBefore exampleAbort).any Item.isAssertion = false := by
  have h := C23_captures_of_check (cfg := defaults 3) (t := plain (plug exampleAbort
      (.stmt (.check 9 (.val false) true ['d']) (.stmt (.act 3) .done)))) (fuel := 2)
    (plain_fits (by decide) (by decide)) (plain_always (by simp [plug, exampleAbort, Tidy])) rfl
    (by decide) (by decide)
  exact h

open Defaults in
example : exec (defaults 0) false (.capture (List.replicate 9 ['x']) .done) {} = .abort :=
  C23_too_many_captures _ _ _ _ _ (by decide) (by decide)

/-! ## C48 -/

/-- A body with a place where an exception is thrown that is not an abort. -/
theorem thrown_log [Run.MessageLimit] {cfg : Cfg} {t : TestCase} {tags : List Filter.ParsedTag}
    (hf : Fits cfg t tags) (ht : Always Tidy t.body) (hsf : tags.contains .shouldFail = false)
    {fs : List Frame} {e : Exn} {a : Ctx} {P k : Prog} {y : Ctx → List Item × Exit}
    (hy : ∀ c w, pass P c w = andThen (y c) (pass k c w)) (hb : t.body.first = plug fs P)
    (hr : (y (contextOf t.loc fs)).2 = .raised e a) (hq : (y (contextOf t.loc fs)).1.any Item.isSkip = false)
    (he : e.isAbort = false) {fuel : Nat} (hfuel : 1 ≤ fuel) :
    ∃ s, run cfg fuel t = some (.ok s) ∧
      s.log.filterMap observed = (itemsBefore fs ++ (y (contextOf t.loc fs)).1 ++
        [Item.assertion false a (unexpectedMessage e)] ++
        a.path.reverse.map fun id => Item.leave id true).filter (Item.visible cfg.verbosity) := by
  obtain ⟨post, hpost, hst⟩ := story_ends hy (hb ▸ ht 0) hr (bodies := t.body.no) hb
  rw [no_zero] at hst
  obtain ⟨_, _, p3, p4⟩ := hpost.quiet
  obtain ⟨s, h1, h2⟩ := (run_story_any ht hf.alike hf.sections hf.captures hf.tags fuel).2 (by
    rw [hst]; exact hfuel)
  refine ⟨s, h1, ?_⟩
  rw [h2]
  simp only [caseStory, hst, hsf, Bool.false_eq_true, if_false, List.append_nil, ending, he]
  rw [effective_none]
  · simp only [List.append_assoc, List.filter_append, p4, List.nil_append]
  · have : ∀ l : List Nat, (l.map fun id => Item.leave id true).any Item.isSkip = false := by
      intro l
      induction l with
      | nil => rfl
      | cons x l ih => simp [Item.isSkip]
    simp only [List.any_append, (itemsBefore_quiet fs).1, hq, p3, this]
    rfl

/-- **C48**. An exception thrown by the code of a test and caught by nobody is reported as one failure
whose sections, captures and location are those of the place where it was thrown, though the stack
has been unwound when it is reported; then the ends of the sections follow. -/
theorem C48_place_of_exception [Run.MessageLimit] {cfg : Cfg} {t : TestCase} {tags : List Filter.ParsedTag}
    (hf : Fits cfg t tags) (ht : Always Tidy t.body) (hsf : tags.contains .shouldFail = false)
    {fs : List Frame} {e : Exn} {k : Prog} (hb : t.body.first = plug fs (.stmt (.throw e) k))
    (he : e.isAbort = false) {fuel : Nat} (hfuel : 1 ≤ fuel) :
    ∃ s, run cfg fuel t = some (.ok s) ∧
      s.log.filterMap observed = (itemsBefore fs ++
        [Item.assertion false (contextOf t.loc fs) (unexpectedMessage e)] ++
        (sectionsOf fs).reverse.map fun id => Item.leave id true).filter (Item.visible cfg.verbosity) := by
  have h := thrown_log hf ht hsf (pass_stmt (.throw e) k) hb rfl rfl he hfuel
  simp only [passStmt, List.append_nil] at h
  exact h

/-- **C48**. The same for an exception thrown while the expression of a check is evaluated: the
location is that of the check. -/
theorem C48_place_of_exception_in_check [Run.MessageLimit] {cfg : Cfg} {t : TestCase} {tags : List Filter.ParsedTag}
    (hf : Fits cfg t tags) (ht : Always Tidy t.body) (hsf : tags.contains .shouldFail = false)
    {fs : List Frame} {e : Exn} {loc : Nat} {abort : Bool} {data : Text} {k : Prog}
    (hb : t.body.first = plug fs (.stmt (.check loc (.exc e) abort data) k))
    (he : e.isAbort = false) {fuel : Nat} (hfuel : 1 ≤ fuel) :
    ∃ s, run cfg fuel t = some (.ok s) ∧
      s.log.filterMap observed = (itemsBefore fs ++
        [Item.assertion false ⟨sectionsOf fs, capturesOf fs, loc, .inCheck⟩ (unexpectedMessage e)] ++
        (sectionsOf fs).reverse.map fun id => Item.leave id true).filter (Item.visible cfg.verbosity) := by
  obtain ⟨s, h1, h2⟩ := thrown_log hf ht hsf (pass_stmt (.check loc (.exc e) abort data) k) hb rfl rfl he hfuel
  refine ⟨s, h1, h2.trans ?_⟩
  simp only [List.filter_append]
  simp only [passStmt, Ctx.inside, contextOf]
  rw [show [Item.interrupted loc].filter (Item.visible cfg.verbosity) = [] from rfl, List.append_nil]

open Defaults in
example : ∃ s, run (defaults 3) 1 (plain (plug exampleAbort
      (.stmt (.throw ⟨[], some ['w'], false⟩) .done))) = some (.ok s) ∧
    s.log.filterMap observed = [.act 1, .enter 10 true, .act 2, .enter 20 true,
      .assertion false ⟨[10, 20], [['x']], 2, .sectionScope⟩ (unexpectedMessage ⟨[], some ['w'], false⟩),
      .leave 20 true, .leave 10 true] := by
  have h := C48_place_of_exception (cfg := defaults 3) (t := plain (plug exampleAbort
      (.stmt (.throw ⟨[], some ['w'], false⟩) .done))) (fuel := 1)
    (plain_fits (by decide) (by decide)) (plain_always (by simp [plug, exampleAbort, Tidy])) rfl rfl rfl
    (by decide)
  exact h

/-- `try { CAPTURE(x); throw 1; } catch (...) {}  throw 2;` without `notify_exception_handled`. -/
def staleHeld : Prog :=
  .tryCatch none (.capture [['x']] (.stmt (.throw ⟨[], none, false⟩) .done)) .done
    (.stmt (.throw ⟨[], none, false⟩) .done)

open Defaults in
/-- **C48** needs that handlers notify the framework: otherwise the failure is reported with the captures
of the handled exception. -/
theorem C48_needs_notification :
    ∃ s, run (defaults 0) 1 (plain staleHeld) = some (.ok s) ∧
      s.log.filterMap (fun e => match e with | .assertionFailed c _ _ _ => some c.caps | _ => none) =
        [[['x']]] := by
  refine ⟨_, rfl, ?_⟩; decide

/-! ## C86 -/

/-- **C86** (partial: missing are tests whose executions reach different sections, where the claim is false). If each execution of
a test ends and reaches the same sections, running the test ends, whatever else the executions do; and if nothing interrupts
it, each leaf section has been executed. -/
theorem C86_ends_partial [Run.MessageLimit] {cfg : Cfg} {t : TestCase} {tags : List Filter.ParsedTag} (hf : Fits cfg t tags)
    (ht : Always Tidy t.body) {fuel : Nat} (hfuel : passCount t.body.first ≤ fuel) :
    ∃ s, run cfg fuel t = some (.ok s) ∧ (Always Calm t.body → userActs s.log = (runsOf t.body).flatten) := by
  obtain ⟨s, h1, _⟩ := C19_meaning hf ht hfuel
  refine ⟨s, h1, fun hc => ?_⟩
  obtain ⟨s', h1', h2⟩ := C19_executions hf hc (by rw [runsOf_length]; exact hfuel)
  rw [h1] at h1'
  cases h1'
  exact h2

open Defaults in
example : ∃ s, run (defaults 1) 2 dependent = some (.ok s) ∧
    (Always Calm dependent.body → userActs s.log = [5, 1, 6, 2]) :=
  C86_ends_partial (dependent_fits 1) (fun n => calm_tidy (dependent_calm n)) (by decide)

/-- **C86**. The executions of a test do what it says, in turn, where the last one is repeated. -/
theorem C86_in_turn (p : Prog) (qs : List Prog) (n : Nat) : Body.no ⟨p, qs⟩ n = inTurn p qs n := by
  induction qs generalizing p n with
  | nil => cases n <;> rfl
  | cons q qs ih =>
    cases n with
    | zero => rfl
    | succ n =>
      rw [inTurn, ← ih]
      simp only [Body.no, List.getElem?_cons_succ]
      cases qs with
      | nil => cases n <;> rfl
      | cons r rs => rfl

/-- `static int n = 0; SECTION("a") {} if (n++ == 0) { SECTION("b") {} }`: the second section is reached in the first
execution only. -/
def vanishingSection : TestCase := { plain .done with
  body := { first := .sec 1 1 .done (.sec 2 2 .done .done), later := [.sec 1 1 .done .done] } }

/-- The state in which the later executions of this test leave it. -/
private def idle : TS := { initState (defaults 3) vanishingSection [] with
  info := { locations := [(1, .testCaseScope)], sections := { levels := [{ cur := 1, prev := 1, max := 2 }] } }
  log := [.caseStarted vanishingSection.id, .sectionStarted 1, .sectionEnded 1 false 0 0 0] }

open Defaults in
/-- **C86** (violated). A test with a section which is reached in its first
execution only is executed over and over again, without end and without doing anything. -/
theorem C86_vanishing_section_never_ends (v fuel : Nat) : run (defaults v) fuel vanishingSection = none := by
  have hno : ∀ n, vanishingSection.body.no (n + 1) = .sec 1 1 .done .done := by
    intro n
    cases n <;> rfl
  have hidle : exec (defaults 3) false (.sec 1 1 .done .done) (resetPass idle) = .ok (idle, .normal) := rfl
  have hloop : ∀ fuel n, runLoop (defaults 3) vanishingSection.body.no fuel (n + 1) idle = none := by
    intro fuel
    induction fuel with
    | zero => intro n; rfl
    | succ f ih =>
      intro n
      rw [runLoop, hno, hidle]
      exact ih (n + 1)
  rw [run_hide]
  have h3 : run (full (defaults v)) fuel vanishingSection = none := by
    show run (defaults 3) fuel vanishingSection = none
    have hstart : runLoop (defaults 3) vanishingSection.body.no fuel 0 (initState (defaults 3) vanishingSection []) =
        none := by
      match fuel with
      | 0 => rfl
      | 1 => rfl
      | f + 2 =>
        show runLoop (defaults 3) vanishingSection.body.no f 2 idle = none
        exact hloop f 1
    unfold run
    rw [show Filter.forEachTag (defaults 3).maxTag vanishingSection.id.tags = .ok [] from rfl]
    dsimp only
    rw [hstart]
  rw [h3]
  rfl

/-- Two sections that change places after the first execution. -/
def swappedSections : TestCase := { plain .done with
  body := { first := .sec 1 1 (.stmt (.act 1) .done) (.sec 2 2 (.stmt (.act 2) .done) .done)
            later := [.sec 2 2 (.stmt (.act 2) .done) (.sec 1 1 (.stmt (.act 1) .done) .done)] } }

open Defaults in
/-- **C86** (violated). A section is found again by its position and not by its name: of two sections that change places, the
first is executed twice and the second never. -/
theorem C86_swapped_sections : ∃ s, run (defaults 3) 2 swappedSections = some (.ok s) ∧ userActs s.log = [1, 1] :=
  ⟨_, rfl, by decide⟩

end Verif.Props
