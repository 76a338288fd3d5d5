import Verif.Lemmas.Registry
import Verif.Lemmas.Filter
import Verif.Props.Accounting
import Verif.Props.Filter
import Verif.Props.Cli
/-!
# C18, C22 (following tests), C29, C46, C49: the registry
-/
namespace Verif.Props
open Verif Verif.Reg Verif.Reg.Spec

/-! ## C46 -/

/-- **C46**. Any sequence of registrations keeps all tests, in order, each not run yet, provided that
there is room for them and every full name fits (and is not empty); otherwise it ends in the assertion
handler. -/
theorem C46_register [Run.MessageLimit] (lim : Limits) (ts : List Run.TestCase) (cases : List Case)
    (h : cases.length ≤ lim.maxTests) :
    addAll lim ts cases =
      if cases.length + ts.length ≤ lim.maxTests ∧ ∀ t ∈ ts, Registrable lim.maxName t then
        .ok (cases ++ ts.map fun t => { test := t, state := .notRun })
      else .abort := by
  induction ts generalizing cases with
  | nil => rw [if_pos ⟨by simpa using h, by simp⟩]; simp [addAll]
  | cons t ts ih =>
    have hname : (Filter.makeFullName lim.maxName t.id).isEmpty = false ↔ Registrable lim.maxName t := by
      rw [makeFullName_eq]
      unfold Registrable
      by_cases hl : (fullName t.id).length ≤ lim.maxName
      · rw [if_pos hl]; simp only [hl, and_true]; cases fullName t.id <;> simp
      · rw [if_neg hl]; simp [hl]
    rw [addAll, addImpl]
    by_cases hfull : cases.length = lim.maxTests
    · rw [if_pos hfull, if_neg (by simp; omega)]; rfl
    · rw [if_neg hfull]
      by_cases hr : Registrable lim.maxName t
      · dsimp only
        rw [hname.mpr hr, if_neg (by decide), Outcome.bind_ok, ih _ (by simp; omega)]
        have e : (cases ++ [({ test := t } : Case)]).length + ts.length =
            cases.length + (t :: ts).length := by simp; omega
        rw [e]
        by_cases hc : cases.length + (t :: ts).length ≤ lim.maxTests ∧
            ∀ t ∈ ts, Registrable lim.maxName t
        · rw [if_pos hc, if_pos ⟨hc.1, by intro x hx; rcases List.mem_cons.mp hx with rfl | hx
                                          · exact hr
                                          · exact hc.2 x hx⟩]
          simp
        · rw [if_neg hc, if_neg fun h' => hc ⟨h'.1, fun x hx => h'.2 x (List.mem_cons_of_mem _ hx)⟩]
      · have : (Filter.makeFullName lim.maxName t.id).isEmpty = true := by
          cases hx : (Filter.makeFullName lim.maxName t.id).isEmpty with
          | true => rfl
          | false => exact absurd (hname.mp hx) hr
        dsimp only
        rw [this, if_pos rfl, if_neg fun h' => hr (h'.2 t (by simp))]
        rfl

/-- **C46** for typed tests: one test per type, in order, carrying the name of the type. -/
theorem C46_register_types [Run.MessageLimit] (lim : Limits) (name tags : Text) (loc : Nat)
    (types : List (Text × Run.Prog)) (cases : List Case)
    (h : cases.length + types.length ≤ lim.maxTests)
    (hn : ∀ p ∈ types, Registrable lim.maxName ⟨⟨name, tags, p.1⟩, loc, p.2⟩) :
    addWithTypes lim name tags loc types cases =
      .ok (cases ++ types.map fun p => { test := ⟨⟨name, tags, p.1⟩, loc, p.2⟩, state := .notRun }) := by
  rw [addWithTypes, C46_register _ _ _ (by omega), if_pos]
  · rw [List.map_map]; rfl
  · refine ⟨by simpa using h, ?_⟩
    intro t ht
    obtain ⟨p, hp, rfl⟩ := List.mem_map.mp ht
    exact hn p hp

/-- The default limits (CMakeLists.txt 6-18). -/
def defaultLimits (v : Nat) : Limits :=
  { maxTests := 5000, maxName := 1024, maxUniqueTags := 1024, cfg := defaults v }

/-- A test with a name, tags and a body. -/
def mkTest (name tags : String) (body : Run.Prog) : Run.TestCase :=
  ⟨⟨name.toList, tags.toList, []⟩, 1, body⟩

example : Registrable 1024 (mkTest "a" "" .done) ∧
    ¬ Registrable 1024 (mkTest "" "" .done) ∧ ¬ Registrable 2 (mkTest "abc" "" .done) := by decide
/-- The second test does not fit: the assertion handler is called. -/
example : addAll { defaultLimits 3 with maxTests := 1 }
    [mkTest "a" "" .done, mkTest "b" "" .done] [] = .abort := by rfl

/-! ## C29 -/

/-- **C29**, **C22**. A run of the registry runs exactly the selected tests, once each, in registration
order, each exactly as if it were run alone, whatever happened in the tests before it; the events are
the events of these runs between one start and one end event (shown from verbosity *normal* on), and the
end event carries the sums over the tests run. The run is a success if and only if no test ended as
failed. -/
theorem C29_run [Run.MessageLimit] {lim : Limits} {fuel : Nat} {pred : Filter.TestId → Outcome Bool} {cases cases' : List Case}
    {log : List Run.Event} {success : Bool}
    (h : runSelected lim fuel pred cases = some (.ok (cases', log, success))) :
    ∃ rs : List Run.TS,
      (cases.filter fun c => decide (pred c.test.id = .ok true)).map
        (fun c => Run.run lim.cfg fuel c.test) = rs.map (fun r => some (.ok r)) ∧
      (lim.cfg.verbosity ≥ 1 → log = [.runStarted] ++ rs.flatMap (·.log) ++
        [.runEnded rs.length (count .failed rs) (count .allowedFail rs) (count .skipped rs)
          (total (·.asserts) rs) (total (·.failures) rs) (total (·.allowed) rs) success]) ∧
      (lim.cfg.verbosity = 0 → log = rs.flatMap (·.log)) ∧
      (success = true ↔ ∀ r ∈ rs, r.state ≠ .failed) ∧
      rs.length = count .success rs + count .failed rs + count .allowedFail rs + count .skipped rs ∧
      cases'.map (·.test) = cases.map (·.test) ∧
      (cases'.filter fun c => decide (pred c.test.id = .ok true)).map (·.state) = rs.map (·.state) ∧
      (cases'.filter fun c => !decide (pred c.test.id = .ok true)) =
        cases.filter fun c => !decide (pred c.test.id = .ok true) := by
  unfold runSelected at h
  cases hr : runEach lim fuel pred cases { log := Reg.shown lim 1 .runStarted } with
  | none => rw [hr] at h; cases h
  | some o =>
    rw [hr] at h
    cases o with
    | abort => cases h
    | ub => cases h
    | ok acc =>
      cases h
      obtain ⟨rs, _, h2, h3, h4, h5⟩ := runEach_ok hr
      rw [totals_eq] at h4
      have hnr : ∀ r ∈ rs, r.state ≠ .notRun := by
        intro r hr
        have : some (.ok r) ∈ (cases.filter (picks pred)).map fun c => Run.run lim.cfg fuel c.test := by
          rw [h2]; exact List.mem_map.mpr ⟨r, hr, rfl⟩
        obtain ⟨c, _, hc⟩ := List.mem_map.mp this
        exact (C26_failed_iff_failures hc).1
      have hset : ∀ (cs : List Case) (rs : List Run.TS), (cs.filter (picks pred)).length = rs.length →
          (settled (picks pred) cs rs).map (·.test) = cs.map (·.test) ∧
          ((settled (picks pred) cs rs).filter (picks pred)).map (·.state) = rs.map (·.state) ∧
          (settled (picks pred) cs rs).filter (fun c => !picks pred c) =
            cs.filter fun c => !picks pred c := by
        intro cs
        induction cs with
        | nil =>
          intro rs hl
          cases rs with
          | nil => exact ⟨rfl, rfl, rfl⟩
          | cons r rs => simp at hl
        | cons c cs ih =>
          intro rs hl
          cases hp : picks pred c with
          | false =>
            rw [List.filter_cons, hp] at hl
            have hs : settled (picks pred) (c :: cs) rs = c :: settled (picks pred) cs rs := by
              cases rs <;> simp [settled, hp]
            obtain ⟨a1, a2, a3⟩ := ih rs (by simpa using hl)
            rw [hs]
            refine ⟨by simp [a1], ?_, ?_⟩
            · rw [List.filter_cons, hp]; exact a2
            · rw [List.filter_cons, List.filter_cons, hp, a3]
          | true =>
            rw [List.filter_cons, hp] at hl
            cases rs with
            | nil => simp at hl
            | cons r rs =>
              have hs : settled (picks pred) (c :: cs) (r :: rs) =
                  { c with state := r.state } :: settled (picks pred) cs rs := by
                simp [settled, hp]
              obtain ⟨a1, a2, a3⟩ := ih rs (by simpa using hl)
              have hp' : picks pred { c with state := r.state } = true := hp
              rw [hs]
              refine ⟨by simp [a1], ?_, ?_⟩
              · rw [List.filter_cons, hp', if_pos rfl, List.map_cons, a2, List.map_cons]
              · rw [List.filter_cons, List.filter_cons, hp', hp, a3]; rfl
      have hlen : (cases.filter (picks pred)).length = rs.length := by
        have := congrArg List.length h2
        simpa using this
      obtain ⟨s1, s2, s3⟩ := hset cases rs hlen
      have h5 : acc.cases = settled (picks pred) cases rs := by simpa using h5
      refine ⟨rs, h2, ?_, ?_, ?_, count_partition rs hnr, ?_, ?_, ?_⟩
      · intro hv
        rw [h3, h4]
        simp [Reg.shown, hv, Totals.event]
      · intro hv
        rw [h3]
        simp [Reg.shown, hv]
      · rw [h4]
        simp
      · rw [h5]; exact s1
      · rw [h5]; exact s2
      · rw [h5]; exact s3

/-- **C29**. The other way round: if the selection of every test is decided and every selected test runs
to its end, so does the run. -/
theorem C29_run_ends [Run.MessageLimit] {lim : Limits} {fuel : Nat} {pred : Filter.TestId → Outcome Bool} {cases : List Case}
    (hp : ∀ c ∈ cases, ∃ b, pred c.test.id = .ok b)
    (hr : ∀ c ∈ cases, pred c.test.id = .ok true → ∃ r, Run.run lim.cfg fuel c.test = some (.ok r)) :
    ∃ x, runSelected lim fuel pred cases = some (.ok x) := by
  obtain ⟨rs, hrs⟩ : ∃ rs : List Run.TS, (cases.filter (picks pred)).map
      (fun c => Run.run lim.cfg fuel c.test) = rs.map (fun r => some (.ok r)) := by
    clear hp
    induction cases with
    | nil => exact ⟨[], rfl⟩
    | cons c cs ih =>
      obtain ⟨rs, hrs⟩ := ih fun d hd => hr d (List.mem_cons_of_mem _ hd)
      cases hpk : picks pred c with
      | false => exact ⟨rs, by rw [List.filter_cons, hpk]; exact hrs⟩
      | true =>
        obtain ⟨r, h⟩ := hr c (by simp) (by simpa [picks] using hpk)
        exact ⟨r :: rs, by rw [List.filter_cons, hpk, if_pos rfl, List.map_cons, h, hrs, List.map_cons]⟩
  obtain ⟨acc, h⟩ := runEach_of (acc := { log := Reg.shown lim 1 .runStarted }) hp hrs
  exact ⟨_, by rw [runSelected, h]⟩

/-- **C29** in terms of the events: at every verbosity, the run is a success if and only if no failure was
reported that was neither expected nor allowed. -/
theorem C29_success_iff_no_failure [Run.MessageLimit] {lim : Limits} {fuel : Nat} {pred : Filter.TestId → Outcome Bool}
    {cases cases' : List Case} {log : List Run.Event} {success : Bool}
    (h : runSelected lim fuel pred cases = some (.ok (cases', log, success))) :
    success = true ↔ ∀ e ∈ log, isRealFailure e = false := by
  obtain ⟨rs, h1, h2, h3, h4, _⟩ := C29_run h
  rw [h4]
  have hrun : ∀ r ∈ rs, ∃ t, Run.run lim.cfg fuel t = some (.ok r) := by
    intro r hr
    have : some (.ok r) ∈ (cases.filter fun c => decide (pred c.test.id = .ok true)).map
        fun c => Run.run lim.cfg fuel c.test := by
      rw [h1]; exact List.mem_map.mpr ⟨r, hr, rfl⟩
    obtain ⟨c, _, hc⟩ := List.mem_map.mp this
    exact ⟨_, hc⟩
  have hst : ∀ r ∈ rs, r.state ≠ .failed ↔ ∀ e ∈ r.log, isRealFailure e = false := by
    intro r hr
    obtain ⟨t, ht⟩ := hrun r hr
    rw [Ne, C26_failed_iff_reported ht]
    simp
  have hlog : (∀ e ∈ log, isRealFailure e = false) ↔ ∀ e ∈ rs.flatMap (·.log), isRealFailure e = false := by
    rcases Nat.eq_zero_or_pos lim.cfg.verbosity with hv | hv
    · rw [h3 hv]
    · rw [h2 hv]
      constructor
      · intro hall e he
        exact hall e (by simp only [List.mem_append]; exact .inl (.inr he))
      · intro hall e he
        simp only [List.mem_append, List.mem_singleton] at he
        rcases he with (rfl | he) | rfl
        · rfl
        · exact hall e he
        · rfl
  rw [hlog]
  constructor
  · intro hall e he
    obtain ⟨r, hr, he⟩ := List.mem_flatMap.mp he
    exact (hst r hr).mp (hall r hr) e he
  · intro hall r hr
    exact (hst r hr).mpr fun e he => hall e (List.mem_flatMap.mpr ⟨r, hr, he⟩)

/-! ## C18 -/

theorem selectForRun_filters {filters : List Text} (h : filters ≠ []) (maxTag maxName : Nat) :
    Filter.selectForRun maxTag maxName filters = Filter.selectWithFilters maxTag maxName filters := by
  funext id
  rw [Filter.selectForRun, if_neg (by simpa using h)]

/-- **C18**. With filters, `--list-tests` lists exactly the tests that the filters select, in
registration order, between one start and one end event, and leaves the registry as it is; a run with
the same filters runs exactly the same tests. -/
theorem C18_list_and_run [Run.MessageLimit] {lim : Limits} {filters : List Text} {cases : List Case} (fuel : Nat)
    (hne : filters ≠ []) (tags : Case → List Text)
    (ht : ∀ c ∈ cases, Tagged lim.cfg.maxTag c.test.id (tags c))
    (hn : ∀ c ∈ cases, Registrable lim.maxName c.test) :
    ∃ sel : Case → Bool,
      (∀ c ∈ cases, sel c = true ↔ Verif.Spec.Selected filters ⟨fullName c.test.id, tags c⟩) ∧
      runOrList lim fuel true filters cases = some (.ok (cases,
        [.listStarted] ++ (cases.filter sel).map (fun c => .listed c.test.id) ++ [.listEnded], true)) ∧
      ∀ cases' out b, runOrList lim fuel false filters cases = some (.ok (cases', out, b)) →
        ∃ rs : List Run.TS, (cases.filter sel).map (fun c => Run.run lim.cfg fuel c.test) =
            rs.map (fun r => some (.ok r)) ∧
          ∃ first last, out = first ++ (rs.flatMap (·.log)).map .event ++ last := by
  have hpred : ∀ c ∈ cases, ∃ b, Filter.selectWithFilters lim.cfg.maxTag lim.maxName filters c.test.id =
      .ok b ∧ (b = true ↔ Verif.Spec.Selected filters ⟨fullName c.test.id, tags c⟩) := by
    intro c hc
    obtain ⟨h1, h2, h3⟩ := ht c hc
    obtain ⟨b, e, v⟩ := C16_selection lim.cfg.maxTag lim.maxName filters c.test.id (tags c) h1 h2 h3
    rw [selectForRun_filters hne] at e
    rw [makeFullName_eq, if_pos (hn c hc).2] at v
    exact ⟨b, e, v⟩
  refine ⟨picks (Filter.selectWithFilters lim.cfg.maxTag lim.maxName filters), ?_, ?_, ?_⟩
  · intro c hc
    obtain ⟨b, e, v⟩ := hpred c hc
    rw [← v]
    simp [picks, e]
  · have hb : filters.isEmpty = false := by cases filters <;> simp_all
    rw [runOrList, hb, if_neg (by decide)]
    simp only [if_true, afterListing, listTests]
    rw [listLoop_of fun c hc => (hpred c hc).imp fun b h => h.1]
    rfl
  · intro cases' out b h
    have hb : filters.isEmpty = false := by cases filters <;> simp_all
    rw [runOrList, hb, if_neg (by decide)] at h
    simp only [Bool.false_eq_true, if_false, afterRun] at h
    cases hr : runSelected lim fuel (Filter.selectWithFilters lim.cfg.maxTag lim.maxName filters) cases with
    | none => rw [hr] at h; cases h
    | some o =>
      rw [hr] at h
      cases o with
      | abort => cases h
      | ub => cases h
      | ok x =>
        obtain ⟨cs, log, su⟩ := x
        cases h
        obtain ⟨rs, a1, a2, a3, _⟩ := C29_run hr
        refine ⟨rs, a1, ?_⟩
        by_cases hv : lim.cfg.verbosity = 0
        · exact ⟨[], [], by rw [a3 hv]; simp⟩
        · rw [a2 (by omega)]
          exact ⟨[.event .runStarted], [.event _], by rw [List.map_append, List.map_append]; rfl⟩

/-- **C18**. Without filters, `--list-tests` lists all tests (hidden ones too). -/
theorem C18_list_all [Run.MessageLimit] (lim : Limits) (fuel : Nat) (cases : List Case) :
    runOrList lim fuel true [] cases = some (.ok (cases,
      [.listStarted] ++ cases.map (fun c => .listed c.test.id) ++ [.listEnded], true)) := by
  rw [runOrList]
  simp only [List.isEmpty_nil, if_true, afterListing, listAllTests, listTests]
  rw [listLoop_of fun c _ => ⟨true, rfl⟩]
  have : cases.filter (picks fun _ => .ok true) = cases := by
    rw [List.filter_eq_self]; intro c _; rfl
  rw [this]
  rfl

/-- **C18**. `--list-tests-with-tag` lists exactly the tests whose tags are accepted by every group of
the given (non-empty) tag expression. -/
theorem C18_list_with_tag [Run.MessageLimit] {lim : Limits} {tag : Text} {cases : List Case} (hne : tag ≠ [])
    (tags : Case → List Text) (ht : ∀ c ∈ cases, Tagged lim.cfg.maxTag c.test.id (tags c)) :
    ∃ sel : Case → Bool,
      (∀ c ∈ cases, sel c = true ↔ ∀ g ∈ Verif.Spec.tagGroups tag,
        Verif.Spec.Accepts g (Verif.Spec.visibleTags (tags c))) ∧
      listTestsWithTag lim tag cases = .ok ([.listStarted] ++
        (cases.filter sel).map (fun c => .listed c.test.id) ++ [.listEnded]) := by
  have hpred : ∀ c ∈ cases, ∃ b, (do return (← Filter.matchTags lim.cfg.maxTag c.test.id.tags tag).included) =
      Outcome.ok b ∧ (b = true ↔ ∀ g ∈ Verif.Spec.tagGroups tag,
        Verif.Spec.Accepts g (Verif.Spec.visibleTags (tags c))) := by
    intro c hc
    obtain ⟨h1, h2, h3⟩ := ht c hc
    obtain ⟨r, e, v⟩ := Filter.matchTagsLoop_verdict (Filter.shows_tagString h2 h3) (tag.length + 1) tag none True False
      (Nat.lt_succ_self _) hne (.inl ⟨rfl, trivial, id⟩)
    refine ⟨r.included, ?_, by rw [v.1]; simp⟩
    rw [Filter.matchTags, h1, e]
    rfl
  refine ⟨picks fun id => do return (← Filter.matchTags lim.cfg.maxTag id.tags tag).included, ?_, ?_⟩
  · intro c hc
    obtain ⟨b, e, v⟩ := hpred c hc
    rw [← v]
    simp only [picks, e]
    simp
  · rw [listTestsWithTag, listTests, listLoop_of fun c hc => (hpred c hc).imp fun b h => h.1]
    rfl

/-- Three tests: an ordinary one, a hidden one, a tagged one which fails. -/
def threeTests : List Case :=
  [ { test := mkTest "first" "" .done }, { test := mkTest "second" "[.slow][db]" .done },
    { test := mkTest "third" "[db]" (.stmt (.check 2 (.val false) false "x".toList) .done) } ]

/-- The tags of these tests. -/
def threeTags (c : Case) : List Text :=
  if c.test.id.tags = [] then [] else if c.test.id.tags = "[db]".toList then ["db".toList]
  else [".slow".toList, "db".toList]

example : (∀ c ∈ threeTests, Tagged 256 c.test.id (threeTags c)) ∧
    (∀ c ∈ threeTests, Registrable 1024 c.test) := by
  simp only [threeTests, List.forall_mem_cons]
  refine ⟨⟨⟨by decide, ?_, ?_⟩, ⟨by decide, ?_, ?_⟩, ⟨by decide, ?_, ?_⟩, by simp⟩,
    by decide, by decide, by decide, by simp⟩
  all_goals simp [threeTags, mkTest, Verif.Spec.TagOk, Verif.Spec.Hides]
open Defaults in
example : runOrList (defaultLimits 1) 5 true ["[db]".toList] threeTests = some (.ok (threeTests,
    [.listStarted, .listed ⟨"second".toList, "[.slow][db]".toList, []⟩,
      .listed ⟨"third".toList, "[db]".toList, []⟩, .listEnded], true)) := by rfl
open Defaults in
/-- A run in which one of the two selected tests fails. -/
example : (match runSelected (defaultLimits 1) 5 (Filter.selectDefault 256) threeTests with
    | some (.ok (_, log, b)) => some (log.getLast?, b)
    | _ => none) = some (some (.runEnded 2 1 0 0 3 1 0 false), false) := by rfl

/-! ## The whole program -/

/-- The options that ask for a list (or help) instead of a run. -/
def listing : List Text :=
  ["--help", "--list-tests-with-tag", "--list-tags", "--list-reporters", "--list-tests"].map String.toList

theorem getOption_isSome {input : Cli.Input} {ts : List Cli.Spec.Token}
    (hl : ∀ name, name ≠ [] → (Cli.getOption input name).map (fun a => (a.name, a.value)) =
      (Cli.Spec.optionsOf ts).find? fun p => p.1 == name) (name : Text) (hne : name ≠ []) :
    (Cli.getOption input name).isSome = true ↔ name ∈ Cli.Spec.optionNames ts := by
  have h1 : (Cli.getOption input name).isSome =
      ((Cli.Spec.optionsOf ts).find? fun p => p.1 == name).isSome := by
    rw [← hl name hne]; simp
  rw [h1, List.find?_isSome]
  have h2 : Cli.Spec.optionNames ts = (Cli.Spec.optionsOf ts).map Prod.fst := by
    clear hl h1
    induction ts with
    | nil => rfl
    | cons t ts ih =>
      cases t with
      | positional v => exact ih
      | unknown v => exact ih
      | option l v => exact congrArg (l :: ·) ih
  rw [h2]
  simp [List.mem_map]

theorem getOption_eq_none {input : Cli.Input} {name : Text}
    (h : ¬ (Cli.getOption input name).isSome = true) : Cli.getOption input name = none := by
  cases hx : Cli.getOption input name with
  | none => rfl
  | some a => rw [hx] at h; exact absurd rfl h

theorem filtersOf_eq {input : Cli.Input} {ps : List Text}
    (h1 : Cli.positionals "test regex".toList input.arguments = .ok ps)
    (h2 : (Cli.getPositional input "test regex".toList).isSome ↔ ps ≠ []) : filtersOf input = .ok ps := by
  rw [filtersOf]
  by_cases h : (Cli.getPositional input "test regex".toList).isSome = true
  · rw [if_pos h]; exact h1
  · rw [if_neg h]
    have : ps = [] := by
      cases ps with
      | nil => rfl
      | cons p ps => exact absurd (h2.mpr (by simp)) h
    rw [this]

/-- **C29**. The exit status of the program. It is 1 for a bad command line; for a command line asking
for help or a list it is 0; otherwise exactly the tests selected by the positional arguments are run, and
it is 0 if and only if none of them ends as failed. (`v` is the verbosity asked for, or what the chosen
reporter makes of it.) -/
theorem C29_exit_status [Run.MessageLimit] {lim : Limits} {fuel maxArgs : Nat} {reporters : List Text}
    {init : Nat → Nat → Nat} {config : Cli.Config}
    {argv0 : Text} {argv : List Text} {cases : List Case} {code : Nat} {out : List Out}
    (hlen : argv.length ≤ maxArgs)
    (h : main lim fuel maxArgs reporters init config argv0 argv cases = some (.ok (code, out))) :
    (¬ Cli.Spec.WellFormed argv → code = 1 ∧ out = [.help]) ∧
    (∀ ts, Cli.Spec.tokens argv = some ts → (Cli.Spec.optionNames ts).Nodup →
      ((∃ l ∈ listing, l ∈ Cli.Spec.optionNames ts) → code = 0) ∧
      ((∀ l ∈ listing, l ∉ Cli.Spec.optionNames ts) → ∃ v, ∃ rs : List Run.TS,
        (cases.filter fun c => decide (Filter.selectForRun lim.cfg.maxTag lim.maxName
            (Cli.Spec.positionalsOf ts) c.test.id = .ok true)).map
          (fun c => Run.run { lim.cfg with verbosity := v } fuel c.test) =
            rs.map (fun r => some (.ok r)) ∧
        (∃ asked, asked = (Cli.Spec.verbosityOf (Cli.Spec.given "--verbosity" ts)).getD config.verbosity ∧
          (v = asked ∨ ∃ i, v = init i asked)) ∧
        (code = 0 ∨ code = 1) ∧ (code = 0 ↔ ∀ r ∈ rs, r.state ≠ .failed))) := by
  unfold main at h
  obtain ⟨color, msgs, r, hp, hwf, _⟩ := C31_parse (maxArgs := maxArgs) config.withColor argv0 hlen
  rw [hp] at h
  cases r with
  | none =>
    cases h
    have hnw : ¬ Cli.Spec.WellFormed argv := fun hw => by have := hwf.mpr hw; cases this
    exact ⟨fun _ => ⟨rfl, rfl⟩, fun ts ht hn => absurd ⟨ts, ht, hn⟩ hnw⟩
  | some input =>
    refine ⟨fun hnw => absurd (hwf.mp rfl) hnw, ?_⟩
    intro ts ht hn
    obtain ⟨ts', ht', hl, hpos, hpos'⟩ := C31_lookup hlen hp
    rw [ht] at ht'
    cases ht'
    dsimp only at h
    obtain ⟨config', hc⟩ := C32_total reporters config (C32_values_present hlen hp)
    have hverb := (C32_configure (C32_values_present hlen hp) hc).2.1
    rw [hc] at h
    dsimp only at h
    have hopt := getOption_isSome hl
    generalize hlim : ({ lim with cfg := { lim.cfg with verbosity := verbosityFor init config' } } : Limits) = lim'
      at h
    cases hrun : runTests lim' fuel reporters input cases with
    | none => rw [hrun] at h; cases h
    | some o =>
      rw [hrun] at h
      cases o with
      | abort => cases h
      | ub => cases h
      | ok x =>
        obtain ⟨cs, out', success⟩ := x
        cases h
        have hlist : ∀ (o : Outcome (List Out)) , afterListing cases o = some (.ok (cs, out', success)) →
            success = true := by
          intro o ho
          cases o with
          | abort => cases ho
          | ub => cases ho
          | ok l => cases ho; rfl
        have hval : Cli.Spec.given "--verbosity" ts = valueOf input "--verbosity" := by
          rw [Cli.Spec.given, ← hl _ (by decide), valueOf]
          cases Cli.getOption input "--verbosity".toList <;> rfl
        unfold runTests at hrun
        by_cases o1 : (Cli.getOption input "--help".toList).isSome = true
        · rw [if_pos o1] at hrun
          cases hrun
          exact ⟨fun _ => rfl, fun hno => absurd ((hopt _ (by decide)).mp o1) (hno _ (by decide))⟩
        rw [if_neg o1] at hrun
        by_cases o2 : (Cli.getOption input "--list-tests-with-tag".toList).isSome = true
        · obtain ⟨a, ha⟩ := Option.isSome_iff_exists.mp o2
          obtain ⟨v, hv⟩ := Option.isSome_iff_exists.mp
            (C32_values_present hlen hp "--list-tests-with-tag" (by simp) a ha)
          simp only [ha, hv] at hrun
          have hs := hlist _ hrun
          subst hs
          exact ⟨fun _ => rfl, fun hno => absurd ((hopt _ (by decide)).mp o2) (hno _ (by decide))⟩
        rw [getOption_eq_none o2] at hrun
        dsimp only at hrun
        by_cases o3 : (Cli.getOption input "--list-tags".toList).isSome = true
        · rw [if_pos o3] at hrun
          have hs := hlist _ hrun
          subst hs
          exact ⟨fun _ => rfl, fun hno => absurd ((hopt _ (by decide)).mp o3) (hno _ (by decide))⟩
        rw [if_neg o3] at hrun
        by_cases o4 : (Cli.getOption input "--list-reporters".toList).isSome = true
        · rw [if_pos o4] at hrun
          cases hrun
          exact ⟨fun _ => rfl, fun hno => absurd ((hopt _ (by decide)).mp o4) (hno _ (by decide))⟩
        rw [if_neg o4, filtersOf_eq hpos hpos'] at hrun
        dsimp only at hrun
        by_cases o5 : (Cli.getOption input "--list-tests".toList).isSome = true
        · rw [o5, runOrList] at hrun
          simp only [if_true] at hrun
          have hs : success = true := by
            split at hrun <;> exact hlist _ hrun
          subst hs
          exact ⟨fun _ => rfl, fun hno => absurd ((hopt _ (by decide)).mp o5) (hno _ (by decide))⟩
        · have o5' : (Cli.getOption input "--list-tests".toList).isSome = false := by simpa using o5
          rw [o5'] at hrun
          have hsel : ∃ cs' log, runSelected lim' fuel (Filter.selectForRun lim.cfg.maxTag lim.maxName
              (Cli.Spec.positionalsOf ts)) cases = some (.ok (cs', log, success)) := by
            have hm : lim'.cfg.maxTag = lim.cfg.maxTag := by rw [← hlim]
            have hm' : lim'.maxName = lim.maxName := by rw [← hlim]
            have key : ∀ pred, afterRun (runSelected lim' fuel pred cases) =
                some (.ok (cs, out', success)) → ∃ cs' log, runSelected lim' fuel pred cases =
                  some (.ok (cs', log, success)) := by
              intro pred hx
              cases hr : runSelected lim' fuel pred cases with
              | none => rw [hr] at hx; cases hx
              | some o =>
                rw [hr] at hx
                cases o with
                | abort => cases hx
                | ub => cases hx
                | ok y =>
                  obtain ⟨a, b, c⟩ := y
                  cases hx
                  exact ⟨_, _, rfl⟩
            rw [runOrList] at hrun
            simp only [Bool.false_eq_true, if_false] at hrun
            rw [← hm, ← hm']
            by_cases hne : Cli.Spec.positionalsOf ts = []
            · rw [hne] at hrun ⊢
              have : Filter.selectForRun lim'.cfg.maxTag lim'.maxName [] =
                Filter.selectDefault lim'.cfg.maxTag := rfl
              rw [this]
              exact key _ hrun
            · rw [if_neg (by simpa using hne)] at hrun
              rw [selectForRun_filters hne]
              exact key _ hrun
          obtain ⟨cs', log, hsel⟩ := hsel
          obtain ⟨rs, r1, _, _, r4, _⟩ := C29_run hsel
          constructor
          · rintro ⟨l, hll, hlo⟩
            exfalso
            have hln : l ≠ [] := by
              have : ∀ l ∈ listing, l ≠ [] := by decide
              exact this l hll
            have hg := (hopt l hln).mpr hlo
            have hmem : l = "--help".toList ∨ l = "--list-tests-with-tag".toList ∨
                l = "--list-tags".toList ∨ l = "--list-reporters".toList ∨ l = "--list-tests".toList := by
              simpa [listing] using hll
            rcases hmem with rfl | rfl | rfl | rfl | rfl
            · exact o1 hg
            · exact o2 hg
            · exact o3 hg
            · exact o4 hg
            · exact o5 hg
          · intro _
            refine ⟨verbosityFor init config', rs, ?_, ⟨config'.verbosity, by rw [hverb, hval], ?_⟩, ?_, ?_⟩
            · rw [← hlim] at r1; exact r1
            · unfold verbosityFor
              cases config'.reporter with
              | none => exact .inl rfl
              | some x => exact .inr ⟨x.1, rfl⟩
            · cases success
              · exact .inr rfl
              · exact .inl rfl
            · rw [← r4]
              cases success <;> simp

set_option maxRecDepth 20000 in
open Defaults in
example : (main (defaultLimits 1) 5 1024 [] (fun _ v => v) (initialConfig true) "p".toList
    (["-v", "quiet", "~third"].map String.toList) threeTests) = some (.ok (0, [])) := by rfl
set_option maxRecDepth 20000 in
open Defaults in
example : (match main (defaultLimits 1) 5 1024 [] (fun _ v => v) (initialConfig true) "p".toList [] threeTests with
    | some (.ok (code, _)) => some code | _ => none) = some 1 := by rfl

/-! ## C49 -/

/-- The tags used by the tests of a registry. -/
def usedTags (tags : Case → List Text) (cases : List Case) : List Text :=
  cases.flatMap fun c => Verif.Spec.visibleTags (tags c)

/-- Adding texts to a list without repetitions. -/
private def union (l tags : List Text) : List Text :=
  l.foldl (fun acc t => if acc.contains t then acc else acc ++ [t]) tags

private theorem union_mem : ∀ (l tags : List Text) (x : Text), x ∈ union l tags ↔ x ∈ tags ∨ x ∈ l := by
  intro l
  induction l with
  | nil => intro tags x; simp [union]
  | cons t l ih =>
    intro tags x
    have e : union (t :: l) tags = union l (if tags.contains t then tags else tags ++ [t]) := rfl
    rw [e, ih]
    by_cases h : tags.contains t = true
    · rw [if_pos h]
      have hm : t ∈ tags := by simpa using h
      constructor
      · rintro (h | h)
        · exact .inl h
        · exact .inr (List.mem_cons_of_mem _ h)
      · rintro (h | h)
        · exact .inl h
        · rcases List.mem_cons.mp h with rfl | h
          · exact .inl hm
          · exact .inr h
    · rw [if_neg h]; simp [or_assoc]

private theorem union_nodup : ∀ (l tags : List Text), tags.Nodup → (union l tags).Nodup := by
  intro l
  induction l with
  | nil => intro tags h; exact h
  | cons t l ih =>
    intro tags h
    have e : union (t :: l) tags = union l (if tags.contains t then tags else tags ++ [t]) := rfl
    rw [e]
    apply ih
    by_cases hc : tags.contains t = true
    · rw [if_pos hc]; exact h
    · rw [if_neg hc]
      rw [List.nodup_append]
      refine ⟨h, by simp, ?_⟩
      rintro a ha b hb rfl
      exact hc (by simpa using (List.mem_singleton.mp hb) ▸ ha)

private theorem union_length : ∀ (l tags : List Text), tags.length ≤ (union l tags).length := by
  intro l
  induction l with
  | nil => intro tags; exact Nat.le_refl _
  | cons t l ih =>
    intro tags
    have e : union (t :: l) tags = union l (if tags.contains t then tags else tags ++ [t]) := rfl
    rw [e]
    refine Nat.le_trans ?_ (ih _)
    split <;> simp

private theorem storeTags_union (m : Nat) : ∀ (l tags : List Text), tags.length ≤ m →
    storeTags m (l.map fun t => (t, false)) tags =
      if (union l tags).length ≤ m then .ok (union l tags) else .abort := by
  intro l
  induction l with
  | nil => intro tags h; exact (if_pos h).symm
  | cons t l ih =>
    intro tags h
    have e : union (t :: l) tags = union l (if tags.contains t then tags else tags ++ [t]) := rfl
    rw [e, List.map_cons, storeTags, storeTag]
    by_cases hc : tags.contains t = true
    · rw [if_pos hc, if_pos hc, Outcome.bind_ok]; exact ih tags h
    · rw [if_neg hc, if_neg hc]
      by_cases hf : tags.length = m
      · rw [if_pos hf, if_neg]
        · rfl
        · have := union_length l (tags ++ [t])
          simp at this; omega
      · rw [if_neg hf]
        exact ih (tags ++ [t]) (by simp; omega)

private theorem storeTags_append (m : Nat) : ∀ (a b : List (Text × Bool)) (tags : List Text),
    storeTags m (a ++ b) tags = storeTags m a tags >>= storeTags m b := by
  intro a
  induction a with
  | nil => intro b tags; rfl
  | cons v a ih =>
    intro b tags
    rw [List.cons_append, storeTags, storeTags]
    cases storeTag m tags v with
    | abort => rfl
    | ub => rfl
    | ok x => exact ih b x

/-- No test uses the short form `[.x]` of `[.][x]`. -/
def NoShorthand (ts : List Text) : Prop := ∀ t ∈ ts, Verif.Spec.Hides t → t = ['.']

theorem tagViews_plain {maxTag : Nat} {t : Text} (h : Verif.Spec.Hides t → t = ['.']) :
    tagViews maxTag (Verif.Spec.bracket t) = .ok [(Verif.Spec.bracket t, false)] := by
  unfold tagViews
  by_cases h1 : Verif.Spec.bracket t = "[.]".toList
  · rw [if_pos h1]
  · rw [if_neg h1, if_neg]
    intro h2
    apply h1
    have : t = ['.'] := by
      apply h
      cases t with
      | nil => simp [Verif.Spec.bracket] at h2
      | cons c t =>
        simp [Verif.Spec.bracket] at h2
        simp [Verif.Spec.Hides, ← h2]
    rw [this]; rfl

private theorem visibleTags_plain {ts : List Text} (h : NoShorthand ts) :
    Verif.Spec.visibleTags ts = ts.map Verif.Spec.bracket := by
  have : ts.flatMap Verif.Spec.ordinary = ts := by
    induction ts with
    | nil => rfl
    | cons t ts ih =>
      rw [List.flatMap_cons, ih fun x hx => h x (List.mem_cons_of_mem _ hx)]
      have : Verif.Spec.ordinary t = [t] := by
        unfold Verif.Spec.ordinary
        split
        · rename_i c x
          have := h _ (by simp : '.' :: c :: x ∈ ('.' :: c :: x) :: ts) rfl
          cases this
        · rfl
      rw [this]; rfl
  rw [Verif.Spec.visibleTags, this]

private theorem collectTags_eq {lim : Limits} {tags : Case → List Text} : ∀ (cases : List Case)
    (acc : List Text), (∀ c ∈ cases, Tagged lim.cfg.maxTag c.test.id (tags c)) →
    (∀ c ∈ cases, NoShorthand (tags c)) →
    collectTags lim cases acc =
      storeTags lim.maxUniqueTags ((usedTags tags cases).map fun t => (t, false)) acc := by
  intro cases
  induction cases with
  | nil => intro acc _ _; rfl
  | cons c cs ih =>
    intro acc h1 h2
    obtain ⟨t1, t2, _⟩ := h1 c (by simp)
    have hraw : ∀ (ts acc : List Text), NoShorthand ts →
        storeRaw lim (ts.map Verif.Spec.bracket) acc =
          storeTags lim.maxUniqueTags ((ts.map Verif.Spec.bracket).map fun t => (t, false)) acc := by
      intro ts
      induction ts with
      | nil => intro acc _; rfl
      | cons t ts ih =>
        intro acc h
        rw [List.map_cons, storeRaw, tagViews_plain (h t (by simp)), List.map_cons, Outcome.bind_ok,
          storeTags, storeTags]
        cases storeTag lim.maxUniqueTags acc (Verif.Spec.bracket t, false) with
        | abort => rfl
        | ub => rfl
        | ok x => exact ih x fun y hy => h y (List.mem_cons_of_mem _ hy)
    have e : usedTags tags (c :: cs) = Verif.Spec.visibleTags (tags c) ++ usedTags tags cs := rfl
    rw [e, List.map_append, storeTags_append, collectTags, t1, C13_raw_tags _ t2, Outcome.bind_ok,
      hraw _ _ (h2 c (by simp)), visibleTags_plain (h2 c (by simp))]
    cases storeTags lim.maxUniqueTags (((tags c).map Verif.Spec.bracket).map fun t => (t, false)) acc with
    | abort => rfl
    | ub => rfl
    | ok x =>
      exact ih x (fun d hd => h1 d (List.mem_cons_of_mem _ hd))
        fun d hd => h2 d (List.mem_cons_of_mem _ hd)

private theorem sort_tags (l : List Text) :
    (l.mergeSort textLe).Pairwise (· ≤ ·) ∧ (l.mergeSort textLe).Perm l := by
  refine ⟨?_, List.mergeSort_perm _ _⟩
  have := List.pairwise_mergeSort (le := textLe)
    (fun a b c h1 h2 => by
      simp only [textLe, decide_eq_true_eq] at *; exact List.le_trans h1 h2)
    (fun a b => by
      simp only [textLe, Bool.or_eq_true, decide_eq_true_eq]; exact List.le_total a b) l
  exact this.imp fun h => by simpa [textLe] using h

/-- **C49**. If no test uses the short form `[.x]`: the tags are listed each exactly once, in
lexicographic order, one per line (between an additional pair of brackets), if there is room for them;
otherwise the assertion handler is called. `used` is any list of the tags in use without repetitions.
Partial: with the short form the behaviour is undefined, see `C49_shorthand_undefined`. -/
theorem C49_list_tags_partial {lim : Limits} {cases : List Case} (tags : Case → List Text)
    (h1 : ∀ c ∈ cases, Tagged lim.cfg.maxTag c.test.id (tags c))
    (h2 : ∀ c ∈ cases, NoShorthand (tags c)) {used : List Text} (hd : used.Nodup)
    (hu : ∀ x, x ∈ used ↔ ∃ c ∈ cases, x ∈ Verif.Spec.visibleTags (tags c)) :
    (used.length ≤ lim.maxUniqueTags → ∃ l : List Text, l.Nodup ∧ l.Pairwise (· ≤ ·) ∧
      (∀ x, x ∈ l ↔ x ∈ used) ∧
      listAllTags lim cases = .ok (l.map fun t => .line (['['] ++ t ++ [']']))) ∧
    (lim.maxUniqueTags < used.length → listAllTags lim cases = .abort) := by
  have hmem : ∀ x, x ∈ union (usedTags tags cases) [] ↔ x ∈ used := by
    intro x
    rw [union_mem, hu]
    simp [usedTags, List.mem_flatMap]
  have hnd := union_nodup (usedTags tags cases) [] List.nodup_nil
  have hperm : (union (usedTags tags cases) []).Perm used :=
    (List.perm_ext_iff_of_nodup hnd hd).mpr hmem
  rw [listAllTags, collectTags_eq cases [] h1 h2, storeTags_union _ _ _ (Nat.zero_le _), hperm.length_eq]
  constructor
  · intro hl
    rw [if_pos hl]
    obtain ⟨s1, s2⟩ := sort_tags (union (usedTags tags cases) [])
    exact ⟨_, s2.nodup_iff.mpr hnd, s1, fun x => (s2.mem_iff).trans (hmem x), rfl⟩
  · intro hl
    rw [if_neg (by omega)]
    rfl

/-- A sorted list without repetitions is determined by its members: the order in which the tags are
printed does not depend on the sorting algorithm. -/
theorem C49_unique {l m : List Text} (hl : l.Nodup) (hm : m.Nodup) (sl : l.Pairwise (· ≤ ·))
    (sm : m.Pairwise (· ≤ ·)) (h : ∀ x, x ∈ l ↔ x ∈ m) : l = m :=
  ((List.perm_ext_iff_of_nodup hl hm).mpr h).eq_of_pairwise
    (fun _ _ _ _ h1 h2 => List.le_antisymm h1 h2) sl sm

/-- **C49** fails for tests using the short form: a view of a local buffer is kept. -/
theorem C49_shorthand_undefined :
    listAllTags (defaultLimits 1) [{ test := mkTest "a" "[.slow]" .done }] = .ub := by rfl

/-- The tags a written tag adds to the list; `true`: as a view of a buffer that is gone when the list is read. -/
def tagUses (t : Text) : List (Text × Bool) :=
  match t with
  | '.' :: c :: x => [(Verif.Spec.bracket ['.'], false), (Verif.Spec.bracket (c :: x), true)]
  | t => [(Verif.Spec.bracket t, false)]

/-- The tags of all tests in the order they are seen. -/
def allUses (tags : Case → List Text) (cases : List Case) : List (Text × Bool) :=
  cases.flatMap fun c => (tags c).flatMap tagUses

/-- Every `x` of a short form `.x` has been seen before as a tag of its own. -/
def SeenBefore (uses : List (Text × Bool)) : Prop :=
  ∀ before x after, uses = before ++ (x, true) :: after → x ∈ before.map (·.1)

theorem tagViews_uses {maxTag : Nat} {t : Text} (h : Verif.Spec.Hides t → t.length + 1 ≤ maxTag) :
    tagViews maxTag (Verif.Spec.bracket t) = .ok (tagUses t) := by
  by_cases hs : ∃ c x, t = '.' :: c :: x
  · obtain ⟨c, x, rfl⟩ := hs
    have hl := h rfl
    have e1 : Verif.Spec.bracket ('.' :: c :: x) ≠ "[.]".toList := by
      intro e
      have := congrArg List.length e
      simp [Verif.Spec.bracket] at this
    have e2 : ['[', '.'].isPrefixOf (Verif.Spec.bracket ('.' :: c :: x)) = true := by
      simp [Verif.Spec.bracket, List.isPrefixOf]
    rw [tagViews, if_neg e1, if_pos e2]
    dsimp only
    rw [if_pos]
    · rfl
    · simp only [Verif.Spec.bracket, List.length_cons, List.drop_succ_cons, List.cons_append, List.drop_zero,
        List.length_append, List.length_nil] at hl ⊢
      omega
  · have hp : Verif.Spec.Hides t → t = ['.'] := by
      intro hh
      cases t with
      | nil => cases hh
      | cons a t =>
        have ha : a = '.' := by simpa [Verif.Spec.Hides] using hh
        subst ha
        cases t with
        | nil => rfl
        | cons c x => exact absurd ⟨c, x, rfl⟩ hs
    rw [tagViews_plain hp]
    unfold tagUses
    split
    · exact absurd ⟨_, _, rfl⟩ hs
    · rfl

private theorem tagUses_visible (t : Text) : (tagUses t).map (·.1) = (Verif.Spec.ordinary t).map Verif.Spec.bracket := by
  unfold tagUses Verif.Spec.ordinary
  split
  · rfl
  · split
    · rename_i h
      exact (h _ _ rfl).elim
    · rfl

private theorem allUses_visible (tags : Case → List Text) (cases : List Case) :
    (allUses tags cases).map (·.1) = usedTags tags cases := by
  unfold allUses usedTags Verif.Spec.visibleTags
  rw [List.map_flatMap]
  congr 1
  funext c
  rw [List.map_flatMap, List.map_flatMap]
  congr 1
  funext t
  exact tagUses_visible t

private theorem collectTags_uses {lim : Limits} {tags : Case → List Text} : ∀ (cases : List Case)
    (acc : List Text), (∀ c ∈ cases, Tagged lim.cfg.maxTag c.test.id (tags c)) →
    collectTags lim cases acc = storeTags lim.maxUniqueTags (allUses tags cases) acc := by
  intro cases
  induction cases with
  | nil => intro acc _; rfl
  | cons c cs ih =>
    intro acc h1
    obtain ⟨t1, t2, t3⟩ := h1 c (by simp)
    have hraw : ∀ (ts acc : List Text), (∀ t ∈ ts, Verif.Spec.Hides t → t.length + 1 ≤ lim.cfg.maxTag) →
        storeRaw lim (ts.map Verif.Spec.bracket) acc = storeTags lim.maxUniqueTags (ts.flatMap tagUses) acc := by
      intro ts
      induction ts with
      | nil => intro acc _; rfl
      | cons t ts ih =>
        intro acc h
        rw [List.map_cons, storeRaw, tagViews_uses (h t (by simp)), List.flatMap_cons, Outcome.bind_ok,
          storeTags_append]
        cases storeTags lim.maxUniqueTags (tagUses t) acc with
        | abort => rfl
        | ub => rfl
        | ok x => exact ih x fun y hy => h y (List.mem_cons_of_mem _ hy)
    have e : allUses tags (c :: cs) = (tags c).flatMap tagUses ++ allUses tags cs := rfl
    rw [e, storeTags_append, collectTags, t1, C13_raw_tags _ t2, Outcome.bind_ok, hraw _ _ t3]
    cases storeTags lim.maxUniqueTags ((tags c).flatMap tagUses) acc with
    | abort => rfl
    | ub => rfl
    | ok x => exact ih x fun d hd => h1 d (List.mem_cons_of_mem _ hd)

/-- `SeenBefore`, with tags seen already. -/
private def Known (acc : List Text) (uses : List (Text × Bool)) : Prop :=
  ∀ before x after, uses = before ++ (x, true) :: after → x ∈ acc ∨ x ∈ before.map (·.1)

private theorem known_cons {acc : List Text} {x : Text} {b : Bool} {l : List (Text × Bool)} :
    Known acc ((x, b) :: l) ↔ (b = true → x ∈ acc) ∧ Known (if acc.contains x then acc else acc ++ [x]) l := by
  have hm : ∀ y, y ∈ (if acc.contains x then acc else acc ++ [x]) ↔ y ∈ acc ∨ y = x := by
    intro y
    split
    · rename_i h
      have := List.contains_iff_mem.mp h
      constructor
      · exact Or.inl
      · rintro (h | rfl)
        · exact h
        · exact this
    · simp
  constructor
  · intro h
    refine ⟨fun hb => ?_, ?_⟩
    · subst hb
      exact (h [] x l rfl).resolve_right (by simp)
    · intro before y after e
      subst e
      rw [hm]
      rcases h ((x, b) :: before) y after rfl with h | h
      · exact Or.inl (Or.inl h)
      · rw [List.map_cons] at h
        rcases List.mem_cons.1 h with h | h
        · exact Or.inl (Or.inr h)
        · exact Or.inr h
  · rintro ⟨h1, h2⟩ before y after e
    cases before with
    | nil =>
      injection e with e1 e2
      injection e1 with e1 e3
      subst e1
      exact Or.inl (h1 e3)
    | cons z before =>
      injection e with e1 e2
      subst e1
      rcases h2 before y after e2 with h | h
      · rcases (hm y).1 h with h | rfl
        · exact Or.inl h
        · exact Or.inr (by simp)
      · exact Or.inr (by simp [h])

private theorem storeTags_uses (m : Nat) : ∀ (l : List (Text × Bool)) (acc : List Text), acc.length ≤ m →
    (Known acc l → storeTags m l acc =
      if (union (l.map (·.1)) acc).length ≤ m then .ok (union (l.map (·.1)) acc) else .abort) ∧
    (¬ Known acc l → storeTags m l acc = .ub ∨ m < (union (l.map (·.1)) acc).length ∧ storeTags m l acc = .abort) := by
  intro l
  induction l with
  | nil =>
    intro acc h
    exact ⟨fun _ => (if_pos h).symm, fun k => absurd (fun b x a e => by cases b <;> cases e) k⟩
  | cons v l ih =>
    obtain ⟨x, b⟩ := v
    intro acc h
    have e : union (((x, b) :: l).map (·.1)) acc = union (l.map (·.1)) (if acc.contains x then acc else acc ++ [x]) := rfl
    rw [e, storeTags, storeTag, known_cons]
    dsimp only
    by_cases hc : acc.contains x = true
    · simp only [if_pos hc, Outcome.bind_ok]
      have hm : b = true → x ∈ acc := fun _ => List.contains_iff_mem.mp hc
      refine ⟨fun k => (ih acc h).1 k.2, fun k => (ih acc h).2 fun k' => k ⟨hm, k'⟩⟩
    · simp only [if_neg hc]
      have hm : x ∉ acc := fun hm => hc (List.contains_iff_mem.mpr hm)
      by_cases hf : acc.length = m
      · have hlt : m < (union (l.map (·.1)) (acc ++ [x])).length := by
          have := union_length (l.map (·.1)) (acc ++ [x])
          simp at this
          omega
        rw [if_pos hf]
        exact ⟨fun _ => (if_neg (by omega)).symm, fun _ => Or.inr ⟨hlt, rfl⟩⟩
      · rw [if_neg hf]
        cases b with
        | true => exact ⟨fun k => absurd (k.1 rfl) hm, fun _ => Or.inl rfl⟩
        | false =>
          have := ih (acc ++ [x]) (by simp; omega)
          refine ⟨fun k => this.1 k.2, fun k => this.2 fun k' => k ⟨(fun h => by cases h), k'⟩⟩

/-- **C49** (short forms). With short forms `[.x]`: if every such `x` is a tag of its own somewhere before (of an earlier test, or
further left in the same test), the tags are listed as they should be, `[.x]` giving `[.]` and `[x]`, and too many are refused.
Otherwise the list is never right: the behaviour is undefined, or there are too many tags and the assertion handler is called.
Partial: in the latter case the tags should be listed. -/
theorem C49_shorthand_partial {lim : Limits} {cases : List Case} (tags : Case → List Text)
    (h1 : ∀ c ∈ cases, Tagged lim.cfg.maxTag c.test.id (tags c)) {used : List Text} (hd : used.Nodup)
    (hu : ∀ x, x ∈ used ↔ ∃ c ∈ cases, x ∈ Verif.Spec.visibleTags (tags c)) :
    (SeenBefore (allUses tags cases) →
      (used.length ≤ lim.maxUniqueTags → ∃ l : List Text, l.Nodup ∧ l.Pairwise (· ≤ ·) ∧ (∀ x, x ∈ l ↔ x ∈ used) ∧
        listAllTags lim cases = .ok (l.map fun t => .line (['['] ++ t ++ [']']))) ∧
      (lim.maxUniqueTags < used.length → listAllTags lim cases = .abort)) ∧
    (¬ SeenBefore (allUses tags cases) →
      listAllTags lim cases = .ub ∨ lim.maxUniqueTags < used.length ∧ listAllTags lim cases = .abort) := by
  have hmem : ∀ x, x ∈ union (usedTags tags cases) [] ↔ x ∈ used := by
    intro x
    rw [union_mem, hu]
    simp [usedTags, List.mem_flatMap]
  have hnd := union_nodup (usedTags tags cases) [] List.nodup_nil
  have hperm : (union (usedTags tags cases) []).Perm used :=
    (List.perm_ext_iff_of_nodup hnd hd).mpr hmem
  have hk : SeenBefore (allUses tags cases) ↔ Known [] (allUses tags cases) := by
    unfold SeenBefore Known
    simp
  obtain ⟨s1, s2⟩ := storeTags_uses lim.maxUniqueTags (allUses tags cases) [] (Nat.zero_le _)
  rw [allUses_visible, hperm.length_eq] at s1 s2
  rw [hk, listAllTags, collectTags_uses cases [] h1]
  refine ⟨fun k => ?_, fun k => ?_⟩
  · rw [s1 k]
    constructor
    · intro hl
      rw [if_pos hl]
      obtain ⟨s1, s2⟩ := sort_tags (union (usedTags tags cases) [])
      exact ⟨_, s2.nodup_iff.mpr hnd, s1, fun x => (s2.mem_iff).trans (hmem x), rfl⟩
    · intro hl
      rw [if_neg (by omega)]
      rfl
  · rcases s2 k with h | ⟨h, h'⟩
    · exact Or.inl (by rw [h]; rfl)
    · exact Or.inr ⟨h, by rw [h']; rfl⟩

/-- Without short forms there is nothing to be seen before. -/
theorem seenBefore_plain {tags : Case → List Text} {cases : List Case} (h : ∀ c ∈ cases, NoShorthand (tags c)) :
    SeenBefore (allUses tags cases) := by
  intro before x after e
  have hm : (x, true) ∈ allUses tags cases := by rw [e]; simp
  obtain ⟨c, hc, hm⟩ := List.mem_flatMap.1 hm
  obtain ⟨t, ht, hm⟩ := List.mem_flatMap.1 hm
  unfold tagUses at hm
  split at hm
  · have := h c hc _ ht rfl
    cases this
  · simp at hm

/-- The tag `slow` is seen before its short form: the tags are listed. -/
example : listAllTags (defaultLimits 1) [{ test := mkTest "b" "[slow][.slow]" .done }] =
    .ok (["[[.]]", "[[slow]]"].map fun s => .line s.toList) := by
  have hs : SeenBefore (allUses (fun _ => ["slow".toList, ".slow".toList]) [{ test := mkTest "b" "[slow][.slow]" .done }]) := by
    intro before x after e
    have e' : [("[slow]".toList, false), ("[.]".toList, false), ("[slow]".toList, true)] = before ++ (x, true) :: after := e
    match before, e' with
    | [], e' => cases e'
    | [_], e' => cases e'
    | [_, _], e' => cases e'; decide
    | [_, _, _], e' => cases e'
    | _ :: _ :: _ :: _ :: _, e' => cases e'
  obtain ⟨l, l1, l2, l3, l4⟩ := ((C49_shorthand_partial (lim := defaultLimits 1) (fun _ => ["slow".toList, ".slow".toList])
    (cases := [{ test := mkTest "b" "[slow][.slow]" .done }])
    (by simp [Tagged, mkTest, Verif.Spec.TagOk, Verif.Spec.Hides, Verif.Spec.tagString, Verif.Spec.bracket, defaultLimits, defaults])
    (used := ["[.]".toList, "[slow]".toList]) (by decide) (fun x => by
      have e : Verif.Spec.visibleTags ["slow".toList, ".slow".toList] = ["[slow]".toList, "[.]".toList, "[slow]".toList] := by
        decide
      simp only [e, List.mem_cons, List.not_mem_nil, or_false, exists_eq_left]
      constructor
      · rintro (h | h) <;> simp [h]
      · rintro (h | h | h) <;> simp [h])).1 hs).1 (by decide)
  have : l = ["[.]".toList, "[slow]".toList] := C49_unique l1 (by decide) l2 (by decide) l3
  rw [l4, this]
  rfl

/-- The other way round it is undefined. -/
example : listAllTags (defaultLimits 1) [{ test := mkTest "b" "[.slow]" .done }, { test := mkTest "a" "[slow]" .done }] = .ub :=
  rfl

/-- Tests with ordinary tags. -/
def taggedTests : List Case :=
  [ { test := mkTest "first" "[b][.]" .done }, { test := mkTest "second" "[a][b]" .done } ]

/-- Their tags. -/
def taggedTags (c : Case) : List Text :=
  if c.test.id.name = "first".toList then [['b'], ['.']] else [['a'], ['b']]

private theorem tagged_ok : (∀ c ∈ taggedTests, Tagged 256 c.test.id (taggedTags c) ∧ NoShorthand (taggedTags c)) ∧
    ["[b]".toList, "[a]".toList, "[.]".toList].Nodup ∧
    (∀ x, x ∈ ["[b]".toList, "[a]".toList, "[.]".toList] ↔
      ∃ c ∈ taggedTests, x ∈ Verif.Spec.visibleTags (taggedTags c)) := by
  refine ⟨?_, by decide, ?_⟩
  · simp [taggedTests, Tagged, NoShorthand, taggedTags, mkTest, Verif.Spec.TagOk, Verif.Spec.Hides,
      Verif.Spec.tagString, Verif.Spec.bracket]
  · intro x
    have e1 : Verif.Spec.visibleTags [['b'], ['.']] = ["[b]".toList, "[.]".toList] := by decide
    have e2 : Verif.Spec.visibleTags [['a'], ['b']] = ["[a]".toList, "[b]".toList] := by decide
    constructor
    · intro h
      simp only [List.mem_cons, List.not_mem_nil, or_false] at h
      rcases h with rfl | rfl | rfl
      · exact ⟨taggedTests[0], by simp [taggedTests], by decide⟩
      · exact ⟨taggedTests[1], by simp [taggedTests], by decide⟩
      · exact ⟨taggedTests[0], by simp [taggedTests], by decide⟩
    · rintro ⟨c, hc, hx⟩
      simp only [taggedTests, List.mem_cons, List.not_mem_nil, or_false] at hc
      rcases hc with rfl | rfl
      · have : x ∈ ["[b]".toList, "[.]".toList] := e1 ▸ hx
        simp only [List.mem_cons, List.not_mem_nil, or_false] at this ⊢
        rcases this with h | h <;> simp [h]
      · have : x ∈ ["[a]".toList, "[b]".toList] := e2 ▸ hx
        simp only [List.mem_cons, List.not_mem_nil, or_false] at this ⊢
        rcases this with h | h <;> simp [h]

example : listAllTags (defaultLimits 1) taggedTests =
    .ok (["[[.]]", "[[a]]", "[[b]]"].map fun s => .line s.toList) := by
  obtain ⟨l, l1, l2, l3, l4⟩ := (C49_list_tags_partial (lim := defaultLimits 1) taggedTags
    (fun c hc => (tagged_ok.1 c hc).1) (fun c hc => (tagged_ok.1 c hc).2) tagged_ok.2.1
    tagged_ok.2.2).1 (by decide)
  have : l = ["[.]".toList, "[a]".toList, "[b]".toList] := by
    refine C49_unique l1 (by decide) l2 (by decide) fun x => (l3 x).trans ?_
    simp only [List.mem_cons, List.not_mem_nil, or_false]
    constructor
    · rintro (h | h | h) <;> simp [h]
    · rintro (h | h | h) <;> simp [h]
  rw [l4, this]
  rfl

end Verif.Props
