import Verif.Lemmas.Pick
import Verif.Props.Parts
/-!
# C95: every test, and every set of tests, can be picked out on the command line
-/
namespace Verif.Props
open Verif.Spec (Quoted quote Unmarked commas Pattern Written Criterion Says Asked Test)
open Verif.Filter Verif.Reg Verif.Reg.Spec

/-! ## Which tests are selected -/

/-- **C95** (names). Arguments each of which is a list of alternatives for the name, separated by commas: a text in which the characters
with a meaning have a backslash in front of them, perhaps with a `*` before or behind. A test is selected if for each argument one
of the alternatives is true of its full name. This is so whatever the tags are: hidden tests are selected too, and tests whose tags
cannot be read. -/
theorem C95_names (maxTag : Nat) {maxName : Nat} {id : TestId} (hname : (fullName id).length ≤ maxName)
    {args : List (List (Text × Pattern))} (h0 : args ≠ []) (h1 : ∀ arg ∈ args, arg ≠ [])
    (h2 : ∀ arg ∈ args, ∀ q ∈ arg, Says q.1 (.name q.2)) :
    ∃ b, selectForRun maxTag maxName (args.map fun arg => commas (arg.map Prod.fst)) id = .ok b ∧
      (b = true ↔ ∀ arg ∈ args, ∃ q ∈ arg, q.2.Holds (fullName id)) := by
  have hm : (args.map fun arg => commas (arg.map Prod.fst)) = (args.map fun arg => arg.map Prod.fst).map commas := by
    rw [List.map_map]; rfl
  have hfull : makeFullName maxName id = fullName id := by
    unfold makeFullName
    unfold fullName at hname ⊢
    cases ht : id.type with
    | nil => rw [ht] at hname; exact if_pos hname
    | cons c t => rw [ht] at hname; exact if_pos hname
  rw [hm]
  refine ⟨_, select_names maxTag maxName id (by simpa using h0) ?_ ?_, ?_⟩
  · intro ws hw
    obtain ⟨arg, ha, rfl⟩ := List.mem_map.1 hw
    simpa using h1 arg ha
  · intro ws hw w hww
    obtain ⟨arg, ha, rfl⟩ := List.mem_map.1 hw
    obtain ⟨q, hq, rfl⟩ := List.mem_map.1 hww
    have h := h2 arg ha q hq
    refine ⟨h.bare, ?_⟩
    generalize q.1 = w at h ⊢
    cases h with
    | name _ _ hu => exact hu
  · rw [hfull, List.all_eq_true]
    have hq : ∀ arg ∈ args, ∀ q ∈ arg, (Util.isMatch (fullName id) q.1 = true ↔ q.2.Holds (fullName id)) := fun arg ha q hq => by
      have h := h2 arg ha q hq
      generalize q.1 = w at h ⊢
      cases h with
      | name hw hne _ => rw [isMatch_iff, hw.matches hne]
    constructor
    · intro h arg ha
      obtain ⟨w, hw, hh⟩ := List.any_eq_true.1 (h _ (List.mem_map.2 ⟨arg, ha, rfl⟩))
      obtain ⟨q, hqm, rfl⟩ := List.mem_map.1 hw
      exact ⟨q, hqm, (hq arg ha q hqm).1 hh⟩
    · intro h ws hw
      obtain ⟨arg, ha, rfl⟩ := List.mem_map.1 hw
      obtain ⟨q, hqm, hh⟩ := h arg ha
      exact List.any_eq_true.2 ⟨q.1, List.mem_map.2 ⟨q, hqm, rfl⟩, (hq arg ha q hqm).2 hh⟩

/-- **C95** (one name). The text of a name, with a backslash in front of every character, selects the tests with that full name and no
others. -/
theorem C95_name (maxTag : Nat) {maxName : Nat} {id : TestId} (hname : (fullName id).length ≤ maxName) {s : Text} (hs : s ≠ []) :
    selectForRun maxTag maxName [quote s] id = .ok (decide (fullName id = s)) := by
  have hq := quote_quoted s
  obtain ⟨b, h1, h2⟩ := C95_names maxTag hname (args := [[(quote s, .is s)]]) (by simp) (by simp)
    (by
      simp only [List.mem_singleton, forall_eq]
      exact .name (.is hq) (hq.ne_nil hs) (quote_unmarked s).1)
  have hc : commas [quote s] = quote s := by simp [commas, List.intercalate]
  simp only [List.map_cons, List.map_nil, hc] at h1
  rw [h1]
  congr 1
  rw [Bool.eq_iff_iff, h2, decide_eq_true_iff]
  simp only [List.mem_singleton, forall_eq, exists_eq_left]
  rfl

/-- **C95** (names and tags). Arguments each of which is a list of alternatives: for the name or for a tag, negated or not. The tests
selected are those that are as all arguments ask; hidden ones only if an alternative that is true of them is not negated. -/
theorem C95_criteria {maxTag maxName : Nat} {id : TestId} (hname : (fullName id).length ≤ maxName) {ts : List Text}
    (htags : Tagged maxTag id ts) {args : List (List (Text × Criterion))} (h1 : ∀ arg ∈ args, arg ≠ [])
    (h2 : ∀ arg ∈ args, ∀ q ∈ arg, Says q.1 q.2) :
    ∃ b, selectForRun maxTag maxName (args.map fun arg => commas (arg.map Prod.fst)) id = .ok b ∧
      (b = true ↔ Asked (args.map fun arg => arg.map Prod.snd) ⟨fullName id, ts⟩) := by
  have hfull : makeFullName maxName id = fullName id := by
    unfold makeFullName
    unfold fullName at hname ⊢
    cases ht : id.type with
    | nil => rw [ht] at hname; exact if_pos hname
    | cons c t => rw [ht] at hname; exact if_pos hname
  obtain ⟨b, k1, k2⟩ := C16_selection maxTag maxName (texts args) id ts htags.1 htags.2.1 htags.2.2
  refine ⟨b, k1, ?_⟩
  rw [k2, hfull, selected_iff h1 h2]

/-! ## What is run -/

section
variable [Run.MessageLimit] {lim : Limits} {fuel maxArgs : Nat} {reporters : List Text} {init : Nat → Nat → Nat}
  {config : Cli.Config} {argv0 : Text} {cases : List Case} {tags : Case → List Text}
open Verif.Run.Spec

/-- **C95** (programs). What the program does if the arguments that are no options are of this form: it runs the tests that are as asked
and no others, and the exit status is 0 if none of these fails. -/
theorem C95_program (hcases : ∀ c ∈ cases, Sound lim fuel c.test (tags c)) {argv : List Text} (hlen : argv.length ≤ maxArgs)
    {ts : List Cli.Spec.Token} (hts : Cli.Spec.tokens argv = some ts) (hn : (Cli.Spec.optionNames ts).Nodup)
    (hno : ∀ l ∈ listing, l ∉ Cli.Spec.optionNames ts)
    {args : List (List (Text × Criterion))} (h1 : ∀ arg ∈ args, arg ≠ []) (h2 : ∀ arg ∈ args, ∀ q ∈ arg, Says q.1 q.2)
    (hargs : Cli.Spec.positionalsOf ts = args.map fun arg => commas (arg.map Prod.fst))
    (pick : Case → Bool) (hpick : ∀ c ∈ cases, pick c = true ↔
      Asked (args.map fun arg => arg.map Prod.snd) ⟨fullName c.test.id, tags c⟩) :
    ∃ code, Ends lim fuel maxArgs reporters init config argv0 argv cases code
        ((cases.filter pick).flatMap fun c => (caseStory c.test (hasTag (tags c) "!shouldfail")).filter
          (Item.visible (verbosityOfRun reporters init config ts))) ∧
      (code = 0 ∨ code = 1) ∧ (code = 0 ↔ ∀ c ∈ cases, pick c = true → verdictOf c.test (tags c) ≠ .failed) := by
  obtain ⟨code, out, sel, v, k1, k2, k3, k4, k5, k6⟩ := C67_program reporters init config argv0 hlen tags hcases hts hn hno
  have hsel : ∀ c ∈ cases, sel c = pick c := fun c hc => by
    rw [Bool.eq_iff_iff, k2 c hc, hpick c hc, hargs, selected_iff h1 h2]
  refine ⟨code, ⟨out, k1, ?_⟩, k3, ?_⟩
  · rw [k6, k5, List.filter_congr hsel]
  · rw [k4]
    exact ⟨fun h c hc hp => h c hc (by rw [hsel c hc]; exact hp), fun h c hc hp => h c hc (by rw [← hsel c hc]; exact hp)⟩

/-- The filter for a list of tests: their names, with backslashes, separated by commas. -/
def filterFor (cases : List Case) : Text := commas (cases.map fun c => quote (fullName c.test.id))

omit [Run.MessageLimit] in
private theorem filterFor_head (cases : List Case) (h : cases ≠ []) (hne : ∀ c ∈ cases, fullName c.test.id ≠ []) :
    (filterFor cases).head? ≠ some '-' := by
  cases cases with
  | nil => exact absurd rfl h
  | cons c cs =>
    have hq : ∃ x s, quote (fullName c.test.id) = '\\' :: x :: s := by
      cases hx : fullName c.test.id with
      | nil => exact absurd hx (hne c (by simp))
      | cons x s => exact ⟨x, quote s, by simp [quote]⟩
    obtain ⟨x, s, hq⟩ := hq
    unfold filterFor
    rw [List.map_cons]
    by_cases h' : cs = []
    · subst h'
      simp [commas, List.intercalate, hq]
    · rw [commas_cons _ _ (by simpa using h'), hq]
      simp

/-- **C95** (sets of tests). For every set of tests there is an argument that runs these tests and no others, as long as no test in
the set has the same full name as one that is not: the names of the tests, with backslashes, separated by commas. Everything that
the tests do is told, and the exit status is 0 if none of them fails. -/
theorem C95_set (hcases : ∀ c ∈ cases, Sound lim fuel c.test (tags c)) (hargs : 1 ≤ maxArgs) (pick : Case → Bool)
    (hsome : ∃ c ∈ cases, pick c = true)
    (hnames : ∀ c ∈ cases, ∀ d ∈ cases, fullName c.test.id = fullName d.test.id → pick c = pick d) :
    ∃ code, Ends lim fuel maxArgs reporters init config argv0 [filterFor (cases.filter pick)] cases code
        ((cases.filter pick).flatMap fun c => (caseStory c.test (hasTag (tags c) "!shouldfail")).filter
          (Item.visible (verbosityOfRun reporters init config [.positional (filterFor (cases.filter pick))]))) ∧
      (code = 0 ∨ code = 1) ∧ (code = 0 ↔ ∀ c ∈ cases, pick c = true → verdictOf c.test (tags c) ≠ .failed) := by
  obtain ⟨c0, hc0, hp0⟩ := hsome
  have hmem0 : c0 ∈ cases.filter pick := List.mem_filter.2 ⟨hc0, hp0⟩
  have hne : cases.filter pick ≠ [] := fun e => by rw [e] at hmem0; cases hmem0
  have hname : ∀ c ∈ cases.filter pick, fullName c.test.id ≠ [] := fun c hc =>
    (hcases c (List.mem_filter.1 hc).1).name.1
  have hhead := filterFor_head _ hne hname
  have htok : Cli.Spec.tokens [filterFor (cases.filter pick)] = some [.positional (filterFor (cases.filter pick))] := by
    simp [Cli.Spec.tokens, hhead]
  refine C95_program hcases (by simpa using hargs) htok (by simp [Cli.Spec.optionNames]) (by simp [Cli.Spec.optionNames])
    (args := [(cases.filter pick).map fun c => (quote (fullName c.test.id), .name (.is (fullName c.test.id)))])
    (by simpa using hne) ?_ ?_ pick ?_
  · simp only [List.mem_singleton, forall_eq, List.forall_mem_map]
    intro c hc
    exact .name (.is (quote_quoted _)) ((quote_quoted _).ne_nil (hname c hc)) (quote_unmarked _).1
  · simp only [Cli.Spec.positionalsOf, List.filterMap_cons, List.filterMap_nil, List.map_cons, List.map_nil, List.map_map]
    rfl
  · intro c hc
    unfold Asked
    simp only [List.map_cons, List.map_nil, List.mem_singleton, forall_eq, exists_eq_left, List.map_map]
    constructor
    · intro hp
      have : ∃ x ∈ (cases.filter pick).map (Prod.snd ∘ fun c => (quote (fullName c.test.id), Criterion.name (.is (fullName c.test.id)))),
          x.Holds ⟨fullName c.test.id, tags c⟩ ∧ x.Asks :=
        ⟨_, List.mem_map.2 ⟨c, List.mem_filter.2 ⟨hc, hp⟩, rfl⟩, rfl, trivial⟩
      exact ⟨by obtain ⟨x, hx, hh, -⟩ := this; exact ⟨x, hx, hh⟩, fun _ => this⟩
    · rintro ⟨⟨x, hx, hh⟩, -⟩
      obtain ⟨d, hd, rfl⟩ := List.mem_map.1 hx
      obtain ⟨hd, hp⟩ := List.mem_filter.1 hd
      rw [hnames c hc d hd hh]
      exact hp

/-- **C95** (running failed tests again). If some tests fail, and no test that does not has the name of one that does, then there is an
argument that runs the failed tests only; they fail again, and the same is told of them. -/
theorem C95_rerun (hcases : ∀ c ∈ cases, Sound lim fuel c.test (tags c)) (hargs : 1 ≤ maxArgs)
    (hsome : ∃ c ∈ cases, verdictOf c.test (tags c) = .failed)
    (hnames : ∀ c ∈ cases, ∀ d ∈ cases, fullName c.test.id = fullName d.test.id →
      verdictOf c.test (tags c) = .failed → verdictOf d.test (tags d) = .failed) :
    let failed := cases.filter fun c => decide (verdictOf c.test (tags c) = .failed)
    Ends lim fuel maxArgs reporters init config argv0 [filterFor failed] cases 1
      (failed.flatMap fun c => (caseStory c.test (hasTag (tags c) "!shouldfail")).filter
        (Item.visible (verbosityOfRun reporters init config [.positional (filterFor failed)]))) := by
  obtain ⟨c, hc, hf⟩ := hsome
  obtain ⟨code, k1, k2, k3⟩ := C95_set (reporters := reporters) (init := init) (config := config) (argv0 := argv0) hcases hargs
    (fun c => decide (verdictOf c.test (tags c) = .failed)) ⟨c, hc, by simpa using hf⟩
    (fun c hc d hd h => by
      rw [Bool.eq_iff_iff, decide_eq_true_iff, decide_eq_true_iff]
      exact ⟨hnames c hc d hd h, hnames d hd c hc h.symm⟩)
  have : code = 1 := by
    rcases k2 with k2 | k2
    · exact absurd hf (k3.1 k2 c hc (by simpa using hf))
    · exact k2
  rw [this] at k1
  exact k1

end

/-- Three tests: the first has characters with a meaning in its name, the second is hidden, the last two fail. -/
def trickyTests : List Case :=
  [ { test := mkTest "-a, b* [c]" "[x]" .done },
    { test := mkTest "~b" "[.slow][y]" (.stmt (.check 2 (.val false) false "x".toList) .done) },
    { test := mkTest "-a, b* [c]d" "" (.stmt (.check 2 (.val false) false "x".toList) .done) } ]

/-- Their tags. -/
def trickyTags (c : Case) : List Text :=
  if c.test.id.name = "~b".toList then [".slow".toList, "y".toList]
  else if c.test.id.name = "-a, b* [c]".toList then ["x".toList] else []

open Defaults in
theorem trickyTests_sound : ∀ c ∈ trickyTests, Sound (defaultLimits 1) 5 c.test (trickyTags c) := by
  simp only [trickyTests, List.forall_mem_cons]
  refine ⟨sound_same rfl (by decide) ⟨by decide, ?_, ?_⟩ ?_ (by decide) (by decide) (by decide),
    sound_same rfl (by decide) ⟨by decide, ?_, ?_⟩ ?_ (by decide) (by decide) (by decide),
    sound_same rfl (by decide) ⟨by decide, ?_, ?_⟩ ?_ (by decide) (by decide) (by decide), by simp⟩
  all_goals simp [trickyTags, mkTest, Verif.Spec.TagOk, Verif.Spec.Hides, Run.Spec.Tidy, defaultLimits, defaults]

/-- The text is quoted by hand: only where it is needed. -/
theorem tricky_quoted : Quoted "-a\\, b\\* [c]".toList "-a, b* [c]".toList := by
  refine .plain ?_ ?_ ?_ (.plain ?_ ?_ ?_ (.esc (.plain ?_ ?_ ?_ (.plain ?_ ?_ ?_ (.esc (.plain ?_ ?_ ?_ (.plain ?_ ?_ ?_
    (.plain ?_ ?_ ?_ (.plain ?_ ?_ ?_ .nil)))))))))
  all_goals decide

/-- The argument `-a\, b\**,*\* [c]`, two alternatives, and the argument `*d` select the third test of these only; as the text begins
with a dash, a program takes it for an option: quoting the dash too helps. -/
example : (∀ id, (fullName id).length ≤ 1024 → ∃ b,
      selectForRun 256 1024 ["-a\\, b\\* [c]*,*\\* [c]".toList, "*d".toList] id = .ok b ∧
      (b = true ↔ ("-a, b* [c]".toList <+: fullName id ∨ "* [c]".toList <:+ fullName id) ∧ "d".toList <:+ fullName id)) ∧
    trickyTests.map (fun c => selectForRun 256 1024 ["-a\\, b\\* [c]*,*\\* [c]".toList, "*d".toList] c.test.id) =
      [.ok false, .ok false, .ok true] := by
  refine ⟨fun id hid => ?_, by decide⟩
  have hq : Quoted "\\* [c]".toList "* [c]".toList := by
    refine .esc (.plain ?_ ?_ ?_ (.plain ?_ ?_ ?_ (.plain ?_ ?_ ?_ (.plain ?_ ?_ ?_ .nil))))
    all_goals decide
  have hd : Quoted "d".toList "d".toList := .plain (by decide) (by decide) (by decide) .nil
  obtain ⟨b, h1, h2⟩ := C95_names 256 hid
    (args := [[("-a\\, b\\* [c]".toList ++ ['*'], .starts "-a, b* [c]".toList), ('*' :: "\\* [c]".toList, .ends "* [c]".toList)],
      [('*' :: "d".toList, .ends "d".toList)]]) (by simp) (by simp)
    (by
      intro arg ha q hq'
      simp only [List.mem_cons, List.not_mem_nil, or_false] at ha
      rcases ha with rfl | rfl
      · simp only [List.mem_cons, List.not_mem_nil, or_false] at hq'
        rcases hq' with rfl | rfl
        · exact .name (.starts tricky_quoted) (by simp) (by decide)
        · exact .name (.ends hq) (by simp) (by decide)
      · simp only [List.mem_cons, List.not_mem_nil, or_false] at hq'
        subst hq'
        exact .name (.ends hd) (by simp) (by decide))
  refine ⟨b, h1, h2.trans ?_⟩
  have h : ∀ (P Q R : Text × Pattern), (∀ arg ∈ [[P, Q], [R]], ∃ q ∈ arg, q.2.Holds (fullName id)) ↔
      (P.2.Holds (fullName id) ∨ Q.2.Holds (fullName id)) ∧ R.2.Holds (fullName id) := by
    intro P Q R
    simp only [List.mem_cons, List.not_mem_nil, or_false, forall_eq_or_imp, forall_eq, exists_eq_or_imp, exists_eq_left]
  exact h _ _ _

/-- Names with a type, and hidden tests, can be picked. -/
example : selectForRun 256 1024 [quote "~b".toList] ⟨"~b".toList, "[.slow][y]".toList, []⟩ = .ok true ∧
    selectForRun 256 1024 [quote "n <int*>".toList] ⟨"n".toList, [], "int*".toList⟩ = .ok true ∧
    selectForRun 256 1024 [quote "n <int*>".toList] ⟨"n".toList, [], "int**".toList⟩ = .ok false :=
  ⟨C95_name 256 (by decide) (by decide), C95_name 256 (by decide) (by decide), C95_name 256 (by decide) (by decide)⟩

/-- Criteria for tags: `[x],[sl*]` and `~\~b`. The first asks for the first two tests, of which the second refuses one. -/
theorem tricky_says : ∀ arg ∈ [[(Verif.Spec.bracket "x".toList, Criterion.tag (.is "x".toList)),
      (Verif.Spec.bracket ("sl".toList ++ ['*']), .tag (.starts "sl".toList))],
      [('~' :: "\\~b".toList, .notName (.is "~b".toList))]], arg ≠ [] ∧ ∀ q ∈ arg, Says q.1 q.2 := by
  have h1 : Quoted "x".toList "x".toList := .plain (by decide) (by decide) (by decide) .nil
  have h2 : Quoted "sl".toList "sl".toList := .plain (by decide) (by decide) (by decide) (.plain (by decide) (by decide) (by decide) .nil)
  have h3 : Quoted "\\~b".toList "~b".toList := .esc (.plain (by decide) (by decide) (by decide) .nil)
  simp only [List.forall_mem_cons, List.not_mem_nil, false_implies, implies_true, and_true, ne_eq, reduceCtorEq, not_false_eq_true,
    true_and]
  exact ⟨⟨.tag (.is h1) (by decide), .tag (.starts h2) (by decide)⟩, .notName (.is h3) (by decide) (by decide)⟩

open Defaults in
example : (∀ c ∈ trickyTests, ∃ b, selectForRun 256 1024 ["[x],[sl*]".toList, "~\\~b".toList] c.test.id = .ok b ∧
      (b = true ↔ Asked [[.tag (.is "x".toList), .tag (.starts "sl".toList)], [.notName (.is "~b".toList)]]
        ⟨fullName c.test.id, trickyTags c⟩)) ∧
    trickyTests.map (fun c => selectForRun 256 1024 ["[x],[sl*]".toList, "~\\~b".toList] c.test.id) = [.ok true, .ok false, .ok false] :=
  ⟨fun c hc => C95_criteria (trickyTests_sound c hc).name.2 (trickyTests_sound c hc).tags
    (fun arg ha => (tricky_says arg ha).1) fun arg ha => (tricky_says arg ha).2, by decide⟩

set_option maxRecDepth 20000 in
open Defaults in
/-- The program run with these arguments: only the first test is run. -/
example : Cli.Spec.tokens ["[x],[sl*]".toList, "~\\~b".toList] =
      some [.positional "[x],[sl*]".toList, .positional "~\\~b".toList] ∧
    (∃ i, Comes ["[x],[sl*]", "~\\~b"] trickyTests 0 i) ∧ (∃ i, Comes [] trickyTests 1 i) :=
  ⟨by decide, ⟨_, _, rfl, rfl⟩, ⟨_, _, rfl, rfl⟩⟩

set_option maxRecDepth 20000 in
open Defaults in
/-- The two failing tests, one of which is hidden, are run again. -/
example : Ends (defaultLimits 1) 5 1024 [] (fun _ v => v) (initialConfig true) "p".toList
    ["\\~\\b,\\-\\a\\,\\ \\b\\*\\ \\[\\c\\]\\d".toList] trickyTests 1
      ((trickyTests.drop 1).flatMap fun c => (Run.Spec.caseStory c.test (Run.Spec.hasTag (trickyTags c) "!shouldfail")).filter
        (Run.Spec.Item.visible (verbosityOfRun [] (fun _ v => v) (initialConfig true)
          [.positional "\\~\\b,\\-\\a\\,\\ \\b\\*\\ \\[\\c\\]\\d".toList]))) :=
  C95_rerun trickyTests_sound (by decide) ⟨_, List.mem_cons_of_mem _ (List.mem_cons_self ..), by decide⟩ (by decide)

/-- **C95** (limits). Tests with the same full name and the same tags cannot be told apart by any filters. -/
theorem C95_same_name (maxTag maxName : Nat) {id id' : TestId} (hn : fullName id = fullName id') (ht : id.tags = id'.tags)
    (filters : List Text) : selectForRun maxTag maxName filters id = selectForRun maxTag maxName filters id' := by
  have hf : makeFullName maxName id = makeFullName maxName id' := by
    have : ∀ i : TestId, makeFullName maxName i = if (fullName i).length ≤ maxName then fullName i else [] := fun i => by
      unfold makeFullName fullName
      cases i.type <;> rfl
    rw [this, this, hn]
  have hl : ∀ fs r, matchArgsLoop maxTag maxName id r fs = matchArgsLoop maxTag maxName id' r fs := by
    intro fs
    induction fs with
    | nil => intro r; rfl
    | cons f fs ih =>
      intro r
      unfold matchArgsLoop
      rw [hf, ht]
      simp only [ih]
  unfold selectForRun selectDefault selectWithFilters
  rw [ht, hl]

/-- Nothing prevents the registration of two such tests: the type of a typed test can be written in the name of another test. -/
example : fullName ⟨"n".toList, [], "int".toList⟩ = fullName ⟨"n <int>".toList, [], []⟩ := by decide

end Verif.Props
