import Verif.Props.Program
import Verif.Props.Filter
/-!
# C91: running in parts, in another order, again
-/
namespace Verif.Reg
open Verif.Run.Spec

/-- The result of a loop over tests depends on the tests only, not on how they ended before. -/
theorem runEach_again [Run.MessageLimit] {lim : Limits} {fuel : Nat} {pred : Filter.TestId → Outcome Bool} (cases : List Case) :
    ∀ {acc a acc2 : Acc}, runEach lim fuel pred cases acc = some (.ok a) →
    acc2.cases = acc.cases → acc2.totals = acc.totals → acc2.log = acc.log →
    ∃ out, a.cases = acc.cases ++ out ∧ runEach lim fuel pred out acc2 = some (.ok a) := by
  induction cases with
  | nil =>
    intro acc a acc2 h h1 h2 h3
    cases h
    refine ⟨[], by simp, ?_⟩
    cases acc
    cases acc2
    cases h1
    cases h2
    cases h3
    rfl
  | cons c cs ih =>
    intro acc a acc2 h h1 h2 h3
    unfold runEach at h
    cases hp : pred c.test.id with
    | abort => rw [hp] at h; cases h
    | ub => rw [hp] at h; cases h
    | ok sel =>
      rw [hp] at h
      cases sel with
      | false =>
        dsimp only at h
        obtain ⟨out, k1, k2⟩ := ih (acc := { acc with cases := acc.cases ++ [c] })
          (acc2 := { acc2 with cases := acc2.cases ++ [c] }) h (by dsimp only; rw [h1]) h2 h3
        refine ⟨c :: out, by rw [k1]; simp, ?_⟩
        unfold runEach
        rw [hp]
        exact k2
      | true =>
        dsimp only at h
        cases hr : Run.run lim.cfg fuel c.test with
        | none => rw [hr] at h; cases h
        | some o =>
          rw [hr] at h
          cases o with
          | abort => cases h
          | ub => cases h
          | ok s =>
            dsimp only at h
            obtain ⟨out, k1, k2⟩ := ih (acc := { cases := acc.cases ++ [{ c with state := s.state }]
                                                 totals := acc.totals.add s
                                                 log := acc.log ++ s.log })
              (acc2 := { cases := acc2.cases ++ [{ c with state := s.state }]
                         totals := acc2.totals.add s
                         log := acc2.log ++ s.log }) h (by dsimp only; rw [h1]) (by dsimp only; rw [h2])
                (by dsimp only; rw [h3])
            refine ⟨{ c with state := s.state } :: out, by rw [k1]; simp, ?_⟩
            unfold runEach
            dsimp only
            rw [hp]
            dsimp only
            rw [hr]
            exact k2

end Verif.Reg

namespace Verif.Props
open Verif.Reg Verif.Reg.Spec Verif.Run.Spec

/-- **C91** (again). Running the same tests once more does and tells the same, and leaves every test as it was left before. -/
theorem C91_again [Run.MessageLimit] {lim : Limits} {fuel : Nat} {pred : Filter.TestId → Outcome Bool} {cases cases' : List Case}
    {log : List Run.Event} {success : Bool} (h : runSelected lim fuel pred cases = some (.ok (cases', log, success))) :
    runSelected lim fuel pred cases' = some (.ok (cases', log, success)) := by
  unfold runSelected at h
  cases hr : runEach lim fuel pred cases { log := shown lim 1 .runStarted } with
  | none => rw [hr] at h; cases h
  | some o =>
    rw [hr] at h
    cases o with
    | abort => cases h
    | ub => cases h
    | ok a =>
      simp only [Option.some.injEq, Outcome.ok.injEq, Prod.mk.injEq] at h
      obtain ⟨rfl, rfl, rfl⟩ := h
      obtain ⟨out, k1, k2⟩ := runEach_again cases hr rfl rfl rfl
      have : a.cases = out := k1
      unfold runSelected
      rw [this, k2]
      dsimp only
      rw [this]

/-- What a run of the program comes to, for tests within the limits: the program ends with the status `code`, and tells `items`
of its tests. -/
def Ends [Run.MessageLimit] (lim : Limits) (fuel maxArgs : Nat) (reporters : List Text) (init : Nat → Nat → Nat) (config : Cli.Config)
    (argv0 : Text) (argv : List Text) (cases : List Case) (code : Nat) (items : List Run.Spec.Item) : Prop :=
  ∃ out, main lim fuel maxArgs reporters init config argv0 argv cases = some (.ok (code, out)) ∧ out.filterMap told = items

section
variable [Run.MessageLimit] {lim : Limits} {fuel maxArgs : Nat} {reporters : List Text} {init : Nat → Nat → Nat}
  {config : Cli.Config} {argv0 : Text} {cases : List Case} {tags : Case → List Text}

/-- The tests that positional arguments select. -/
private theorem ends_iff (hcases : ∀ c ∈ cases, Sound lim fuel c.test (tags c)) {argv : List Text} (hlen : argv.length ≤ maxArgs)
    {ts : List Cli.Spec.Token} (hts : Cli.Spec.tokens argv = some ts) (hn : (Cli.Spec.optionNames ts).Nodup)
    (hno : ∀ l ∈ listing, l ∉ Cli.Spec.optionNames ts) {code : Nat} {items : List Run.Spec.Item}
    (h : Ends lim fuel maxArgs reporters init config argv0 argv cases code items) :
    ∃ sel : Case → Bool, (∀ c ∈ cases, sel c = true ↔
        Verif.Spec.Selected (Cli.Spec.positionalsOf ts) ⟨fullName c.test.id, tags c⟩) ∧
      (code = 0 ∨ code = 1) ∧ (code = 0 ↔ ∀ c ∈ cases, sel c = true → verdictOf c.test (tags c) ≠ .failed) ∧
      items = (cases.filter sel).flatMap fun c =>
        (caseStory c.test (hasTag (tags c) "!shouldfail")).filter (Item.visible (verbosityOfRun reporters init config ts)) := by
  obtain ⟨code', out, sel, v, h1, h2, h3, h4, h5, h6⟩ := C67_program reporters init config argv0 hlen tags hcases hts hn hno
  obtain ⟨out', k1, k2⟩ := h
  rw [h1] at k1
  simp only [Option.some.injEq, Outcome.ok.injEq, Prod.mk.injEq] at k1
  obtain ⟨rfl, rfl⟩ := k1
  exact ⟨sel, h2, h3, h4, by rw [← k2, h6, h5]⟩

/-- **C91** (in another order). If the same tests are registered in another order, the exit status is the same, and the same things
happen in the tests. -/
theorem C91_reordered {cases' : List Case} (hperm : cases.Perm cases')
    (hcases : ∀ c ∈ cases, Sound lim fuel c.test (tags c)) {argv : List Text} (hlen : argv.length ≤ maxArgs)
    {ts : List Cli.Spec.Token} (hts : Cli.Spec.tokens argv = some ts) (hn : (Cli.Spec.optionNames ts).Nodup)
    (hno : ∀ l ∈ listing, l ∉ Cli.Spec.optionNames ts) {code code' : Nat} {items items' : List Run.Spec.Item}
    (h : Ends lim fuel maxArgs reporters init config argv0 argv cases code items)
    (h' : Ends lim fuel maxArgs reporters init config argv0 argv cases' code' items') :
    code' = code ∧ items.Perm items' := by
  obtain ⟨sel, a1, a2, a3, a4⟩ := ends_iff hcases hlen hts hn hno h
  obtain ⟨sel', b1, b2, b3, b4⟩ := ends_iff (fun c hc => hcases c (hperm.mem_iff.2 hc)) hlen hts hn hno h'
  have hsel : ∀ c ∈ cases, sel' c = sel c := fun c hc =>
    Bool.eq_iff_iff.2 ((b1 c (hperm.mem_iff.1 hc)).trans (a1 c hc).symm)
  have hcode : code' = 0 ↔ code = 0 := by
    rw [a3, b3]
    constructor
    · intro hall c hc hs
      exact hall c (hperm.mem_iff.1 hc) (by rw [hsel c hc]; exact hs)
    · intro hall c hc hs
      exact hall c (hperm.mem_iff.2 hc) (by rw [← hsel c (hperm.mem_iff.2 hc)]; exact hs)
  refine ⟨by omega, ?_⟩
  rw [a4, b4, ← List.filter_congr (l := cases') (p := sel) (q := sel') fun c hc => (hsel c (hperm.mem_iff.2 hc)).symm]
  exact (hperm.filter sel).flatMap_right _

/-- **C91** (more tests). Tests added to the program have no influence on the others: what is told is what is told of the tests there
before, followed by what is told of the tests added; and the exit status is 0 if it is for both. -/
theorem C91_more {more : List Case} (hcases : ∀ c ∈ cases ++ more, Sound lim fuel c.test (tags c)) {argv : List Text}
    (hlen : argv.length ≤ maxArgs) {ts : List Cli.Spec.Token} (hts : Cli.Spec.tokens argv = some ts)
    (hn : (Cli.Spec.optionNames ts).Nodup) (hno : ∀ l ∈ listing, l ∉ Cli.Spec.optionNames ts)
    {code code1 code2 : Nat} {items items1 items2 : List Run.Spec.Item}
    (h : Ends lim fuel maxArgs reporters init config argv0 argv (cases ++ more) code items)
    (h1 : Ends lim fuel maxArgs reporters init config argv0 argv cases code1 items1)
    (h2 : Ends lim fuel maxArgs reporters init config argv0 argv more code2 items2) :
    (code = 0 ↔ code1 = 0 ∧ code2 = 0) ∧ items = items1 ++ items2 := by
  obtain ⟨sel, a1, a2, a3, a4⟩ := ends_iff hcases hlen hts hn hno h
  obtain ⟨sel1, b1, b2, b3, b4⟩ := ends_iff (fun c hc => hcases c (List.mem_append_left _ hc)) hlen hts hn hno h1
  obtain ⟨sel2, c1, c2, c3, c4⟩ := ends_iff (fun c hc => hcases c (List.mem_append_right _ hc)) hlen hts hn hno h2
  have e1 : ∀ c ∈ cases, sel1 c = sel c := fun c hc =>
    Bool.eq_iff_iff.2 ((b1 c hc).trans (a1 c (List.mem_append_left _ hc)).symm)
  have e2 : ∀ c ∈ more, sel2 c = sel c := fun c hc =>
    Bool.eq_iff_iff.2 ((c1 c hc).trans (a1 c (List.mem_append_right _ hc)).symm)
  constructor
  · rw [a3, b3, c3]
    constructor
    · intro hall
      exact ⟨fun c hc hs => hall c (List.mem_append_left _ hc) (by rw [← e1 c hc]; exact hs),
        fun c hc hs => hall c (List.mem_append_right _ hc) (by rw [← e2 c hc]; exact hs)⟩
    · rintro ⟨k1, k2⟩ c hc hs
      rcases List.mem_append.1 hc with hc | hc
      · exact k1 c hc (by rw [e1 c hc]; exact hs)
      · exact k2 c hc (by rw [e2 c hc]; exact hs)
  · rw [a4, b4, c4, List.filter_append, List.flatMap_append, List.filter_congr e1, List.filter_congr e2]

/-- A filter that its negation inverts: a single name pattern or a single group of tags. -/
def Invertible (f : Text) : Prop :=
  Verif.Spec.commaParts f = [f] ∧
    ((Verif.Spec.Positive f ∧ f.head? ≠ some '[') ∨ (f.head? = some '[' ∧ Verif.Spec.tagGroups f = [f]))

omit [Run.MessageLimit] in
private theorem invert {f : Text} (hf : Invertible f) (t : Verif.Spec.Test) :
    Verif.Spec.Includes ('~' :: f) t ↔ ¬ Verif.Spec.Includes f t := by
  obtain ⟨h1, ⟨h2, h3⟩ | ⟨h2, h3⟩⟩ := hf
  · exact C17_partition f t h2 h1 h3
  · exact C17_partition_tag f t h2 h1 h3

omit [Run.MessageLimit] in
/-- Every test selected is selected by exactly one half, and a half selects no other tests, but for hidden ones. -/
private theorem halves {f : Text} (hf : Invertible f) (fs : List Text) (t : Verif.Spec.Test) :
    (Verif.Spec.Selected fs t → (Verif.Spec.Selected (fs ++ [f]) t ↔ ¬ Verif.Spec.Selected (fs ++ ['~' :: f]) t)) ∧
    (¬ Verif.Spec.Hidden t → Verif.Spec.Selected (fs ++ [f]) t → Verif.Spec.Selected fs t) ∧
    (¬ Verif.Spec.Hidden t → Verif.Spec.Selected (fs ++ ['~' :: f]) t → Verif.Spec.Selected fs t) := by
  have hi := invert hf t
  unfold Verif.Spec.Selected Verif.Spec.View.Selected
  unfold Verif.Spec.Includes at hi
  have hw : ∀ g : Text, (∀ x ∈ fs, Verif.Spec.View.Includes x t.view) ∧
      (t.view.hidden → ∃ x ∈ fs, Verif.Spec.View.IncludesExplicitly x t.view) →
      (((∀ x ∈ fs ++ [g], Verif.Spec.View.Includes x t.view) ∧
        (t.view.hidden → ∃ x ∈ fs ++ [g], Verif.Spec.View.IncludesExplicitly x t.view)) ↔ Verif.Spec.View.Includes g t.view) := by
    rintro g ⟨h1, h2⟩
    constructor
    · rintro ⟨h, -⟩
      exact h g (by simp)
    · intro hg
      refine ⟨?_, ?_⟩
      · intro x hx
        rcases List.mem_append.1 hx with hx | hx
        · exact h1 x hx
        · rw [List.mem_singleton.1 hx]; exact hg
      · intro hh
        obtain ⟨x, hx, he⟩ := h2 hh
        exact ⟨x, List.mem_append_left _ hx, he⟩
  refine ⟨?_, ?_, ?_⟩
  · intro hs
    rw [hw f hs, hw ('~' :: f) hs, hi, Classical.not_not]
  · rintro hh ⟨h1, -⟩
    exact ⟨fun x hx => h1 x (List.mem_append_left _ hx), fun h => absurd h hh⟩
  · rintro hh ⟨h1, -⟩
    exact ⟨fun x hx => h1 x (List.mem_append_left _ hx), fun h => absurd h hh⟩

omit [Run.MessageLimit] in
private theorem split_perm {α β : Type} (f : α → List β) (p q r : α → Bool) : ∀ l : List α,
    (∀ x ∈ l, p x = true → q x = !r x) → (∀ x ∈ l, q x = true → p x = true) → (∀ x ∈ l, r x = true → p x = true) →
    ((l.filter p).flatMap f).Perm ((l.filter q).flatMap f ++ (l.filter r).flatMap f)
  | [], _, _, _ => .refl _
  | x :: l, h1, h2, h3 => by
    have ih := split_perm f p q r l (fun y hy => h1 y (by simp [hy])) (fun y hy => h2 y (by simp [hy]))
      (fun y hy => h3 y (by simp [hy]))
    cases hp : p x with
    | false =>
      have hq : q x = false := by
        cases hq : q x with
        | false => rfl
        | true => rw [h2 x (by simp) hq] at hp; cases hp
      have hr : r x = false := by
        cases hr : r x with
        | false => rfl
        | true => rw [h3 x (by simp) hr] at hp; cases hp
      simpa [List.filter_cons, hp, hq, hr] using ih
    | true =>
      have hq := h1 x (by simp) hp
      cases hr : r x with
      | false =>
        rw [hr] at hq
        simp only [List.filter_cons, hp, hq, hr, ↓reduceIte, Bool.not_false, Bool.false_eq_true, List.flatMap_cons,
          List.append_assoc]
        exact ih.append_left _
      | true =>
        rw [hr] at hq
        simp only [List.filter_cons, hp, hq, hr, ↓reduceIte, Bool.not_true, Bool.false_eq_true, List.flatMap_cons]
        refine (ih.append_left (f x)).trans ?_
        rw [← List.append_assoc, ← List.append_assoc]
        exact List.perm_append_comm.append_right _

/-- **C91** (in parts). A run can be split by a filter and its negation, given after the other filters: if both parts end with status 0, so
does the whole. If there are no hidden tests, the whole ends with status 0 only if both parts do, and, at the same verbosity, what happens
in the tests of the whole is what happens in those of the parts. -/
theorem C91_split (hcases : ∀ c ∈ cases, Sound lim fuel c.test (tags c)) {argv argv1 argv2 : List Text}
    (hlen : argv.length ≤ maxArgs) (hlen1 : argv1.length ≤ maxArgs) (hlen2 : argv2.length ≤ maxArgs)
    {ts ts1 ts2 : List Cli.Spec.Token}
    (hts : Cli.Spec.tokens argv = some ts) (hts1 : Cli.Spec.tokens argv1 = some ts1) (hts2 : Cli.Spec.tokens argv2 = some ts2)
    (hn : (Cli.Spec.optionNames ts).Nodup) (hn1 : (Cli.Spec.optionNames ts1).Nodup) (hn2 : (Cli.Spec.optionNames ts2).Nodup)
    (hno : ∀ l ∈ listing, l ∉ Cli.Spec.optionNames ts) (hno1 : ∀ l ∈ listing, l ∉ Cli.Spec.optionNames ts1)
    (hno2 : ∀ l ∈ listing, l ∉ Cli.Spec.optionNames ts2) {f : Text} (hf : Invertible f)
    (hp1 : Cli.Spec.positionalsOf ts1 = Cli.Spec.positionalsOf ts ++ [f])
    (hp2 : Cli.Spec.positionalsOf ts2 = Cli.Spec.positionalsOf ts ++ ['~' :: f])
    {code code1 code2 : Nat} {items items1 items2 : List Run.Spec.Item}
    (h : Ends lim fuel maxArgs reporters init config argv0 argv cases code items)
    (h1 : Ends lim fuel maxArgs reporters init config argv0 argv1 cases code1 items1)
    (h2 : Ends lim fuel maxArgs reporters init config argv0 argv2 cases code2 items2) :
    (code1 = 0 → code2 = 0 → code = 0) ∧
    ((∀ c ∈ cases, ¬ Verif.Spec.Hidden ⟨fullName c.test.id, tags c⟩) →
      (code = 0 ↔ code1 = 0 ∧ code2 = 0) ∧
      (verbosityOfRun reporters init config ts1 = verbosityOfRun reporters init config ts →
        verbosityOfRun reporters init config ts2 = verbosityOfRun reporters init config ts →
        items.Perm (items1 ++ items2))) := by
  obtain ⟨sel, a1, a2, a3, a4⟩ := ends_iff hcases hlen hts hn hno h
  obtain ⟨sel1, b1, b2, b3, b4⟩ := ends_iff hcases hlen1 hts1 hn1 hno1 h1
  obtain ⟨sel2, c1, c2, c3, c4⟩ := ends_iff hcases hlen2 hts2 hn2 hno2 h2
  rw [hp1] at b1
  rw [hp2] at c1
  have key := fun c : Case => halves hf (Cli.Spec.positionalsOf ts) ⟨fullName c.test.id, tags c⟩
  have e1 : ∀ c ∈ cases, sel c = true → sel1 c = !sel2 c := by
    intro c hc hs
    have := (key c).1 ((a1 c hc).1 hs)
    rw [← b1 c hc, ← c1 c hc] at this
    cases h1 : sel1 c <;> cases h2 : sel2 c <;> simp_all
  have part : code1 = 0 → code2 = 0 → code = 0 := by
    rw [a3, b3, c3]
    intro k1 k2 c hc hs
    have := e1 c hc hs
    cases hs2 : sel2 c with
    | true => exact k2 c hc hs2
    | false => exact k1 c hc (by rw [this, hs2]; rfl)
  refine ⟨part, ?_⟩
  intro hh
  have e2 : ∀ c ∈ cases, sel1 c = true → sel c = true := fun c hc hs => (a1 c hc).2 ((key c).2.1 (hh c hc) ((b1 c hc).1 hs))
  have e3 : ∀ c ∈ cases, sel2 c = true → sel c = true := fun c hc hs => (a1 c hc).2 ((key c).2.2 (hh c hc) ((c1 c hc).1 hs))
  constructor
  · constructor
    · rw [a3, b3, c3]
      intro hall
      exact ⟨fun c hc hs => hall c hc (e2 c hc hs), fun c hc hs => hall c hc (e3 c hc hs)⟩
    · exact fun k => part k.1 k.2
  · intro v1 v2
    rw [a4, b4, c4, v1, v2]
    exact split_perm _ sel sel1 sel2 cases e1 e2 e3

end

/-! ## Examples -/

open Defaults in
/-- Of the three tests of C67 (one of them hidden), the first and the third are run; the state of the third is kept, and found by the
second run. -/
example : ∃ cases' log, runSelected (defaultLimits 2) 5 (Filter.selectDefault 256) threeTests = some (.ok (cases', log, false)) ∧
    runSelected (defaultLimits 2) 5 (Filter.selectDefault 256) cases' = some (.ok (cases', log, false)) ∧
    cases'.map (·.state) = [.success, .notRun, .failed] := by
  have h : ∃ cases' log, runSelected (defaultLimits 2) 5 (Filter.selectDefault 256) threeTests = some (.ok (cases', log, false)) ∧
      cases'.map (·.state) = [.success, .notRun, .failed] := ⟨_, _, rfl, by decide⟩
  obtain ⟨cases', log, h1, h2⟩ := h
  exact ⟨cases', log, h1, C91_again h1, h2⟩

/-- Two tests that are not hidden, the second of which fails. -/
def bothTests : List Case :=
  [ { test := mkTest "first" "" .done },
    { test := mkTest "third" "[db]" (.stmt (.check 2 (.val false) false "x".toList) .done) } ]

/-- A test that passes, and a hidden one that fails. -/
def hiddenFailure : List Case :=
  [ { test := mkTest "first" "" .done },
    { test := mkTest "second" "[.slow][db]" (.stmt (.check 2 (.val false) false "x".toList) .done) } ]

open Defaults in
theorem bothTests_sound : ∀ c ∈ bothTests, Sound (defaultLimits 1) 5 c.test (threeTags c) := by
  simp only [bothTests, List.forall_mem_cons]
  refine ⟨sound_same rfl (by decide) ⟨by decide, ?_, ?_⟩ ?_ (by decide) (by decide) (by decide),
    sound_same rfl (by decide) ⟨by decide, ?_, ?_⟩ ?_ (by decide) (by decide) (by decide), by simp⟩
  all_goals simp [threeTags, mkTest, Verif.Spec.TagOk, Verif.Spec.Hides, Tidy, defaultLimits, defaults]

open Defaults in
theorem hiddenFailure_sound : ∀ c ∈ hiddenFailure, Sound (defaultLimits 1) 5 c.test (threeTags c) := by
  simp only [hiddenFailure, List.forall_mem_cons]
  refine ⟨sound_same rfl (by decide) ⟨by decide, ?_, ?_⟩ ?_ (by decide) (by decide) (by decide),
    sound_same rfl (by decide) ⟨by decide, ?_, ?_⟩ ?_ (by decide) (by decide) (by decide), by simp⟩
  all_goals simp [threeTags, mkTest, Verif.Spec.TagOk, Verif.Spec.Hides, Tidy, defaultLimits, defaults]

open Defaults in
/-- A run of these tests with a command line. -/
abbrev Comes (argv : List String) (cases : List Case) (code : Nat) (items : List Run.Spec.Item) : Prop :=
  Ends (defaultLimits 1) 5 1024 [] (fun _ v => v) (initialConfig true) "p".toList (argv.map String.toList) cases code items

set_option maxRecDepth 20000 in
open Defaults in
/-- The whole fails, and of the parts the one with the failing test. -/
example : (∃ i, Comes [] bothTests 1 i) ∧ (∃ i, Comes ["[db]"] bothTests 1 i) ∧ (∃ i, Comes ["~[db]"] bothTests 0 i) ∧
    Invertible "[db]".toList ∧ (∀ c ∈ bothTests, ¬ Verif.Spec.Hidden ⟨fullName c.test.id, threeTags c⟩) :=
  ⟨⟨_, _, rfl, rfl⟩, ⟨_, _, rfl, rfl⟩, ⟨_, _, rfl, rfl⟩, ⟨by decide, .inr ⟨by decide, by decide⟩⟩, by
    simp [bothTests, Verif.Spec.Hidden, threeTags, mkTest, Verif.Spec.Hides]⟩

set_option maxRecDepth 20000 in
open Defaults in
/-- The same tests in the other order, and one at a time. -/
example : bothTests.Perm bothTests.reverse ∧ (∃ i, Comes [] bothTests.reverse 1 i) ∧
    bothTests = bothTests.take 1 ++ bothTests.drop 1 ∧ (∃ i, Comes [] (bothTests.take 1) 0 i) ∧
    (∃ i, Comes [] (bothTests.drop 1) 1 i) :=
  ⟨(List.reverse_perm _).symm, ⟨_, _, rfl, rfl⟩, rfl, ⟨_, _, rfl, rfl⟩, ⟨_, _, rfl, rfl⟩⟩

set_option maxRecDepth 20000 in
open Defaults in
/-- **C91** (hidden tests). With hidden tests the parts can run more than the whole: a filter for a tag of a hidden test asks for the test,
no filter does not. The whole is a success, one of the parts is not. -/
theorem C91_hidden : (∃ i, Comes [] hiddenFailure 0 i) ∧ (∃ i, Comes ["[db]"] hiddenFailure 1 i) ∧
    (∃ i, Comes ["~[db]"] hiddenFailure 0 i) :=
  ⟨⟨_, _, rfl, rfl⟩, ⟨_, _, rfl, rfl⟩, ⟨_, _, rfl, rfl⟩⟩

end Verif.Props
