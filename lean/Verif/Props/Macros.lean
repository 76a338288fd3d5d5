import Verif.Spec.Macros
import Verif.Props.Registry
/-!
# Declaring tests, fixtures, and a build with the framework disabled (C72)
-/
namespace Verif.Props
open Verif Verif.Macros Verif.Macros.Spec Verif.Reg Verif.Reg.Spec Verif.Run Verif.Run.Spec

section
variable [MessageLimit]

/-! ## Declarations -/

private theorem addImpl_eq (lim : Limits) (t : TestCase) (f : Text) (list : List Entry) :
    Macros.addImpl lim t f list =
      if list.length = lim.maxTests then .abort
      else if Registrable lim.maxName t then .ok (list ++ [⟨t, f, .notRun⟩]) else .abort := by
  have hname : (Filter.makeFullName lim.maxName t.id).isEmpty = false ↔ Registrable lim.maxName t := by
    rw [makeFullName_eq]
    unfold Registrable
    by_cases hl : (Reg.Spec.fullName t.id).length ≤ lim.maxName
    · rw [if_pos hl]; simp only [hl, and_true]; cases Reg.Spec.fullName t.id <;> simp
    · rw [if_neg hl]; simp [hl]
  unfold Macros.addImpl
  by_cases h : list.length = lim.maxTests
  · rw [if_pos h, if_pos h]
  · rw [if_neg h, if_neg h]
    dsimp only
    by_cases hr : Registrable lim.maxName t
    · rw [hname.mpr hr, if_pos hr, if_neg (by decide)]
    · rw [if_neg hr, if_pos]
      cases hx : (Filter.makeFullName lim.maxName t.id).isEmpty with
      | true => rfl
      | false => exact absurd (hname.mp hx) hr

/-- Tests registered one after the other. -/
private def addEach (lim : Limits) : List Test → List Entry → Outcome (List Entry)
  | [], list => .ok list
  | t :: ts, list => do
    let list ← Macros.addImpl lim (entry t).test t.fixture list
    addEach lim ts list

omit [MessageLimit] in
private theorem addEach_append (lim : Limits) (ts us : List Test) (list : List Entry) :
    addEach lim (ts ++ us) list = addEach lim ts list >>= addEach lim us := by
  induction ts generalizing list with
  | nil => rfl
  | cons t ts ih =>
    rw [List.cons_append, addEach, addEach]
    cases Macros.addImpl lim (entry t).test t.fixture list with
    | ok l => exact ih l
    | abort => rfl
    | ub => rfl

omit [MessageLimit] in
private theorem addWithTypes_each (lim : Limits) (name tags : Text) (loc : Nat) (types : List (Text × Body))
    (list : List Entry) : Macros.addWithTypes lim name tags loc types list =
      addEach lim (types.map fun t => ⟨name, tags, t.1, [], loc, t.2⟩) list := by
  induction types generalizing list with
  | nil => rfl
  | cons t types ih =>
    rw [Macros.addWithTypes, List.map_cons, addEach]
    exact congrArg _ (funext fun l => ih l)

omit [MessageLimit] in
private theorem addFixtureWithTypes_each (lim : Limits) (fixture name tags : Text) (loc : Nat)
    (types : List (Text × Body)) (list : List Entry) :
    Macros.addFixtureWithTypes lim fixture name tags loc types list =
      addEach lim (types.map fun t => ⟨name, tags, t.1, fixture, loc, t.2⟩) list := by
  induction types generalizing list with
  | nil => rfl
  | cons t types ih =>
    rw [Macros.addFixtureWithTypes, List.map_cons, addEach]
    exact congrArg _ (funext fun l => ih l)

omit [MessageLimit] in
private theorem one (x : Outcome (List Entry)) : (x >>= fun l => Outcome.ok l) = x := by cases x <;> rfl

omit [MessageLimit] in
private theorem declare_each (lim : Limits) (d : Decl) (list : List Entry) :
    declare lim d list = addEach lim (Spec.tests d) list := by
  cases d with
  | testCase name tags loc body => exact (one _).symm
  | templateTestCase name tags loc types => exact addWithTypes_each ..
  | templateListTestCase name tags loc types => exact addWithTypes_each ..
  | testCaseMethod f name tags loc body => exact (one _).symm
  | templateTestCaseMethod f name tags loc types =>
    rw [declare, addFixtureWithTypes_each, List.map_map]; rfl
  | templateListTestCaseMethod f name tags loc types =>
    rw [declare, addFixtureWithTypeList, addFixtureWithTypes_each, List.map_map]; rfl

omit [MessageLimit] in
private theorem declareAll_each (lim : Limits) (ds : List Decl) (list : List Entry) :
    declareAll true lim ds list = addEach lim (ds.flatMap Spec.tests) list := by
  induction ds generalizing list with
  | nil => rfl
  | cons d ds ih =>
    rw [declareAll, List.flatMap_cons, addEach_append, if_pos rfl, declare_each]
    exact congrArg _ (funext fun l => ih l)

private theorem addEach_eq (lim : Limits) (ts : List Test) (list : List Entry) (h : list.length ≤ lim.maxTests) :
    addEach lim ts list =
      if list.length + ts.length ≤ lim.maxTests ∧ ∀ t ∈ ts, Registrable lim.maxName (entry t).test then
        .ok (list ++ ts.map entry)
      else .abort := by
  induction ts generalizing list with
  | nil => rw [if_pos ⟨by simpa using h, by simp⟩]; simp [addEach]
  | cons t ts ih =>
    rw [addEach, addImpl_eq]
    by_cases hfull : list.length = lim.maxTests
    · rw [if_pos hfull, if_neg (by simp; omega)]; rfl
    · rw [if_neg hfull]
      by_cases hr : Registrable lim.maxName (entry t).test
      · rw [if_pos hr, Outcome.bind_ok, ih _ (by simp; omega)]
        by_cases hc : list.length + (t :: ts).length ≤ lim.maxTests ∧
            ∀ t ∈ ts, Registrable lim.maxName (entry t).test
        · rw [if_pos ⟨by have := hc.1; simp at this ⊢; omega, hc.2⟩, if_pos ⟨hc.1, by
            intro x hx
            rcases List.mem_cons.mp hx with rfl | hx
            · exact hr
            · exact hc.2 x hx⟩]
          simp [entry]
        · rw [if_neg (fun h' => hc ⟨by have := h'.1; simp at this ⊢; omega, h'.2⟩),
            if_neg (fun h' => hc ⟨h'.1, fun x hx => h'.2 x (by simp [hx])⟩)]
      · rw [if_neg hr, if_neg (fun h' => hr (h'.2 t (by simp)))]
        rfl

/-- **C72**. After static initialisation the registry holds exactly the tests that the declarations stand for, in the
order of the declarations (and of the types, for one declaration), with their names, tags, types, fixtures, locations and
bodies, and none has been run; provided that there is room for all of them and every full name fits and is not empty.
Otherwise the program ends in the assertion handler. -/
theorem C72_registered (lim : Limits) (decls : List Decl) :
    declareAll true lim decls [] =
      if (decls.flatMap Spec.tests).length ≤ lim.maxTests ∧
          ∀ t ∈ decls.flatMap Spec.tests, Registrable lim.maxName (entry t).test then
        .ok ((decls.flatMap Spec.tests).map entry)
      else .abort := by
  rw [declareAll_each, addEach_eq _ _ _ (by simp)]
  simp only [List.length_nil, Nat.zero_add, List.nil_append]

omit [MessageLimit] in
/-- **C72**. A type list given as the arguments of a template and the same types written out declare the same tests. -/
theorem C72_type_list (lim : Limits) (name tags holder : Text) (loc : Nat) (types : List (Text × Body))
    (list : List Entry) :
    declare lim (.templateListTestCase name tags loc (holder, types)) list =
      declare lim (.templateTestCase name tags loc types) list := by
  rw [declare_each, declare_each]; rfl

/-- **C72**. The program runs with exactly these tests. -/
theorem C72_program (lim : Limits) (fuel maxArgs : Nat) (reporters : List Text) (init : Nat → Nat → Nat)
    (config : Cli.Config) (argv0 : Text) (argv : List Text) (decls : List Decl)
    (hroom : (decls.flatMap Spec.tests).length ≤ lim.maxTests)
    (hn : ∀ t ∈ decls.flatMap Spec.tests, Registrable lim.maxName (entry t).test) :
    program true lim fuel maxArgs reporters init config argv0 argv decls =
      Reg.main lim fuel maxArgs reporters init config argv0 argv
        ((decls.flatMap Spec.tests).map fun t => { test := ⟨⟨t.name, t.tags, t.type⟩, t.loc, t.body⟩, state := .notRun }) := by
  unfold program
  rw [C72_registered, if_pos ⟨hroom, hn⟩]
  dsimp only
  rw [if_pos rfl, List.map_map]
  rfl

/-- **C72**. Otherwise no test is run at all: the program ends in the assertion handler before `main`. -/
theorem C72_refused (lim : Limits) (fuel maxArgs : Nat) (reporters : List Text) (init : Nat → Nat → Nat)
    (config : Cli.Config) (argv0 : Text) (argv : List Text) (decls : List Decl)
    (h : lim.maxTests < (decls.flatMap Spec.tests).length ∨
      ∃ t ∈ decls.flatMap Spec.tests, ¬ Registrable lim.maxName (entry t).test) :
    program true lim fuel maxArgs reporters init config argv0 argv decls = some .abort := by
  unfold program
  rw [C72_registered, if_neg]
  rintro ⟨h1, h2⟩
  rcases h with h | ⟨t, ht, hn⟩
  · omega
  · exact hn (h2 t ht)

/-! ## Fixtures -/

omit [MessageLimit] in
private theorem around_leaves {f : Fixture} (hc : leaves f.ctor = 0) (body : Prog) :
    leaves (f.around body) = leaves body := by
  simp [Fixture.around, leaves, hc]

omit [MessageLimit] in
private theorem around_passCount {f : Fixture} (hc : leaves f.ctor = 0) (body : Prog) :
    passCount (f.around body) = passCount body := by
  unfold passCount; rw [around_leaves hc]

omit [MessageLimit] in
private theorem call_no (f : Fixture) (body : Body) (n : Nat) : (f.call body).no n = f.around (body.no n) := by
  unfold Body.no Fixture.call
  have h1 : f.around body.first :: body.later.map f.around = (body.first :: body.later).map f.around := rfl
  have h2 : (body.later.map f.around).getLastD (f.around body.first) = f.around (body.later.getLastD body.first) := by
    cases h : body.later with
    | nil => rfl
    | cons p l => exact List.getLast_map (f := f.around) (l := p :: l) (by simp)
  dsimp only
  rw [h1, h2, List.getElem?_map]
  cases (body.first :: body.later)[n]? <;> rfl

private theorem around_pass {f : Fixture} (hc : leaves f.ctor = 0) (body : Prog) (c : Ctx) (n : Nat) :
    passNo (f.around body) c n = life f body c n := by
  unfold passNo life
  rw [around_leaves hc]
  by_cases hb : leaves body = 0
  · rw [if_pos hb, Fixture.around, pass, pass]
    unfold passNo
    rw [if_pos hb]
  · rw [if_neg hb, Fixture.around, pass, if_neg (by omega), pass, hc]
    unfold passNo
    rw [if_neg hb]
    rfl

private theorem story_repeated (bodies : Nat → Prog) (c : Ctx) (k n : Nat) (seen : List Item) :
    (story bodies c k n seen).1 = repeated (fun n => passNo (bodies n) c n) k n seen := by
  induction k generalizing n seen with
  | zero => rfl
  | succ k ih =>
    unfold story repeated
    cases passNo (bodies n) c n with
    | mk l x =>
      cases x with
      | raised e a => rfl
      | normal =>
        dsimp only
        split
        · rfl
        · exact ih _ _

/-- **C72**. A test with a fixture: whatever the constructor, the body and the destructor do (within what `Tidy` says), what
the run of the test reports and which user statements it executes is the story told by `fixtureStory`: each execution has
a fixture of its own, made before the body and destroyed after it. -/
theorem C72_method {cfg : Cfg} {f : Fixture} {body : Body} {id : Filter.TestId} {loc : Nat}
    {tags : List Filter.ParsedTag} (hf : Fits cfg ⟨id, loc, f.call body⟩ tags) (hc : leaves f.ctor = 0)
    (ht : Always Tidy (f.call body)) {fuel : Nat} (hfuel : passCount body.first ≤ fuel) :
    ∃ s, run cfg fuel ⟨id, loc, f.call body⟩ = some (.ok s) ∧ s.log.filterMap observed =
      (fixtureStory f body loc (tags.contains .shouldFail)).filter (Item.visible cfg.verbosity) := by
  have hp : passCount (f.call body).first = passCount body.first := around_passCount hc _
  obtain ⟨s, h1, h2⟩ := C19_meaning hf ht (by rw [hp]; exact hfuel)
  refine ⟨s, h1, ?_⟩
  rw [h2]
  have e : caseStory ⟨id, loc, f.call body⟩ (tags.contains .shouldFail) =
      fixtureStory f body loc (tags.contains .shouldFail) := by
    unfold caseStory fixtureStory
    dsimp only
    rw [story_repeated, hp]
    simp only [call_no, around_pass hc]
  rw [e]

/-- **C72**. If nothing interrupts the test, each of its executions consists of the constructor, the statements of the
body for one leaf section, and the destructor. -/
theorem C72_method_statements {cfg : Cfg} {f : Fixture} {body : Body} {id : Filter.TestId} {loc : Nat}
    {tags : List Filter.ParsedTag} (hf : Fits cfg ⟨id, loc, f.call body⟩ tags) (hc : Calm f.ctor ∧ leaves f.ctor = 0)
    (hd : Calm f.dtor ∧ leaves f.dtor = 0) (hb : Always Calm body) {fuel : Nat} (hfuel : (runsOf body).length ≤ fuel) :
    ∃ s, run cfg fuel ⟨id, loc, f.call body⟩ = some (.ok s) ∧
      userActs s.log = (runsOf body).flatMap fun e => outside f.ctor ++ e ++ outside f.dtor := by
  have hl : leafRuns f.ctor = [] := List.eq_nil_of_length_eq_zero (by rw [leafRuns_length]; exact hc.2)
  have he : ∀ p, executions (f.around p) = (executions p).map fun e => outside f.ctor ++ e ++ outside f.dtor := by
    intro p
    unfold executions orOutside
    have h1 : leafRuns (f.around p) = (leafRuns p).map fun e => outside f.ctor ++ e ++ outside f.dtor := by
      simp [Fixture.around, leafRuns, hl, List.map_map, Function.comp_def]
    rw [h1]
    by_cases hb : leafRuns p = []
    · simp [hb, Fixture.around, outside]
    · simp [hb]
  have hlen : ∀ n, (executions (body.no n)).length = passCount body.first := by
    intro n
    have h := same_leaves (hf.alike n)
    dsimp only at h
    rw [call_no, around_leaves hc.2, show (f.call body).first = f.around body.first from rfl, around_leaves hc.2] at h
    unfold executions orOutside passCount
    rw [← h, ← leafRuns_length]
    cases leafRuns (body.no n) <;> simp
  have hr : runsOf (f.call body) = (runsOf body).map fun e => outside f.ctor ++ e ++ outside f.dtor := by
    unfold runsOf
    rw [show (f.call body).first = f.around body.first from rfl, around_passCount hc.2, List.map_map]
    refine List.map_congr_left fun n hn => ?_
    have hn' : n < (executions (body.no n)).length := by rw [hlen]; exact List.mem_range.1 hn
    simp only [Function.comp, call_no, he]
    rw [List.getD_eq_getElem?_getD, List.getD_eq_getElem?_getD, List.getElem?_map, List.getElem?_eq_getElem hn']
    rfl
  obtain ⟨s, h1, h2⟩ := C19_executions hf (fun n => by
      dsimp only; rw [call_no]; exact ⟨hc.1, hd, hb n⟩)
    (by dsimp only; rw [hr, List.length_map]; exact hfuel)
  exact ⟨s, h1, by rw [h2]; dsimp only; rw [hr, List.flatMap_def]⟩

/-- **C72**. If the constructor of the fixture throws, neither the body nor the destructor is executed: what happens is
what happens in the constructor, and the report of the exception. -/
theorem C72_constructor_throws {cfg : Cfg} {f : Fixture} {body : Body} {id : Filter.TestId} {loc : Nat}
    {tags : List Filter.ParsedTag} (hf : Fits cfg ⟨id, loc, f.call body⟩ tags) (hc : leaves f.ctor = 0)
    (ht : Always Tidy (f.call body)) {fuel : Nat} (hfuel : passCount body.first ≤ fuel) {l : List Item} {e : Exn} {a : Ctx}
    (hr : pass f.ctor (topCtx loc) none = (l, .raised e a)) (hs : tags.contains .shouldFail = false) :
    ∃ s, run cfg fuel ⟨id, loc, f.call body⟩ = some (.ok s) ∧ s.log.filterMap observed =
      (effective (l ++ ending loc (.raised e a))).filter (Item.visible cfg.verbosity) := by
  obtain ⟨s, h1, h2⟩ := C72_method hf hc ht hfuel
  refine ⟨s, h1, ?_⟩
  rw [h2]
  obtain ⟨k, hk⟩ : ∃ k, passCount body.first = k + 1 := ⟨passCount body.first - 1, by unfold passCount; omega⟩
  unfold fixtureStory
  rw [hk, hs, repeated]
  simp [life, hr, andThen]

/-- **C72**. If the body throws, the fixture is destroyed nevertheless: what its destructor does comes after what happened
in the constructor and in the body, and before the report of the exception. -/
theorem C72_body_throws {cfg : Cfg} {f : Fixture} {body : Body} {id : Filter.TestId} {loc : Nat}
    {tags : List Filter.ParsedTag} (hf : Fits cfg ⟨id, loc, f.call body⟩ tags) (hc : leaves f.ctor = 0)
    (ht : Always Tidy (f.call body)) {fuel : Nat} (hfuel : passCount body.first ≤ fuel) {l l' : List Item} {e : Exn} {a : Ctx}
    (hn : pass f.ctor (topCtx loc) none = (l, .normal)) (hr : passNo body.first (topCtx loc) 0 = (l', .raised e a))
    (hs : tags.contains .shouldFail = false) :
    ∃ s, run cfg fuel ⟨id, loc, f.call body⟩ = some (.ok s) ∧ s.log.filterMap observed =
      (effective (l ++ l' ++ (pass f.dtor (topCtx loc) none).1 ++ ending loc (.raised e a))).filter
        (Item.visible cfg.verbosity) := by
  obtain ⟨s, h1, h2⟩ := C72_method hf hc ht hfuel
  refine ⟨s, h1, ?_⟩
  rw [h2]
  obtain ⟨k, hk⟩ : ∃ k, passCount body.first = k + 1 := ⟨passCount body.first - 1, by unfold passCount; omega⟩
  unfold fixtureStory
  rw [hk, hs, repeated]
  simp [life, no_zero, hn, hr, andThen, anyway]

/-! ## The framework disabled -/

/-- **C72**. With the framework disabled no test is registered, however many are declared, and the program does nothing
and succeeds, whatever its arguments. -/
theorem C72_disabled (lim : Limits) (fuel maxArgs : Nat) (reporters : List Text) (init : Nat → Nat → Nat)
    (config : Cli.Config) (argv0 : Text) (argv : List Text) (decls : List Decl) :
    declareAll false lim decls [] = .ok [] ∧
    program false lim fuel maxArgs reporters init config argv0 argv decls = some (.ok (0, [])) := by
  have h : ∀ list, declareAll false lim decls list = .ok list := by
    induction decls with
    | nil => intro list; rfl
    | cons d ds ih => intro list; rw [declareAll]; exact ih list
  exact ⟨h [], by unfold program; rw [h]; rfl⟩

/-- What `without` says as an outcome. -/
private def outcome (x : Option (List Nat × Option Exn)) (s : TS) : Outcome (TS × Res) :=
  match x with
  | none => .abort
  | some (l, none) => .ok ({ s with log := s.log ++ l.map .user }, .normal)
  | some (l, some e) => .ok ({ s with log := s.log ++ l.map .user }, .raised e)

/-- **C72**. Code that uses test macros, built with the framework disabled, executes the user statements it contains as if
the macros were not there: it needs no running test, does not touch the state of any, reports nothing, and evaluates no
operand of a check. -/
theorem C72_disabled_code {K : Prog} (h : Silent K) (cfg : Cfg) (fl : Bool) (s : TS) :
    exec cfg fl (disabled K) s =
      match without K with
      | none => .abort
      | some (l, none) => .ok ({ s with log := s.log ++ l.map .user }, .normal)
      | some (l, some e) => .ok ({ s with log := s.log ++ l.map .user }, .raised e) := by
  change _ = outcome (without K) s
  induction K generalizing fl s with
  | done => simp [disabled, exec, without, outcome]
  | stmt m k ih =>
    have ih' := fun fl s => ih h.2 fl s
    cases m with
    | act a =>
      rw [disabled, exec, execStmt, Outcome.bind_ok]
      dsimp only
      rw [ih', without]
      rcases without k with _ | ⟨l, _ | e⟩ <;> simp [outcome]
    | throw e => simp [disabled, exec, without, outcome, execStmt]
    | notify => exact absurd rfl h.1
    | check loc ev a d => rw [disabled, ih']; rfl
    | skip loc a m => rw [disabled, ih']; rfl
    | throwsAs => rw [disabled, ih']; rfl
    | throwsMatches => rw [disabled, ih']; rfl
    | nothrow => rw [disabled, ih']; rfl
  | sec id loc b k _ ih => rw [disabled, ih h]; rfl
  | capture caps k ih => rw [disabled, ih h]; rfl
  | nested loc o ask k _ ih => rw [disabled, ih h]; rfl
  | block b k ihb ihk =>
    rw [disabled, exec, ihb h.1, without]
    rcases without b with _ | ⟨l, _ | e⟩
    · rfl
    · simp only [outcome, Outcome.bind_ok]
      rw [ihk h.2]
      rcases without k with _ | ⟨l', _ | e'⟩ <;> simp [outcome]
    · rfl
  | tryCatch type b hd k ihb ihh ihk =>
    rw [disabled, exec, ihb h.1, without]
    rcases without b with _ | ⟨l, _ | e⟩
    · rfl
    · simp only [outcome, Outcome.bind_ok]
      rw [ihk h.2.2]
      rcases without k with _ | ⟨l', _ | e'⟩ <;> simp [outcome]
    · simp only [outcome, Outcome.bind_ok]
      by_cases hc : catches type e = true
      · rw [if_pos hc, if_pos hc, ihh h.2.1]
        rcases without hd with _ | ⟨l', _ | e'⟩
        · rfl
        · simp only [outcome, Outcome.bind_ok]
          rw [ihk h.2.2]
          rcases without k with _ | ⟨l'', _ | e''⟩ <;> simp [outcome]
        · simp [outcome]
      · rw [if_neg hc, if_neg hc]; rfl
  | guard c k ihc ihk =>
    rw [disabled, exec, ihk h.2, without]
    rcases without k with _ | ⟨l, _ | e⟩
    · rfl
    all_goals
      simp only [outcome, Outcome.bind_ok]
      rw [ihc h.1]
      rcases without c with _ | ⟨l', _ | e'⟩ <;> simp [outcome]

omit [MessageLimit] in
private theorem without_calm {K : Prog} (hq : Silent K) (hf : Unnested K) (hc : Calm K) :
    without K = some (outside K, none) := by
  induction K with
  | done => rfl
  | stmt m k ih =>
    have := ih hq.2 hf hc.2
    cases m with
    | act a => simp [without, outside, this]
    | throw e => simp [Calm, calmStmt] at hc
    | notify => exact absurd rfl hq.1
    | check loc ev a d => exact this
    | skip loc a m => exact this
    | throwsAs => exact this
    | throwsMatches => exact this
    | nothrow => exact this
  | sec => exact hf.elim
  | capture caps k ih => exact ih hq hf hc
  | nested => exact hf.elim
  | block b k ihb ihk =>
    rw [without, ihb hq.1 hf.1 hc.1, ihk hq.2 hf.2 hc.2]; rfl
  | tryCatch => exact hc.elim
  | guard c k ihc ihk =>
    rw [without, ihk hq.2 hf.2 hc.2, ihc hq.1 hf.1 hc.1.1]; rfl

omit [MessageLimit] in
private theorem flat_leaves {K : Prog} (hf : Unnested K) : leafRuns K = [] := by
  induction K with
  | done => rfl
  | stmt m k ih => cases m <;> simp [leafRuns, ih hf]
  | sec => exact hf.elim
  | capture caps k ih => exact ih hf
  | nested => exact hf.elim
  | block b k ihb ihk => simp [leafRuns, ihb hf.1, ihk hf.2]
  | tryCatch t b h k _ _ ihk => exact ihk hf.2.2
  | guard c k _ ihk => simp [leafRuns, ihk hf.2]

/-- **C72**. Code without sections and without test macros in operands which nothing interrupts executes the same user
statements in both builds: in a test, and with the framework disabled (in any state). -/
theorem C72_same_statements {cfg : Cfg} {t : TestCase} {tags : List Filter.ParsedTag} (hfit : Fits cfg t tags)
    (hq : Silent t.body.first) (hf : Unnested t.body.first) (hc : Always Calm t.body) {fuel : Nat} (hfuel : 1 ≤ fuel) :
    ∃ s l, run cfg fuel t = some (.ok s) ∧ userActs s.log = l ∧
      ∀ cfg' fl s', exec cfg' fl (disabled t.body.first) s' = .ok ({ s' with log := s'.log ++ l.map .user }, .normal) := by
  obtain ⟨s, h1, h2⟩ := C19_no_section hfit hc (by rw [← leafRuns_length, flat_leaves hf]; rfl) hfuel
  refine ⟨s, outside t.body.first, h1, h2, fun cfg' fl s' => ?_⟩
  rw [C72_disabled_code hq, without_calm hq hf (hc 0)]

end

/-! ## Cases that meet the hypotheses -/

private def making : Prog := .stmt (.act 1) (.stmt (.check 3 (.val true) true []) .done)

private def clearing : Prog := .stmt (.act 9) .done

/-- A fixture with a check in its constructor, and a destructor. -/
private def setup : Fixture := ⟨"my_fixture".toList, making, clearing⟩

/-- A body with two sections. -/
private def twoSections : Prog :=
  .stmt (.act 2) (.sec 1 4 (.stmt (.act 3) .done) (.sec 2 5 (.stmt (.act 4) .done) .done))

private def someDecls : List Decl :=
  [.testCase "a".toList "[x]".toList 1 (Prog.done : Prog),
   .templateTestCase "b".toList [] 2 [("int".toList, Prog.done), ("char".toList, Prog.stmt (.act 5) .done)],
   .testCaseMethod setup "c".toList [] 6 twoSections]

example : (someDecls.flatMap Spec.tests).length ≤ 5000 ∧
    (∀ t ∈ someDecls.flatMap Spec.tests, Registrable 1024 (entry t).test) ∧
    (someDecls.flatMap Spec.tests).map (fun t => (t.name, t.type, t.fixture)) =
      [("a".toList, [], []), ("b".toList, "int".toList, []), ("b".toList, "char".toList, []),
       ("c".toList, [], "my_fixture".toList)] := by
  refine ⟨by decide, by decide, by decide⟩

open Defaults in
/-- A registry with room for three tests only. -/
example : declareAll true { defaultLimits 1 with maxTests := 3 } someDecls [] = .abort := by
  rw [C72_registered, if_neg]
  intro h
  exact absurd h.1 (by decide)

/-- The same, but in its second execution something more is done. -/
private def changing : Body where
  first := twoSections
  later := [.stmt (.act 2) (.sec 1 4 (.stmt (.act 3) .done) (.sec 2 5 (.stmt (.act 4) (.stmt (.act 5) .done)) .done))]

private theorem changing_fits : Fits (defaults 1) { plain .done with body := setup.call changing } [] := by
  refine ⟨?_, ?_, ?_, rfl⟩
  · rw [Alike, always_iff]; decide
  · rw [always_iff]
    show secDepth (setup.call changing).first ≤ 8 ∧ ∀ p ∈ (setup.call changing).later, secDepth p ≤ 8
    decide
  · rw [always_iff]
    show capDepth (setup.call changing).first ≤ 8 ∧ ∀ p ∈ (setup.call changing).later, capDepth p ≤ 8
    decide

open Defaults in
example : ∃ s, run (defaults 1) 2 { plain .done with body := setup.call changing } = some (.ok s) ∧
    userActs s.log = [1, 2, 3, 9, 1, 2, 4, 5, 9] :=
  C72_method_statements (f := setup) (body := changing) changing_fits
    ⟨(by simp [making, Calm, calmStmt] : Calm making), rfl⟩ ⟨(by simp [clearing, Calm, calmStmt] : Calm clearing), rfl⟩
    (by rw [always_iff]; simp [changing, twoSections, Calm, calmStmt]) (by decide)

/-- A fixture whose constructor throws, and a body that throws. -/
private def broken : Fixture := ⟨"F".toList, .stmt (.throw ⟨[1], none, false⟩) .done, clearing⟩

private def throwing : Prog := .stmt (.act 2) (.stmt (.throw ⟨[1], none, false⟩) .done)

open Defaults in
example : Fits (defaults 3) (plain (broken.around throwing)) [] ∧ Tidy (broken.around throwing) ∧ leaves broken.ctor = 0 ∧
    pass broken.ctor (topCtx 0) none = ([], .raised ⟨[1], none, false⟩ (topCtx 0)) ∧
    Fits (defaults 3) (plain (setup.around throwing)) [] ∧ Tidy (setup.around throwing) ∧ leaves setup.ctor = 0 ∧
    (∃ l, pass setup.ctor (topCtx 0) none = (l, .normal)) ∧
    passNo throwing (topCtx 0) 0 = ([.act 2], .raised ⟨[1], none, false⟩ (topCtx 0)) := by
  have h1 : Tidy (.block (.stmt (.throw ⟨[1], none, false⟩) .done) (.guard clearing throwing)) := by
    simp [clearing, throwing, Tidy, Calm, calmStmt, Bare, leaves]
  have h2 : Tidy (.block making (.guard clearing throwing)) := by
    simp [making, clearing, throwing, Tidy, Calm, calmStmt, Bare, leaves]
  exact ⟨plain_fits (by decide) (by decide), h1, rfl, rfl, plain_fits (by decide) (by decide), h2, rfl, ⟨_, rfl⟩, rfl⟩

/-- Code mixed with checks. -/
private def mixed : Prog :=
  .stmt (.act 1) (.stmt (.check 1 (.val false) false []) (.guard (.stmt (.act 3) .done)
    (.capture [[]] (.stmt (.act 2) .done))))

example : Silent mixed ∧ Unnested mixed ∧ Calm mixed ∧ without mixed = some ([1, 2, 3], none) ∧
    without (.stmt (.check 1 (.exc ⟨[], none, false⟩) true []) mixed) = some ([1, 2, 3], none) := by
  refine ⟨by simp [mixed, Silent], by simp [mixed, Unnested], by simp [mixed, Calm, calmStmt, leaves], rfl, rfl⟩

end Verif.Props
