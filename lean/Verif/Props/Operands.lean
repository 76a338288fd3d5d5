import Verif.Props.Sections
/-!
# C66: checks whose operand runs other checks
-/
namespace Verif.Props
open Verif Verif.Run Verif.Run.Spec

/-- Does a check succeed, given what its operand throws? -/
def verdict : Ask → Option Exn → Bool
  | .check ok _ _, _ => ok
  | .throwsAs type _ _, ev => throwsType ev type
  | .throwsMatches type _ matched _ _, ev => throwsType ev type && matched
  | .nothrow _ _, ev => ev.isNone

/-- Is it a `REQUIRE` variant? -/
def aborts : Ask → Bool
  | .check _ abort _ => abort
  | .throwsAs _ _ abort => abort
  | .throwsMatches _ _ _ _ abort => abort
  | .nothrow _ abort => abort

/-- The exception macros. -/
def handles : Ask → Bool
  | .check .. => false
  | _ => true

private theorem answered_eq [Run.MessageLimit] {p c : Ctx} {loc : Nat} {ask : Ask} {x : Exit}
    (h : handles ask = false → x = .normal) :
    ∃ data, answered p c loc ask x = assertedAt p c loc (verdict ask x.thrown) (aborts ask) data := by
  cases ask with
  | check ok abort data => rw [h rfl]; exact ⟨_, rfl⟩
  | throwsAs | throwsMatches | nothrow => exact ⟨_, rfl⟩

/-- **C66**. A check at a place of the body whose operand is any code without sections that skips nothing: the
operand is executed with the sections and captures of the place, everything it reports is reported, in order, and
then exactly one assertion of the check itself, with the sections and captures of the place and the location of the
check; the verdict is the one of the check. (This is for checks that can be evaluated: exceptions thrown by the
operand do not matter for the exception macros.) The location is marked as exact unless the operand used test macros. -/
theorem C66_report [Run.MessageLimit] {cfg : Cfg} {t : TestCase} {tags : List Filter.ParsedTag} (hf : Fits cfg t tags)
    (ht : Always Tidy t.body) {fs : List Frame} {loc : Nat} {o : Prog} {ask : Ask} {k : Prog}
    (hb : t.body.first = plug fs (.nested loc o ask k)) {inner : List Item} {x : Exit}
    (ho : pass o ⟨sectionsOf fs, capturesOf fs, loc, .inCheck⟩ none = (inner, x))
    (hx : handles ask = false → x = .normal) (hs : inner.any Item.isSkip = false)
    (hv : cfg.verbosity ≥ 3) {fuel : Nat} (hfuel : passCount t.body.first ≤ fuel) :
    ∃ s data rest, run cfg fuel t = some (.ok s) ∧
      s.log.filterMap observed = (itemsBefore fs ++ inner).filter Item.reported ++
        [.assertion (verdict ask x.thrown) ⟨sectionsOf fs, capturesOf fs, loc,
          if inner.any Item.isMacro then .inCheck else .exact⟩ data] ++ rest := by
  obtain ⟨s, h1, h2⟩ := C19_meaning hf ht hfuel
  obtain ⟨post, h3, _⟩ := passNo_place (pass_nested loc o ask k) fs (hb ▸ ht 0) t.loc
  obtain ⟨rest, h4⟩ := story_first t.body.no (topCtx t.loc)
  rw [no_zero, hb, h3] at h4
  have hp : pass o (Ctx.inside (contextOf t.loc fs) loc) none = (inner, x) := ho
  obtain ⟨data, hd⟩ := answered_eq (p := placeAfter (contextOf t.loc fs) loc inner) (c := contextOf t.loc fs)
    (loc := loc) hx
  have hck : (check (contextOf t.loc fs) loc ask (inner, x)).1 = inner ++ [.assertion (verdict ask x.thrown)
      ⟨sectionsOf fs, capturesOf fs, loc, if inner.any Item.isMacro then .inCheck else .exact⟩ data] := by
    simp only [check, hd, assertedAt]
    congr 3
    unfold placeAfter
    split <;> rfl
  rw [hp, hck] at h4
  obtain ⟨q1, _⟩ := itemsBefore_quiet fs
  have hquiet : (itemsBefore fs ++ (inner ++ [Item.assertion (verdict ask x.thrown)
      ⟨sectionsOf fs, capturesOf fs, loc, if inner.any Item.isMacro then .inCheck else .exact⟩ data])).any
        Item.isSkip = false := by
    simp only [List.any_append, q1, hs]
    rfl
  obtain ⟨y, hy⟩ := caseStory_eq t (tags.contains .shouldFail)
  rw [hb, h4] at hy
  obtain ⟨r, hr, _⟩ := effective_append (l' := post ++ (rest ++ y)) hquiet
  refine ⟨s, data, r.filter Item.reported, h1, ?_⟩
  have hvis : Item.visible cfg.verbosity = Item.reported := by
    funext z
    have : z.level ≤ 3 := by
      cases z <;> simp only [Item.level] <;> (try split) <;> omega
    simp only [Item.visible, decide_eq_true (show z.level ≤ cfg.verbosity by omega), Bool.and_true]
  rw [h2, hvis, hy]
  simp only [List.append_assoc] at hr ⊢
  rw [hr]
  simp only [List.filter_append, List.append_assoc]
  rfl

open Defaults in
/-- `1; { CAPTURE(x); S { CHECK_NOTHROW({ CHECK(true); throw; }); 2; } }` -/
example : ∃ s data rest, run (defaults 3) 1 (plain (plug [.after 1, .capture [['x']], .inSection 10 4 .done]
      (.nested 9 (.stmt (.check 8 (.val true) false ['d']) (.stmt (.throw ⟨[], none, false⟩) .done))
        (.nothrow ['f'] false) (.stmt (.act 2) .done)))) = some (.ok s) ∧
    s.log.filterMap observed = [.act 1, .enter 10 true, .assertion true ⟨[10], [['x']], 8, .exact⟩ ['d']] ++
      [.assertion false ⟨[10], [['x']], 9, .inCheck⟩ data] ++ rest :=
  C66_report (cfg := defaults 3) (t := plain (plug [.after 1, .capture [['x']], .inSection 10 4 .done]
      (.nested 9 (.stmt (.check 8 (.val true) false ['d']) (.stmt (.throw ⟨[], none, false⟩) .done))
        (.nothrow ['f'] false) (.stmt (.act 2) .done))))
    (plain_fits (by decide) (by decide)) (plain_always (by simp [plug, Tidy, leaves])) rfl
    (x := .raised ⟨[], none, false⟩ ⟨[10], [['x']], 9, .inCheck⟩) rfl (by decide) rfl (by decide) (by decide)

/-- **C66**. Nothing that happens in the operand of an exception macro, not even a failed `REQUIRE` or a `SKIP`, ends
the test, unless the macro is a `REQUIRE` variant whose condition fails: the next statement is executed. -/
theorem C66_goes_on [Run.MessageLimit] {cfg : Cfg} {t : TestCase} {tags : List Filter.ParsedTag} (hf : Fits cfg t tags)
    (ht : Always Tidy t.body) {fs : List Frame} {loc : Nat} {o : Prog} {ask : Ask} {n : Nat} {k : Prog}
    (hb : t.body.first = plug fs (.nested loc o ask (.stmt (.act n) k))) (hh : handles ask = true)
    (ha : aborts ask = false ∨
      verdict ask (pass o ⟨sectionsOf fs, capturesOf fs, loc, .inCheck⟩ none).2.thrown = true)
    {fuel : Nat} (hfuel : passCount t.body.first ≤ fuel) :
    ∃ s, run cfg fuel t = some (.ok s) ∧ n ∈ userActs s.log := by
  obtain ⟨s, h1, h2⟩ := C19_meaning hf ht hfuel
  have hy : ∀ c w, pass (.nested loc o ask (.stmt (.act n) k)) c w =
      andThen (andThen (check c loc ask (pass o (Ctx.inside c loc) none)) ([.act n], .normal)) (pass k c w) := by
    intro c w
    simp only [pass, passStmt]
    generalize check c loc ask (pass o (Ctx.inside c loc) none) = z
    obtain ⟨l, e⟩ := z
    cases e <;> simp [andThen]
  obtain ⟨post, h3, _⟩ := passNo_place hy fs (hb ▸ ht 0) t.loc
  obtain ⟨rest, h4⟩ := story_first t.body.no (topCtx t.loc)
  rw [no_zero, hb, h3] at h4
  refine ⟨s, h1, ?_⟩
  rw [userActs_observed, h2, itemActs_visible, (caseStory_acts t _).1, hb, h4]
  have hn : (check (contextOf t.loc fs) loc ask (pass o (Ctx.inside (contextOf t.loc fs) loc) none)).2 = .normal := by
    have ha' : aborts ask = false ∨
      verdict ask (pass o (Ctx.inside (contextOf t.loc fs) loc) none).2.thrown = true := ha
    generalize pass o (Ctx.inside (contextOf t.loc fs) loc) none = z at ha' ⊢
    obtain ⟨data, hd⟩ := answered_eq (p := placeAfter (contextOf t.loc fs) loc z.1) (c := contextOf t.loc fs)
      (loc := loc) (ask := ask) (x := z.2) (fun h => by rw [hh] at h; cases h)
    simp only [check, hd, assertedAt]
    rcases ha' with h | h <;> simp [h]
  rw [andThen_normal hn]
  simp only [itemActs_append, List.mem_append]
  exact Or.inl (Or.inl (Or.inr (Or.inr (by simp [itemActs]))))

/-- `CHECK_NOTHROW({ REQUIRE(false); 3; }); 2;` -/
def swallowed : Prog :=
  .nested 9 (.stmt (.check 8 (.val false) true ['d']) (.stmt (.act 3) .done)) (.nothrow ['f'] false)
    (.stmt (.act 2) .done)

open Defaults in
example : ∃ s, run (defaults 3) 1 (plain swallowed) = some (.ok s) ∧ 2 ∈ userActs s.log :=
  C66_goes_on (fs := []) (k := .done) (plain_fits (by decide) (by decide))
    (plain_always (by simp [Tidy, leaves])) rfl rfl (Or.inl rfl) (by decide)

open Defaults in
/-- **C66**, **C22**: a failed `REQUIRE` inside the operand of `CHECK_NOTHROW` does not stop the test case: the macro
takes the exception that should stop the test for one thrown by the code under test, and the test goes on. -/
theorem C66_require_does_not_stop :
    ∃ s, run (defaults 3) 1 (plain swallowed) = some (.ok s) ∧
      s.log.filterMap observed = [.assertion false ⟨[], [], 8, .exact⟩ ['d'],
        .assertion false ⟨[], [], 9, .inCheck⟩
          "expected f not to throw but it threw an unknown exception".toList, .act 2,
        .assertion true ⟨[], [], 1, .exact⟩ "no exception caught".toList] := by
  refine ⟨_, rfl, ?_⟩; decide

/-- **C66**. In the operand of a check that is no exception macro, a failed `REQUIRE` stops the test case: neither the
check nor anything that follows is executed or reported. -/
theorem C66_require_stops [Run.MessageLimit] {cfg : Cfg} {t : TestCase} {tags : List Filter.ParsedTag} (hf : Fits cfg t tags)
    (ht : Always Tidy t.body) (hsf : tags.contains .shouldFail = false) {fs gs : List Frame} {loc l : Nat}
    {ok abort : Bool} {data d : Text} {j k : Prog}
    (hb : t.body.first = plug fs (.nested loc (plug gs (.stmt (.check l (.val false) true d) j)) (.check ok abort data) k))
    {fuel : Nat} (hfuel : 1 ≤ fuel) :
    ∃ s, run cfg fuel t = some (.ok s) ∧
      s.log.filterMap observed = (itemsBefore fs ++ itemsBefore gs ++
        [Item.assertion false ⟨sectionsOf fs, capturesOf fs ++ capturesOf gs, l, .exact⟩ d] ++
        (sectionsOf fs).reverse.map fun id => Item.leave id true).filter (Item.visible cfg.verbosity) := by
  have hplug : ∀ (fs gs : List Frame) (P : Prog), plug fs (plug gs P) = plug (fs ++ gs) P := by
    intro fs gs P
    induction fs with
    | nil => rfl
    | cons f fs ih => cases f <;> simp only [plug, List.cons_append, ih]
  have hbody : t.body.first = plug (fs ++ .inOperand loc ok abort data k :: gs) (.stmt (.check l (.val false) true d) j) := by
    rw [hb, ← hplug]; rfl
  have hitems : ∀ fs gs : List Frame, itemsBefore (fs ++ gs) = itemsBefore fs ++ itemsBefore gs := by
    intro fs gs
    induction fs with
    | nil => rfl
    | cons f fs ih => cases f <;> simp only [itemsBefore, List.cons_append, ih]
  have hsec : ∀ fs gs : List Frame, sectionsOf (fs ++ gs) = sectionsOf fs ++ sectionsOf gs := by
    intro fs gs
    induction fs with
    | nil => rfl
    | cons f fs ih => cases f <;> simp only [sectionsOf, List.cons_append, ih]
  have hcap : ∀ fs gs : List Frame, capturesOf (fs ++ gs) = capturesOf fs ++ capturesOf gs := by
    intro fs gs
    induction fs with
    | nil => rfl
    | cons f fs ih => cases f <;> simp only [capturesOf, List.cons_append, ih, List.append_assoc]
  -- there is no section in an operand
  have htidy : ∀ (fs : List Frame) (P : Prog), Tidy (plug fs P) → Tidy P := by
    intro fs P
    induction fs with
    | nil => exact id
    | cons f fs ih =>
      intro h
      cases f with
      | after | capture => exact ih h
      | inSection | inBlock => exact ih h.1
      | inOperand => exact ih h.1.1
  have hnosec : ∀ (gs : List Frame) (P : Prog), Tidy (plug gs P) → leaves (plug gs P) = 0 → sectionsOf gs = [] := by
    intro gs P
    induction gs with
    | nil => intro _ _; rfl
    | cons f gs ih =>
      intro h h0
      cases f with
      | after | capture => exact ih h h0
      | inSection => simp only [plug, leaves] at h0; omega
      | inBlock => simp only [plug, leaves] at h0; exact ih h.1 (by omega)
      | inOperand => exact ih h.1.1 h.1.2
  have ht0 : Tidy t.body.first := ht 0
  have hg := htidy fs _ (hb ▸ ht0)
  have hgs := hnosec gs _ hg.1.1 hg.1.2
  obtain ⟨post, hpost, hst⟩ := story_ends (pass_stmt (.check l (.val false) true d) j)
    (fs := fs ++ .inOperand loc ok abort data k :: gs) (hbody ▸ ht0) (loc := t.loc) rfl
    (bodies := t.body.no) (by rw [no_zero, hbody])
  rw [no_zero] at hst
  obtain ⟨_, _, p3, p4⟩ := hpost.quiet
  obtain ⟨s, h1, h2⟩ := (run_story_any ht hf.alike hf.sections hf.captures hf.tags fuel).2 (by
    rw [hst]; exact hfuel)
  refine ⟨s, h1, ?_⟩
  have hsecs : sectionsOf (fs ++ .inOperand loc ok abort data k :: gs) = sectionsOf fs := by
    rw [hsec]; simp only [sectionsOf, hgs, List.append_nil]
  have hcaps : capturesOf (fs ++ .inOperand loc ok abort data k :: gs) = capturesOf fs ++ capturesOf gs := by
    rw [hcap]; rfl
  have hits : itemsBefore (fs ++ .inOperand loc ok abort data k :: gs) = itemsBefore fs ++ itemsBefore gs := by
    rw [hitems]; rfl
  rw [h2]
  have habort : abortExn.isAbort = true := rfl
  simp only [caseStory, hst, hsf, Bool.false_eq_true, if_false, List.append_nil, ending, habort, if_true,
    List.nil_append, passStmt, asserted, assertedAt, Ctx.exactly, Ctx.inside, contextOf, hsecs, hcaps, hits]
  rw [effective_none]
  · simp only [List.append_assoc, List.filter_append, p4, List.nil_append]
  · have : ∀ l : List Nat, (l.map fun id => Item.leave id true).any Item.isSkip = false := by
      intro l
      induction l with
      | nil => rfl
      | cons x l ih => simp [Item.isSkip]
    simp only [List.any_append, (itemsBefore_quiet fs).1, (itemsBefore_quiet gs).1, p3, this]
    rfl

open Defaults in
/-- `S { CHECK({ 1; { CAPTURE(x); REQUIRE(false); } 3; }); 2; }` -/
example : ∃ s, run (defaults 3) 1 (plain (plug [.inSection 10 4 .done]
      (.nested 9 (plug [.after 1, .inBlock (.stmt (.act 3) .done), .capture [['x']]]
        (.stmt (.check 8 (.val false) true ['d']) .done)) (.check true false []) (.stmt (.act 2) .done)))) =
      some (.ok s) ∧
    s.log.filterMap observed = [.enter 10 true, .act 1, .assertion false ⟨[10], [['x']], 8, .exact⟩ ['d'],
      .leave 10 true] :=
  C66_require_stops (cfg := defaults 3) (t := plain (plug [.inSection 10 4 .done]
      (.nested 9 (plug [.after 1, .inBlock (.stmt (.act 3) .done), .capture [['x']]]
        (.stmt (.check 8 (.val false) true ['d']) .done)) (.check true false []) (.stmt (.act 2) .done))))
    (plain_fits (by decide) (by decide)) (plain_always (by simp [plug, Tidy, leaves])) rfl rfl (by decide)

/-- `n + 1` checks, each in the operand of the one before. -/
def operands : Nat → Prog
  | 0 => .stmt (.check 1 (.val true) false []) .done
  | n + 1 => .nested 1 (operands n) (.check true false []) .done

private theorem operands_depth (n : Nat) : secDepth (operands n) = n ∧ capDepth (operands n) = 0 ∧
    leaves (operands n) = 0 ∧ Tidy (operands n) := by
  induction n with
  | zero => exact ⟨rfl, rfl, rfl, trivial⟩
  | succ n ih =>
    obtain ⟨h1, h2, h3, h4⟩ := ih
    refine ⟨?_, ?_, rfl, ⟨h4, h3⟩, trivial⟩
    · simp only [operands, secDepth, h1]; omega
    · simp only [operands, capDepth, h2]; omega

private theorem operands_abort [Run.MessageLimit] {cfg : Cfg} (n : Nat) : ∀ s : TS, s.held = none →
    s.info.locations.length ≤ cfg.maxNested + 2 → cfg.maxNested + 2 ≤ s.info.locations.length + n →
    exec cfg false (operands n) s = .abort := by
  induction n with
  | zero =>
    intro s hh h1 h2
    have h : checkEnter cfg false 1 s = .abort := by
      unfold checkEnter pushLocation
      rw [arrive_none cfg hh, if_neg (by omega)]
      rfl
    simp only [operands, exec, execStmt, h]
    rfl
  | succ n ih =>
    intro s hh h1 h2
    by_cases hr : s.info.locations.length < cfg.maxNested + 2
    · simp only [operands, exec, checkEnter_ok 1 hh hr, Outcome.bind_ok]
      rw [ih]
      · rfl
      · exact hh
      · simp only [Info.addLoc, List.length_append, List.length_cons, List.length_nil]; omega
      · simp only [Info.addLoc, List.length_append, List.length_cons, List.length_nil]; omega
    · have h : checkEnter cfg false 1 s = .abort := by
        unfold checkEnter pushLocation
        rw [arrive_none cfg hh, if_neg hr]
        rfl
      simp only [operands, exec, h]
      rfl

/-- **C66**. Checks can be nested in operands of other checks as deep as sections can be nested; deeper nesting
terminates the program (the name of the limit, `max_nested_sections`, does not tell this). -/
theorem C66_depth [Run.MessageLimit] (cfg : Cfg) (id : Filter.TestId) (loc : Nat) {tags : List Filter.ParsedTag}
    (htags : Filter.forEachTag cfg.maxTag id.tags = .ok tags) (n : Nat) {fuel : Nat} (hfuel : 1 ≤ fuel) :
    run cfg fuel ⟨id, loc, operands n⟩ = some .abort ↔ cfg.maxNested < n := by
  obtain ⟨h1, h2, h3, h4⟩ := operands_depth n
  constructor
  · intro h
    apply Classical.byContradiction
    intro hn
    obtain ⟨s, hs, _⟩ := C19_meaning (cfg := cfg) (t := ⟨id, loc, operands n⟩) (tags := tags) (fuel := fuel)
      ⟨alike_one _, always_one (by rw [h1]; omega), always_one (by rw [h2]; omega), htags⟩ (always_one h4) (by simp only [passCount, h3]; omega)
    rw [hs] at h
    cases h
  · intro hn
    obtain ⟨f, rfl⟩ : ∃ f, fuel = f + 1 := ⟨fuel - 1, by omega⟩
    have hx : exec cfg false (operands n) (resetPass (initState cfg ⟨id, loc, operands n⟩ tags)) = .abort := by
      obtain ⟨e1, e2, _⟩ := emit_fields cfg 2 (.caseStarted id) (freshState ⟨id, loc, operands n⟩ tags)
      have hl : (resetPass (initState cfg ⟨id, loc, operands n⟩ tags)).info.locations.length = 1 := by
        show (emit cfg 2 (.caseStarted id) (freshState ⟨id, loc, operands n⟩ tags)).info.locations.length = 1
        rw [e1]; rfl
      apply operands_abort
      · show (emit cfg 2 (.caseStarted id) (freshState ⟨id, loc, operands n⟩ tags)).held = none
        rw [e2]; rfl
      · rw [hl]; omega
      · rw [hl]; omega
    unfold run
    simp only [htags, runLoop, no_zero, hx]

open Defaults in
example : run (defaults 3) 1 (plain (operands 9)) = some .abort :=
  (C66_depth (defaults 3) _ 1 (tags := []) rfl 9 (by decide)).mpr (by decide)
open Defaults in
example : run (defaults 3) 1 (plain (operands 8)) ≠ some .abort := fun h =>
  absurd ((C66_depth (defaults 3) _ 1 (tags := []) rfl 8 (by decide)).mp h) (by decide)

end Verif.Props
