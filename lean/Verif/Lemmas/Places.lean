import Verif.Lemmas.Calm
/-! # Places in a test body, any verbosity, and what does not depend on the rest of the body -/
namespace Verif.Run
open Spec

/-- The context of a place, from the context of what surrounds it. -/
def placeCtx (c : Ctx) (fs : List Frame) : Ctx :=
  { path := c.path ++ sectionsOf fs
    caps := c.caps ++ capturesOf fs
    loc := (locationOf (c.loc, c.locType) fs).1
    locType := (locationOf (c.loc, c.locType) fs).2 }

theorem placeCtx_top (loc : Nat) (fs : List Frame) : placeCtx (topCtx loc) fs = contextOf loc fs := by
  simp [placeCtx, topCtx, contextOf]

theorem placeCtx_section (c : Ctx) (id l : Nat) (rest : Prog) (fs : List Frame) :
    placeCtx (Ctx.inSection c id l) fs = placeCtx c (.inSection id l rest :: fs) := by
  simp [placeCtx, Ctx.inSection, sectionsOf, capturesOf, locationOf]

theorem placeCtx_capture (c : Ctx) (caps : List Text) (fs : List Frame) :
    placeCtx { c with caps := c.caps ++ caps } fs = placeCtx c (.capture caps :: fs) := by
  simp [placeCtx, sectionsOf, capturesOf, locationOf]

theorem placeCtx_operand (c : Ctx) (l : Nat) (ok abort : Bool) (data : Text) (rest : Prog) (fs : List Frame) :
    placeCtx (Ctx.inside c l) fs = placeCtx c (.inOperand l ok abort data rest :: fs) := by
  simp [placeCtx, Ctx.inside, sectionsOf, capturesOf, locationOf]

/-- Nothing but checks which could not be evaluated. -/
def OnlyInterrupted (l : List Item) : Prop := ∀ x ∈ l, ∃ loc, x = Item.interrupted loc

/-- The first execution of a body that has something at a place, given what it does there before going on. -/
theorem first_reached [MessageLimit] {P k : Prog} {y : Ctx → List Item × Exit}
    (hy : ∀ c w, pass P c w = andThen (y c) (pass k c w)) (fs : List Frame) : ∀ (c : Ctx) (w : Option Nat),
    Tidy (plug fs P) → (w = some 0 ∨ leaves (plug fs P) = 0) →
    ∃ post, (pass (plug fs P) c w).1 =
        itemsBefore fs ++ (y (placeCtx c fs)).1 ++ post ∧
      ∀ e a, (y (placeCtx c fs)).2 = .raised e a →
        OnlyInterrupted post ∧ (pass (plug fs P) c w).2 = .raised e a := by
  induction fs with
  | nil =>
    intro c w _ _
    have hc : placeCtx c [] = c := by simp [placeCtx, sectionsOf, capturesOf, locationOf]
    rw [hc]
    simp only [plug, hy, itemsBefore, List.nil_append]
    cases hx : (y c).2 with
    | normal =>
      rw [andThen_normal hx]
      exact ⟨_, rfl, fun e a h => by cases h⟩
    | raised e a =>
      refine ⟨[], ?_, ?_⟩
      · simp [andThen, hx]
      · intro e' a' h
        cases h
        exact ⟨fun x hx => by simp at hx, by simp [andThen, hx]⟩
  | cons f fs ih =>
    intro c w ht hw
    cases f with
    | after a =>
      have hc : placeCtx c (.after a :: fs) = placeCtx c fs := by
        simp [placeCtx, sectionsOf, capturesOf, locationOf]
      obtain ⟨post, h1, h2⟩ := ih c w ht (by simpa [plug, leaves] using hw)
      have hp : pass (plug (.after a :: fs) P) c w =
          (.act a :: (pass (plug fs P) c w).1, (pass (plug fs P) c w).2) := by
        simp only [plug, pass]
        rw [andThen_normal (by rfl)]
        rfl
      rw [hp, hc]
      exact ⟨post, by simp [h1, itemsBefore], h2⟩
    | capture caps =>
      obtain ⟨post, h1, h2⟩ := ih { c with caps := c.caps ++ caps } w ht (by simpa [plug, leaves] using hw)
      rw [placeCtx_capture] at h1 h2
      refine ⟨post, ?_, ?_⟩
      · simp only [plug, pass, itemsBefore]; exact h1
      · simp only [plug, pass]; exact h2
    | inSection id l rest =>
      have hw0 : w = some 0 := by
        rcases hw with h | h
        · exact h
        · simp only [plug, leaves] at h; omega
      subst hw0
      obtain ⟨post, h1, h2⟩ := ih (Ctx.inSection c id l)
        (if leaves (plug fs P) = 0 then none else some 0) ht.1 (by split <;> simp [*])
      rw [placeCtx_section c id l rest] at h1 h2
      have hp : pass (plug (.inSection id l rest :: fs) P) c (some 0) =
          andThen ([.enter id true], .normal)
        (andThen (pass (plug fs P) (Ctx.inSection c id l)
            (if leaves (plug fs P) = 0 then none else some 0))
          (andThen ([.leave id (0 + 1 == max 1 (leaves (plug fs P)))], .normal)
            (pass rest c none))) := by
        simp only [plug, pass]
        rw [if_pos (by omega)]
        rfl
      rw [hp, andThen_normal (by rfl)]
      obtain ⟨x, hx⟩ : ∃ x, pass (plug fs P) (Ctx.inSection c id l)
        (if leaves (plug fs P) = 0 then none else some 0) = x := ⟨_, rfl⟩
      rw [hx] at h1 h2 ⊢
      cases hr : x.2 with
      | normal =>
        rw [andThen_normal hr]
        refine ⟨post ++ (andThen ([.leave id (0 + 1 == max 1 (leaves (plug fs P)))], .normal)
            (pass rest c none)).1, ?_, ?_⟩
        · simp [h1, itemsBefore]
        · intro e a h
          have := (h2 e a h).2
          rw [hr] at this; cases this
      | raised e a =>
        have hat : andThen x (andThen ([.leave id (0 + 1 == max 1 (leaves (plug fs P)))],
            .normal) (pass rest c none)) = x := by simp [andThen, hr]
        rw [hat]
        exact ⟨post, by simp [h1, itemsBefore], fun e a h => ⟨(h2 e a h).1, (h2 e a h).2⟩⟩
    | inBlock rest =>
      have hc : placeCtx c (.inBlock rest :: fs) = placeCtx c fs := by
        simp [placeCtx, sectionsOf, capturesOf, locationOf]
      obtain ⟨post, h1, h2⟩ := ih c (wantedIn (plug fs P) w) ht.1 (by
        rcases hw with h | h
        · subst h
          simp only [wantedIn]
          split
          · exact Or.inl rfl
          · right; omega
        · right
          simp only [plug, leaves] at h; omega)
      have hp : pass (plug (.inBlock rest :: fs) P) c w =
          andThen (pass (plug fs P) c (wantedIn (plug fs P) w))
            (pass rest c (wantedAfter (plug fs P) w)) := by
        simp only [plug]; exact pass_block _ _ _ _
      rw [hp, hc]
      obtain ⟨x, hx⟩ : ∃ x, pass (plug fs P) c (wantedIn (plug fs P) w) = x :=
        ⟨_, rfl⟩
      rw [hx] at h1 h2 ⊢
      cases hr : x.2 with
      | normal =>
        rw [andThen_normal hr]
        refine ⟨post ++ (pass rest c (wantedAfter (plug fs P) w)).1, ?_, ?_⟩
        · simp [h1, itemsBefore]
        · intro e a h
          have := (h2 e a h).2
          rw [hr] at this; cases this
      | raised e a =>
        have hat : andThen x (pass rest c (wantedAfter (plug fs P) w)) = x := by
          simp [andThen, hr]
        rw [hat]
        exact ⟨post, by simp [h1, itemsBefore], h2⟩
    | inOperand l ok abort data rest =>
      obtain ⟨post, h1, h2⟩ := ih (Ctx.inside c l) none ht.1.1 (Or.inr ht.1.2)
      rw [placeCtx_operand c l ok abort data rest] at h1 h2
      simp only [plug, pass, itemsBefore]
      obtain ⟨x, hx⟩ : ∃ x, pass (plug fs P) (Ctx.inside c l) none = x := ⟨_, rfl⟩
      rw [hx] at h1 h2 ⊢
      obtain ⟨q, hq⟩ : ∃ q, (andThen (check c l (.check ok abort data) x) (pass rest c w)).1 = x.1 ++ q := by
        unfold andThen check
        split
        · exact ⟨_, List.append_assoc ..⟩
        · exact ⟨_, rfl⟩
      refine ⟨post ++ q, by rw [hq, h1]; simp, ?_⟩
      intro e a h
      obtain ⟨g1, g2⟩ := h2 e a h
      have : andThen (check c l (.check ok abort data) x) (pass rest c w) =
          (x.1 ++ [.interrupted l], .raised e a) := by
        simp only [andThen, check, g2, answered]
      rw [this] at hq ⊢
      have hq' : q = [.interrupted l] := (List.append_cancel_left hq).symm
      refine ⟨?_, rfl⟩
      rw [hq']
      intro z hz
      rcases List.mem_append.mp hz with hz | hz
      · exact g1 z hz
      · exact ⟨l, by simpa using hz⟩

theorem endsTest_iff [MessageLimit] (m : Stmt) (c : Ctx) :
    endsTest m = true ↔ ∃ e a, (passStmt c m).2 = .raised e a := by
  cases m with
  | act => simp [endsTest, passStmt]
  | notify => simp [endsTest, passStmt]
  | throw e => simp [endsTest, passStmt]
  | skip loc abort msg => cases abort <;> simp [endsTest, passStmt]
  | check loc ev abort data =>
    cases ev with
    | exc e => simp [endsTest, passStmt]
    | val ok => cases ok <;> cases abort <;> simp [endsTest, passStmt, asserted, assertedAt]
  | throwsAs loc ev type name abort =>
    cases h : throwsType ev type <;> cases abort <;> simp [endsTest, passStmt, asserted, assertedAt, h]
  | throwsMatches loc ev type name matched desc abort =>
    cases h : throwsType ev type <;> cases matched <;> cases abort <;>
      simp [endsTest, passStmt, asserted, assertedAt, h]
  | nothrow loc ev text abort =>
    cases ev <;> cases abort <;> simp [endsTest, passStmt, asserted, assertedAt]

/-! ## Any verbosity -/

theorem observed_level (e : Event) (x : Item) (h : observed e = some x) :
    x.level = levelOf e ∧ x.reported = true := by
  cases e <;> simp only [observed, Option.some.injEq, reduceCtorEq] at h <;> subst h <;>
    simp [Item.level, levelOf, Item.reported]

theorem observed_shown (v : Nat) (l : List Event) :
    (shown v l).filterMap observed = (l.filterMap observed).filter (fun x => decide (x.level ≤ v)) := by
  induction l with
  | nil => rfl
  | cons e l ih =>
    unfold shown at ih ⊢
    rw [List.filter_cons]
    cases ho : observed e with
    | none =>
      split
      · rw [List.filterMap_cons_none ho, List.filterMap_cons_none ho, ih]
      · rw [List.filterMap_cons_none ho, ih]
    | some x =>
      have hl := (observed_level e x ho).1
      rw [List.filterMap_cons_some ho, List.filter_cons, hl]
      split
      · rw [List.filterMap_cons_some ho, ih]
      · exact ih

/-- At any verbosity, the log tells the story of the test case. -/
theorem run_story_any [MessageLimit] {cfg : Cfg} {t : TestCase} {tags : List Filter.ParsedTag}
    (ht : Always Tidy t.body) (hsec : Alike t.body) (hd : Always (secDepth · ≤ cfg.maxNested) t.body)
    (hc : Always (capDepth · ≤ cfg.maxCaptures) t.body)
    (htags : Filter.forEachTag cfg.maxTag t.id.tags = .ok tags) (fuel : Nat) :
    let x := story t.body.no (topCtx t.loc) (passCount t.body.first) 0 []
    (fuel < x.2 → run cfg fuel t = none) ∧
    (x.2 ≤ fuel → ∃ s, run cfg fuel t = some (.ok s) ∧
      s.log.filterMap observed =
        (caseStory t (tags.contains .shouldFail)).filter (Item.visible cfg.verbosity)) := by
  intro x
  have h := run_story (cfg := full cfg) (t := t) (tags := tags) rfl ht hsec hd hc htags fuel
  constructor
  · intro hf
    rw [run_hide, h.1 hf]
    rfl
  · intro hf
    obtain ⟨s, h1, h2⟩ := h.2 hf
    refine ⟨hide cfg.verbosity s, by rw [run_hide, h1]; rfl, ?_⟩
    show (shown cfg.verbosity s.log).filterMap observed = _
    rw [observed_shown, h2, List.filter_filter]
    congr 1
    funext y
    simp only [Item.visible]
    rw [Bool.and_comm]

/-! ## The rest of a body does not matter once a statement ends the test -/

theorem raise_execStmt [MessageLimit] {cfg : Cfg} {fl : Bool} {m : Stmt} (hm : endsTest m = true) {s s' : TS} {r : Res}
    (h : execStmt cfg fl m s = .ok (s', r)) : ∃ e, r = .raised e := by
  have key : ∀ (e : Exn) (u : TS) (x : TS × Res), endCheck fl (.raised e) u = .ok x →
      ∃ e, x.2 = .raised e := by
    intro e u x hx
    unfold endCheck at hx
    obtain ⟨v, _, hv⟩ := bind_eq_ok hx
    cases hv
    exact ⟨e, rfl⟩
  cases m with
  | act => cases hm
  | notify => cases hm
  | throw e =>
    simp only [execStmt, Outcome.ok.injEq, Prod.mk.injEq] at h
    exact ⟨e, h.2.symm⟩
  | skip loc abort msg =>
    simp only [endsTest] at hm
    subst hm
    simp only [execStmt, maybeAbort, if_true] at h
    obtain ⟨u, _, h⟩ := bind_eq_ok h
    exact key _ _ _ h
  | check loc ev abort data =>
    cases ev with
    | exc e =>
      simp only [execStmt] at h
      obtain ⟨u, _, h⟩ := bind_eq_ok h
      exact key _ _ _ h
    | val ok =>
      simp only [execStmt] at h
      obtain ⟨u, _, h⟩ := bind_eq_ok h
      simp only [endsTest, Bool.and_eq_true, Bool.not_eq_true'] at hm
      obtain ⟨rfl, rfl⟩ := hm
      simp only [answer, maybeAbort, if_true, Bool.false_eq_true, if_false] at h
      exact key _ _ _ h
  | throwsAs loc ev type name abort =>
    simp only [endsTest, Bool.and_eq_true, Bool.not_eq_true'] at hm
    obtain ⟨h1, rfl⟩ := hm
    simp only [execStmt] at h
    obtain ⟨u, _, h⟩ := bind_eq_ok h
    cases ev with
    | none => exact key _ _ _ h
    | some e =>
      simp only [throwsType] at h1
      simp only [answer, maybeAbort, h1, Bool.false_eq_true, if_false, if_true] at h
      exact key _ _ _ h
  | throwsMatches loc ev type name matched desc abort =>
    simp only [endsTest, Bool.and_eq_true, Bool.not_eq_true'] at hm
    obtain ⟨h1, rfl⟩ := hm
    simp only [execStmt] at h
    obtain ⟨u, _, h⟩ := bind_eq_ok h
    cases ev with
    | none => exact key _ _ _ h
    | some e =>
      simp only [throwsType] at h1
      cases hc : e.types.contains type with
      | false =>
        simp only [answer, maybeAbort, hc, Bool.false_eq_true, if_false, if_true] at h
        exact key _ _ _ h
      | true =>
        rw [hc, Bool.true_and] at h1
        subst h1
        simp only [answer, maybeAbort, hc, if_true, Bool.not_false] at h
        exact key _ _ _ h
  | nothrow loc ev text abort =>
    simp only [endsTest, Bool.and_eq_true] at hm
    obtain ⟨h1, rfl⟩ := hm
    simp only [execStmt] at h
    obtain ⟨u, _, h⟩ := bind_eq_ok h
    cases ev with
    | none => cases h1
    | some e => exact key _ _ _ h

theorem sameUntil_exec [MessageLimit] {cfg : Cfg} {m : Stmt} (hm : endsTest m = true) {K K' : Prog}
    (h : SameUntil m K K') : ∀ s, exec cfg false K s = exec cfg false K' s := by
  induction h with
  | here k k' =>
    intro s
    simp only [exec]
    cases hx : execStmt cfg false m s with
    | abort => rfl
    | ub => rfl
    | ok x =>
      obtain ⟨s', r⟩ := x
      obtain ⟨e, rfl⟩ := raise_execStmt hm hx
      rfl
  | stmt x _ ih =>
    intro s
    simp only [exec]
    apply bind_congr'
    rintro ⟨s', r⟩
    cases r with
    | normal => exact ih s'
    | raised e => rfl
  | inSection id loc k _ ih =>
    intro s
    simp only [exec]
    apply bind_congr'
    rintro ⟨s', en⟩
    cases en with
    | false => rfl
    | true => simp only [if_true, ih s']
  | afterSection id loc b _ ih =>
    intro s
    simp only [exec]
    apply bind_congr'
    rintro ⟨s', en⟩
    cases en with
    | false =>
      simp only [Bool.false_eq_true, if_false]
      apply bind_congr'; intro u; exact ih u
    | true =>
      simp only [if_true]
      apply bind_congr'
      rintro ⟨u, r⟩
      apply bind_congr'
      intro v
      cases r with
      | normal => exact ih v
      | raised e => rfl
  | capture caps _ ih =>
    intro s
    simp only [exec]
    apply bind_congr'
    intro u
    rw [ih u]
  | afterBlock b _ ih =>
    intro s
    simp only [exec]
    apply bind_congr'
    rintro ⟨s', r⟩
    cases r with
    | normal => exact ih s'
    | raised e => rfl
  | inBlock k _ ih =>
    intro s
    simp only [exec, ih s]
  | afterTry type b h _ ih =>
    intro s
    simp only [exec]
    apply bind_congr'
    rintro ⟨s', r⟩
    cases r with
    | normal => exact ih s'
    | raised e =>
      dsimp only
      split
      · apply bind_congr'
        rintro ⟨u, r⟩
        cases r with
        | normal => exact ih u
        | raised e => rfl
      · rfl
  | inTry type h k _ ih =>
    intro s
    simp only [exec, ih s]
  | inHandler type b k _ ih =>
    intro s
    simp only [exec]
    apply bind_congr'
    rintro ⟨s', r⟩
    cases r with
    | normal => rfl
    | raised e => dsimp only; rw [ih s']
  | afterNested loc o ask _ ih =>
    intro s
    simp only [exec]
    apply bind_congr'
    intro u
    apply bind_congr'
    rintro ⟨v, r⟩
    apply bind_congr'
    rintro ⟨w, r'⟩
    cases r' with
    | normal => exact ih w
    | raised e => rfl
  | inOperand loc ask k _ ih =>
    intro s
    simp only [exec, ih]
  | guard c _ ih =>
    intro s
    simp only [exec, ih]

theorem sameUntil_run [MessageLimit] {cfg : Cfg} {b b' : Body}
    (h : ∀ n, b.no n = b'.no n ∨ ∃ m, endsTest m = true ∧ SameUntil m (b.no n) (b'.no n)) (fuel : Nat)
    (id : Filter.TestId) (loc : Nat) :
    run cfg fuel ⟨id, loc, b⟩ = run cfg fuel ⟨id, loc, b'⟩ := by
  have he : ∀ n s, exec cfg false (b.no n) s = exec cfg false (b'.no n) s := by
    intro n s
    rcases h n with h | ⟨m, hm, h⟩
    · rw [h]
    · exact sameUntil_exec hm h s
  have hl : ∀ fuel n s, runLoop cfg b.no fuel n s = runLoop cfg b'.no fuel n s := by
    intro fuel
    induction fuel with
    | zero => intro n s; rfl
    | succ f ih =>
      intro n s
      simp only [runLoop, he, ih]
  unfold run
  simp only [hl]
  rfl

/-! ## Captures and locations are restored -/

variable {fl : Bool}

/-- The scoped information: captures, locations, open sections. -/
def scope (s : TS) : List Text × List (Nat × LocType) × List Nat :=
  (s.info.captures, s.info.locations, s.info.sections.current.map (·.id))

theorem scope_info {s s' : TS} (h : s'.info = s.info) : scope s' = scope s := by
  unfold scope; rw [h]

theorem closeHeld_info (cfg : Cfg) (l : List Section) (s : TS) : (closeHeld cfg l s).info = s.info := by
  induction l generalizing s with
  | nil => rfl
  | cons x l ih =>
    rw [closeHeld, ih]
    exact (emit_fields cfg _ _ s).1

theorem notify_info (cfg : Cfg) (s : TS) : (notify cfg s).info = s.info := by
  unfold notify
  split
  · rfl
  · exact closeHeld_info cfg _ s

theorem arrive_info (cfg : Cfg) (s : TS) : (arrive cfg fl s).info = s.info := by
  cases fl with
  | false => exact notify_info cfg s
  | true => rfl

theorem hold_info (u : Bool) (s : TS) : (hold u s).info = s.info := by
  unfold hold
  split <;> rfl

theorem countUnless_scope (ok : Bool) (s : TS) (i : Info) :
    (countUnless ok s i).captures = i.captures ∧ (countUnless ok s i).locations = i.locations ∧
    (countUnless ok s i).sections.current.map (·.id) = i.sections.current.map (·.id) := by
  unfold countUnless
  split
  · exact ⟨rfl, rfl, rfl⟩
  · exact ⟨rfl, rfl, count_ids _ _ _⟩

theorem reportAssertion_scope (cfg : Cfg) (ok : Bool) (data : Text) (s : TS) :
    scope (reportAssertion cfg fl ok data s) = scope s := by
  unfold scope
  rw [(reportAssertion_fields (fl := fl) cfg ok data s).1]
  obtain ⟨h1, h2, h3⟩ := countUnless_scope ok s s.info
  rw [h1, h2, h3]

theorem checkEnter_scope {cfg : Cfg} {loc : Nat} {s s' : TS} (h : checkEnter cfg fl loc s = .ok s') :
    s'.info = s.info.addLoc (loc, .inCheck) := by
  unfold checkEnter at h
  obtain ⟨u, hu, h⟩ := bind_eq_ok h
  cases h
  unfold pushLocation at hu
  split at hu
  · cases hu
    rw [arrive_info]
    rfl
  · cases hu

theorem endCheck_scope {r r' : Res} {s s' : TS} {x : TS} {l : Nat × LocType}
    (h : endCheck fl r s = .ok (s', r')) (hs : scope s = scope { x with info := x.info.addLoc l }) :
    scope s' = scope x := by
  unfold endCheck at h
  obtain ⟨u, hu, h⟩ := bind_eq_ok h
  cases h
  unfold checkLeave popLocation at hu
  split at hu
  · cases hu
  · cases hu
    simp only [scope, Prod.mk.injEq, Info.addLoc] at hs
    simp only [scope, hold_info, hs.1, hs.2.1, hs.2.2, List.dropLast_concat]

theorem answer_scope [MessageLimit] {cfg : Cfg} {ask : Ask} {ev : Option Exn} {s s' x : TS} {r : Res} {l : Nat × LocType}
    (h : answer cfg fl ask ev s = .ok (s', r)) (hs : scope s = scope { x with info := x.info.addLoc l }) :
    scope s' = scope x := by
  have hrep : ∀ ok data,
      scope (reportAssertion cfg fl ok data s) = scope { x with info := x.info.addLoc l } := by
    intro ok data
    rw [reportAssertion_scope]
    exact hs
  have hrep' : ∀ ok data,
      scope (notify cfg (reportAssertion cfg fl ok data s)) = scope { x with info := x.info.addLoc l } := by
    intro ok data
    rw [scope_info (notify_info _ _)]
    exact hrep ok data
  cases ask with
  | check ok abort data =>
    cases ev with
    | none => exact endCheck_scope h (hrep _ _)
    | some e => exact endCheck_scope h hs
  | throwsAs type name abort =>
    cases ev with
    | none => exact endCheck_scope h (hrep _ _)
    | some e =>
      simp only [answer] at h
      split at h <;> exact endCheck_scope h (hrep' _ _)
  | throwsMatches type name matched desc abort =>
    cases ev with
    | none => exact endCheck_scope h (hrep _ _)
    | some e =>
      simp only [answer] at h
      split at h
      · split at h <;> exact endCheck_scope h (hrep' _ _)
      · exact endCheck_scope h (hrep' _ _)
  | nothrow text abort =>
    cases ev with
    | none => exact endCheck_scope h (hrep _ _)
    | some e => exact endCheck_scope h (hrep' _ _)

theorem execStmt_scope [MessageLimit] {cfg : Cfg} {m : Stmt} {s s' : TS} {r : Res}
    (h : execStmt cfg fl m s = .ok (s', r)) : scope s' = scope s := by
  rcases m.kinds with ⟨a, rfl⟩ | ⟨e, rfl⟩ | rfl | ⟨loc, abort, msg, rfl⟩ | ⟨loc, a, ev, hk⟩
  · simp only [execStmt, Outcome.ok.injEq, Prod.mk.injEq] at h
    rw [← h.1]; rfl
  · simp only [execStmt, Outcome.ok.injEq, Prod.mk.injEq] at h
    rw [← h.1]
  · simp only [execStmt, Outcome.ok.injEq, Prod.mk.injEq] at h
    rw [← h.1]
    exact scope_info (notify_info cfg s)
  · simp only [execStmt] at h
    obtain ⟨u, hu, h⟩ := bind_eq_ok h
    have hu' := checkEnter_scope hu
    refine endCheck_scope (l := (loc, .inCheck)) h ?_
    rw [scope_info (reportSkipped_fields cfg msg u).1]
    exact scope_info hu'
  · rw [execStmt_asks hk] at h
    obtain ⟨u, hu, h⟩ := bind_eq_ok h
    exact answer_scope (l := (loc, .inCheck)) h (scope_info (checkEnter_scope hu))

theorem enterSection_scope {cfg : Cfg} {id loc : Nat} {s s' : TS} {en : Bool}
    (h : enterSection cfg fl id loc s = .ok (s', en)) :
    scope s' = if en then (s.info.captures, s.info.locations ++ [(loc, .sectionScope)],
      s.info.sections.current.map (·.id) ++ [id]) else scope s := by
  unfold enterSection at h
  obtain ⟨x, hx, h⟩ := bind_eq_ok h
  have hcur : x.current = s.info.sections.current := by
    unfold ensureLevel at hx
    rw [arrive_info] at hx
    split at hx
    · split at hx
      · cases hx
      · split at hx
        · cases hx
        · cases hx; rfl
    · cases hx; rfl
  unfold enterLevel at h
  dsimp only at h
  split at h
  · cases h
  · split at h
    · cases h
      simp only [scope, setSections, arrive_info, hcur, Bool.false_eq_true, if_false]
    · split at h
      · cases h
        simp only [scope, setSections, arrive_info, hcur, Bool.false_eq_true, if_false]
      · unfold startSection at h
        split at h
        · cases h
        · obtain ⟨u, hu, h⟩ := bind_eq_ok h
          unfold pushLocation at hu
          split at hu
          · cases hu
            cases h
            simp only [if_true]
            split
            · rw [scope_info (show (reportSectionStarted cfg _ _).info = _ from
                (emit_fields cfg _ _ _).1)]
              simp only [scope, setSections, arrive_info, hcur, List.map_append, List.map_cons,
                List.map_nil]
            · simp only [scope, setSections, arrive_info, hcur, List.map_append, List.map_cons,
                List.map_nil]
          · cases hu

theorem leaveSection_scope {cfg : Cfg} {en u : Bool} {s s' : TS}
    (h : leaveSection cfg en u s = .ok s') :
    scope s' = if en then (s.info.captures, s.info.locations.dropLast,
      (s.info.sections.current.map (·.id)).dropLast) else scope s := by
  unfold leaveSection at h
  cases en with
  | false =>
    simp only [Bool.false_eq_true, if_false, Outcome.ok.injEq] at h ⊢
    rw [← h]; rfl
  | true =>
    simp only [if_true] at h ⊢
    obtain ⟨v, hv, h⟩ := bind_eq_ok h
    cases h
    unfold leaveEntered at hv
    obtain ⟨w, hw, hv⟩ := bind_eq_ok hv
    unfold popLocation at hw
    split at hw
    · cases hw
    · cases hw
      dsimp only at hv
      split at hv
      · cases hv
      · cases hv
        simp only [scope, decDepth, setSections]
        split
        · rw [show (reportSectionEnded cfg _ _).info = _ from (emit_fields cfg _ _ _).1]
          simp only [hold_info, finishLevel_current, List.map_dropLast]
        · simp only [hold_info, finishLevel_current, List.map_dropLast]

theorem addCaptures_scope {cfg : Cfg} {l : List Text} : ∀ {s s' : TS},
    addCaptures cfg fl l s = .ok s' →
    scope s' = (s.info.captures ++ l, s.info.locations, s.info.sections.current.map (·.id)) := by
  induction l with
  | nil =>
    intro s s' h
    cases h
    simp [scope]
  | cons c l ih =>
    intro s s' h
    unfold addCaptures at h
    split at h
    · cases h
    · rw [ih h]
      simp [pushCapture, arrive_info]

theorem popCaptures_scope {n : Nat} {u : Bool} {s s' : TS} (h : popCaptures n u s = .ok s') :
    scope s' = (s.info.captures.take (s.info.captures.length - n), s.info.locations,
      s.info.sections.current.map (·.id)) := by
  unfold popCaptures at h
  dsimp only at h
  split at h
  · cases h
    simp [scope, hold_info]
  · cases h

/-- Whatever a piece of a test body does and however it ends, the captures, locations and open
sections are afterwards as before. -/
theorem exec_scope [MessageLimit] {cfg : Cfg} (K : Prog) : ∀ {s s' : TS} {r : Res},
    exec cfg fl K s = .ok (s', r) → scope s' = scope s := by
  induction K generalizing fl with
  | done =>
    intro s s' r h
    simp only [exec, Outcome.ok.injEq, Prod.mk.injEq] at h
    rw [h.1]
  | stmt m k ih =>
    intro s s' r h
    simp only [exec] at h
    obtain ⟨⟨u, r'⟩, hu, h⟩ := bind_eq_ok h
    have h1 := execStmt_scope hu
    cases r' with
    | normal => rw [ih h, h1]
    | raised e => cases h; exact h1
  | sec id loc b k ihb ihk =>
    intro s s' r h
    simp only [exec] at h
    obtain ⟨⟨u, en⟩, hu, h⟩ := bind_eq_ok h
    have h1 := enterSection_scope hu
    cases en with
    | false =>
      simp only [Bool.false_eq_true, if_false] at h h1
      obtain ⟨v, hv, h⟩ := bind_eq_ok h
      have h2 := leaveSection_scope hv
      simp only [Bool.false_eq_true, if_false] at h2
      rw [ihk h, h2, h1]
    | true =>
      simp only [if_true] at h h1
      obtain ⟨⟨v, r'⟩, hv, h⟩ := bind_eq_ok h
      obtain ⟨w, hw, h⟩ := bind_eq_ok h
      have h2 := ihb hv
      have h3 := leaveSection_scope hw
      simp only [if_true] at h3
      have h4 : scope w = scope s := by
        rw [h3]
        rw [h1] at h2
        simp only [scope, Prod.mk.injEq] at h2 ⊢
        rw [h2.1, h2.2.1, h2.2.2, List.dropLast_concat, List.dropLast_concat]
        exact ⟨rfl, rfl, rfl⟩
      cases r' with
      | normal => rw [ihk h, h4]
      | raised e => cases h; exact h4
  | capture caps k ih =>
    intro s s' r h
    simp only [exec] at h
    obtain ⟨u, hu, h⟩ := bind_eq_ok h
    obtain ⟨⟨v, r'⟩, hv, h⟩ := bind_eq_ok h
    obtain ⟨w, hw, h⟩ := bind_eq_ok h
    cases h
    have h1 := addCaptures_scope hu
    have h2 := ih hv
    have h3 := popCaptures_scope hw
    rw [h3]
    rw [h1] at h2
    simp only [scope, Prod.mk.injEq] at h2 ⊢
    rw [h2.1, h2.2.1, h2.2.2]
    simp
  | block b k ihb ihk =>
    intro s s' r h
    simp only [exec] at h
    obtain ⟨⟨u, r'⟩, hu, h⟩ := bind_eq_ok h
    have h1 := ihb hu
    cases r' with
    | normal => rw [ihk h, h1]
    | raised e => cases h; exact h1
  | tryCatch type b hd k ihb ihh ihk =>
    intro s s' r h
    simp only [exec] at h
    obtain ⟨⟨u, r'⟩, hu, h⟩ := bind_eq_ok h
    have h1 := ihb hu
    cases r' with
    | normal => rw [ihk h, h1]
    | raised e =>
      dsimp only at h
      split at h
      · obtain ⟨⟨v, r''⟩, hv, h⟩ := bind_eq_ok h
        have h2 := ihh hv
        cases r'' with
        | normal => rw [ihk h, h2, h1]
        | raised e => cases h; rw [h2, h1]
      · cases h; exact h1
  | nested loc o ask k iho ihk =>
    intro s s' r h
    simp only [exec] at h
    obtain ⟨u, hu, h⟩ := bind_eq_ok h
    obtain ⟨⟨v, r'⟩, hv, h⟩ := bind_eq_ok h
    obtain ⟨⟨w, r''⟩, hw, h⟩ := bind_eq_ok h
    have h1 : scope w = scope s :=
      answer_scope (l := (loc, .inCheck)) hw ((iho hv).trans (scope_info (checkEnter_scope hu)))
    cases r'' with
    | normal => rw [ihk h, h1]
    | raised e => cases h; exact h1
  | guard c k ihc ihk =>
    intro s s' r h
    simp only [exec] at h
    obtain ⟨⟨u, r'⟩, hu, h⟩ := bind_eq_ok h
    obtain ⟨⟨v, r''⟩, hv, h⟩ := bind_eq_ok h
    have h1 := (ihc hv).trans (ihk hu)
    cases r'' with
    | normal => cases h; exact h1
    | raised e => cases h

end Verif.Run
