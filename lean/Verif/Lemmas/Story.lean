import Verif.Lemmas.Pass
/-! # The loop of `registry::run` follows the story of the test case -/
namespace Verif.Run
open Spec

/-! ## Nesting of sections in the items of a pass -/

/-- Every section left is the innermost open one. -/
def Nested : List Nat → List Item → Prop
  | _, [] => True
  | p, .enter id _ :: l => Nested (p ++ [id]) l
  | p, .leave id _ :: l => p.getLast? = some id ∧ Nested p.dropLast l
  | p, _ :: l => Nested p l

/-- The sections open after some items. -/
def openAfter : List Nat → List Item → List Nat
  | p, [] => p
  | p, .enter id _ :: l => openAfter (p ++ [id]) l
  | p, .leave _ _ :: l => openAfter p.dropLast l
  | p, _ :: l => openAfter p l

theorem nested_append (p : List Nat) (a b : List Item) :
    Nested p (a ++ b) ↔ Nested p a ∧ Nested (openAfter p a) b := by
  induction a generalizing p with
  | nil => simp [Nested, openAfter]
  | cons x a ih => cases x <;> simp [Nested, openAfter, ih, and_assoc]

theorem openAfter_append (p : List Nat) (a b : List Item) :
    openAfter p (a ++ b) = openAfter (openAfter p a) b := by
  induction a generalizing p with
  | nil => simp [openAfter]
  | cons x a ih => cases x <;> simp [openAfter, ih]

/-- The items of a piece of code are nested and lead to the right place. -/
def Balanced (c : Ctx) (x : List Item × Exit) : Prop :=
  Nested c.path x.1 ∧ openAfter c.path x.1 = match x.2 with
    | .normal => c.path
    | .raised _ a => a.path

theorem balanced_andThen {c : Ctx} {x y : List Item × Exit} (hx : Balanced c x) (hy : Balanced c y) :
    Balanced c (andThen x y) := by
  unfold andThen
  obtain ⟨l, e⟩ := x
  cases e with
  | normal =>
    have h2 : openAfter c.path l = c.path := hx.2
    refine ⟨?_, ?_⟩
    · simp only [nested_append, h2]
      exact ⟨hx.1, hy.1⟩
    · simp only [openAfter_append, h2]
      exact hy.2
  | raised e a => exact hx

theorem balanced_assertedAt (p c : Ctx) (loc : Nat) (ok abort : Bool) (data : Text) :
    Balanced c (assertedAt p c loc ok abort data) := by
  unfold assertedAt
  refine ⟨by simp [Nested], ?_⟩
  cases ok <;> cases abort <;> simp [openAfter, Ctx.inside]

theorem balanced_stmt [MessageLimit] (c : Ctx) (m : Stmt) : Balanced c (passStmt c m) := by
  have ha : ∀ loc ok abort data, Balanced c (asserted c loc ok abort data) :=
    fun loc ok abort data => balanced_assertedAt _ c loc ok abort data
  cases m with
  | act a => exact ⟨by simp [passStmt, Nested], by simp [passStmt, openAfter]⟩
  | throw e => exact ⟨by simp [passStmt, Nested], by simp [passStmt, openAfter]⟩
  | notify => exact ⟨by simp [passStmt, Nested], by simp [passStmt, openAfter]⟩
  | check loc ev abort data =>
    cases ev with
    | val ok => exact ha ..
    | exc e => exact ⟨by simp [passStmt, Nested], by simp [passStmt, openAfter, Ctx.inside]⟩
  | skip loc abort msg =>
    refine ⟨by simp [passStmt, Nested], ?_⟩
    cases abort <;> simp [passStmt, openAfter, Ctx.inside]
  | throwsAs => exact ha ..
  | throwsMatches => exact ha ..
  | nothrow => exact ha ..

/-- Without a leaf to go to, no section is entered. -/
def Flat (c : Ctx) (x : List Item × Exit) : Prop :=
  (∀ p, openAfter p x.1 = p ∧ Nested p x.1) ∧ ∀ e a, x.2 = .raised e a → a.path = c.path

theorem flat_andThen {c : Ctx} {x y : List Item × Exit} (hx : Flat c x) (hy : Flat c y) :
    Flat c (andThen x y) := by
  unfold andThen
  obtain ⟨l, e⟩ := x
  cases e with
  | normal => exact ⟨fun p => by simp only [openAfter_append, nested_append, hx.1 p, hy.1 p, and_self], hy.2⟩
  | raised e a => exact hx

theorem flat_assertedAt (p c : Ctx) (loc : Nat) (ok abort : Bool) (data : Text) :
    Flat c (assertedAt p c loc ok abort data) := by
  refine ⟨fun p => by simp [assertedAt, openAfter, Nested], ?_⟩
  intro e a h
  unfold assertedAt at h
  split at h
  · cases h; rfl
  · cases h

/-- A check whose operand enters no section enters none. -/
theorem flat_check [MessageLimit] {c : Ctx} {loc : Nat} {x : List Item × Exit} (hx : Flat (Ctx.inside c loc) x) (ask : Ask) :
    Flat c (check c loc ask x) := by
  have ha : Flat c (answered (placeAfter c loc x.1) c loc ask x.2) := by
    cases ask with
    | check ok abort data =>
      cases he : x.2 with
      | normal => exact flat_assertedAt ..
      | raised e a =>
        refine ⟨fun p => by simp [answered, openAfter, Nested], ?_⟩
        intro e' a' h
        cases h
        exact hx.2 e a he
    | throwsAs | throwsMatches | nothrow => exact flat_assertedAt ..
  exact ⟨fun p => by simp only [check, openAfter_append, nested_append, hx.1 p, ha.1 p, and_self], ha.2⟩

theorem flat_stmt [MessageLimit] (c : Ctx) (m : Stmt) : Flat c (passStmt c m) := by
  have ha : ∀ loc ok abort data, Flat c (asserted c loc ok abort data) :=
    fun loc ok abort data => flat_assertedAt _ c loc ok abort data
  cases m with
  | act a => exact ⟨fun p => by simp [passStmt, openAfter, Nested], fun e a h => by cases h⟩
  | throw e => exact ⟨fun p => by simp [passStmt, openAfter, Nested], fun e a h => by cases h; rfl⟩
  | notify => exact ⟨fun p => by simp [passStmt, openAfter, Nested], fun e a h => by cases h⟩
  | check loc ev abort data =>
    cases ev with
    | val ok => exact ha ..
    | exc e => exact ⟨fun p => by simp [passStmt, openAfter, Nested], fun e a h => by cases h; rfl⟩
  | skip loc abort msg =>
    refine ⟨fun p => by simp [passStmt, openAfter, Nested], ?_⟩
    intro e a h
    cases abort with
    | true => cases h; rfl
    | false => cases h
  | throwsAs => exact ha ..
  | throwsMatches => exact ha ..
  | nothrow => exact ha ..

theorem flat_pass [MessageLimit] (K : Prog) : ∀ c, Flat c (pass K c none) := by
  induction K with
  | done => intro c; exact ⟨fun p => by simp [pass, openAfter, Nested], fun e a h => by simp [pass] at h⟩
  | stmt m k ih => intro c; simp only [pass]; exact flat_andThen (flat_stmt c m) (ih c)
  | capture caps k ih => intro c; simp only [pass]; exact ih { c with caps := c.caps ++ caps }
  | block b k ihb ihk => intro c; simp only [pass]; exact flat_andThen (ihb c) (ihk c)
  | sec id loc b k ihb ihk => intro c; simp only [pass]; exact ihk c
  | tryCatch ty b h k ihb ihh ihk =>
    intro c
    have hb := ihb c
    simp only [pass]
    obtain ⟨⟨l, x⟩, hp⟩ : ∃ p, pass b c none = p := ⟨_, rfl⟩
    rw [hp] at hb ⊢
    cases x with
    | normal => exact flat_andThen hb (ihk c)
    | raised e a =>
      dsimp only
      split
      · exact flat_andThen ⟨hb.1, fun e a h => by cases h⟩ (flat_andThen (ihh c) (ihk c))
      · exact hb
  | nested loc o ask k iho ihk =>
    intro c
    simp only [pass]
    exact flat_andThen (flat_check (iho _) ask) (ihk c)
  | guard cl k ihc ihk =>
    intro c
    have hk := ihk c
    have hc := ihc c
    exact ⟨fun p => by simp only [pass, anyway, openAfter_append, nested_append, hk.1 p, hc.1 p, and_self], hk.2⟩

/-- A check whose operand is nested is nested. -/
theorem balanced_check [MessageLimit] {c : Ctx} {loc : Nat} {x : List Item × Exit} (hx : Balanced (Ctx.inside c loc) x)
    (hf : Flat (Ctx.inside c loc) x) (ask : Ask) : Balanced c (check c loc ask x) := by
  have h1 : openAfter c.path x.1 = c.path := (hf.1 _).1
  have ha : Balanced c (answered (placeAfter c loc x.1) c loc ask x.2) := by
    cases ask with
    | check ok abort data =>
      cases he : x.2 with
      | normal => exact balanced_assertedAt ..
      | raised e a => exact ⟨by simp [answered, Nested], (hf.2 e a he).symm⟩
    | throwsAs | throwsMatches | nothrow => exact balanced_assertedAt ..
  refine ⟨?_, ?_⟩
  · simp only [check, nested_append, h1]
    exact ⟨hx.1, ha.1⟩
  · simp only [check, openAfter_append, h1]
    exact ha.2

theorem balanced_pass [MessageLimit] (K : Prog) : ∀ c w, Balanced c (pass K c w) := by
  induction K with
  | done => intro c w; exact ⟨by simp [pass, Nested], by simp [pass, openAfter]⟩
  | stmt m k ih =>
    intro c w
    simp only [pass]
    exact balanced_andThen (balanced_stmt c m) (ih c w)
  | capture caps k ih =>
    intro c w
    simp only [pass]
    exact ih { c with caps := c.caps ++ caps } w
  | block b k ihb ihk =>
    intro c w
    rw [pass_block]
    exact balanced_andThen (ihb c _) (ihk c _)
  | tryCatch ty b h k ihb ihh ihk =>
    intro c w
    have hb := ihb c none
    simp only [pass]
    obtain ⟨⟨l, x⟩, hp⟩ : ∃ p, pass b c none = p := ⟨_, rfl⟩
    rw [hp] at hb ⊢
    cases x with
    | normal => exact balanced_andThen hb (ihk c w)
    | raised e a =>
      dsimp only
      split
      · refine balanced_andThen ⟨hb.1, ?_⟩ (balanced_andThen (ihh c none) (ihk c w))
        have := ((flat_pass b c).1 c.path).1
        rw [hp] at this
        exact this
      · exact hb
  | nested loc o ask k iho ihk =>
    intro c w
    simp only [pass]
    exact balanced_andThen (balanced_check (iho _ none) (flat_pass o _) ask) (ihk c w)
  | guard cl k ihc ihk =>
    intro c w
    have hk := ihk c w
    have hc := (flat_pass cl c).1
    refine ⟨?_, ?_⟩
    · simp only [pass, anyway, nested_append]
      exact ⟨hk.1, (hc _).2⟩
    · simp only [pass, anyway, openAfter_append, hc]
      exact hk.2
  | sec id loc b k ihb ihk =>
    intro c w
    cases w with
    | none => simp only [pass]; exact ihk c none
    | some n =>
      simp only [pass]
      split
      · have hb := ihb (Ctx.inSection c id loc) (if leaves b = 0 then none else some n)
        generalize pass b (Ctx.inSection c id loc) (if leaves b = 0 then none else some n) = x at hb ⊢
        have hk := ihk c none
        generalize pass k c none = y at hk ⊢
        obtain ⟨l, e⟩ := x
        cases e with
        | normal =>
          obtain ⟨h1, h2⟩ := hb
          obtain ⟨h3, h4⟩ := hk
          simp only [Ctx.inSection] at h1 h2
          simp only [andThen, List.singleton_append]
          refine ⟨?_, ?_⟩
          · simp only [Nested, nested_append, h2]
            refine ⟨h1, by simp, by simpa using h3⟩
          · simp only [openAfter, openAfter_append, h2, List.dropLast_concat]
            exact h4
        | raised e a =>
          obtain ⟨h1, h2⟩ := hb
          simp only [andThen, List.singleton_append]
          exact ⟨h1, h2⟩
      · exact ihk c _

/-! ## From the report to the log -/

/-- The phases of a test: nothing decided, skipped, failed. -/
inductive Phase
  | fresh
  | skipped
  | failed
  deriving DecidableEq

def Phase.next : Phase → Item → Phase
  | .fresh, x => if x.isSkip then .skipped else if x.isFailure then .failed else .fresh
  | p, _ => p

def Phase.after (p : Phase) (l : List Item) : Phase := l.foldl Phase.next p

/-- The state of the test case in a phase. -/
def Phase.state (may : Bool) : Phase → CaseState
  | .fresh => .success
  | .skipped => .skipped
  | .failed => if may then .allowedFail else .failed

/-- Which of the coming items count. -/
def effectiveFrom (p : Phase) (l : List Item) : List Item :=
  match p with
  | .skipped => l.filter (fun y => !y.isAssertion)
  | .failed => l
  | .fresh => effective l

theorem effectiveFrom_cons (p : Phase) (x : Item) (l : List Item) :
    effectiveFrom p (x :: l) =
      (if p = .skipped ∧ x.isAssertion = true then [] else [x]) ++ effectiveFrom (p.next x) l := by
  cases p with
  | fresh =>
    simp only [effectiveFrom, effective, Phase.next, reduceCtorEq, false_and, if_false]
    split
    · rfl
    · split <;> rfl
  | skipped =>
    simp only [effectiveFrom, Phase.next, true_and, List.filter_cons]
    cases x.isAssertion <;> simp
  | failed => simp [effectiveFrom, Phase.next]

theorem after_skipped (l : List Item) : Phase.skipped.after l = .skipped := by
  induction l with
  | nil => rfl
  | cons x l ih => exact ih

theorem after_failed (l : List Item) : Phase.failed.after l = .failed := by
  induction l with
  | nil => rfl
  | cons x l ih => exact ih

theorem after_fresh (l : List Item) : Phase.fresh.after l =
    if skipsTest l then .skipped else if l.any Item.isFailure then .failed else .fresh := by
  induction l with
  | nil => rfl
  | cons x l ih =>
    have : Phase.fresh.after (x :: l) = (Phase.fresh.next x).after l := rfl
    rw [this]
    simp only [Phase.next, skipsTest, List.any_cons]
    by_cases hs : x.isSkip = true
    · simp [hs, after_skipped]
    · by_cases hf : x.isFailure = true
      · simp [hs, hf, after_failed]
      · simpa [hs, hf] using ih

theorem after_append (p : Phase) (a b : List Item) : p.after (a ++ b) = (p.after a).after b := by
  simp [Phase.after]

/-- The log written for one item. -/
theorem add_log (R : Rep) (x : Item) (p : Phase)
    (hs : R.core.state = p.state (R.core.mayFail || R.core.shouldFail))
    (hn : Nested (R.opened.map (·.id)) [x]) :
    (R.add x).core.log.filterMap observed = R.core.log.filterMap observed ++
      (if p = .skipped ∧ x.isAssertion = true then [] else [x]).filter Item.reported ∧
    (R.add x).opened.map (·.id) = openAfter (R.opened.map (·.id)) [x] ∧
    (R.add x).core.state = (p.next x).state (R.core.mayFail || R.core.shouldFail) ∧
    (R.add x).core.mayFail = R.core.mayFail ∧ (R.add x).core.shouldFail = R.core.shouldFail := by
  cases x with
  | act a =>
    refine ⟨?_, rfl, ?_, rfl, rfl⟩
    · simp [Rep.add, Core.step, observed, Item.isAssertion, Item.reported, List.filter_cons]
    · cases p <;> simpa [Rep.add, Core.step, Phase.next, Item.isSkip, Item.isFailure] using hs
  | enter id first =>
    have hst : (R.add (.enter id first)).core.state = R.core.state ∧
        (R.add (.enter id first)).core.mayFail = R.core.mayFail ∧
        (R.add (.enter id first)).core.shouldFail = R.core.shouldFail := by
      cases first <;> exact ⟨rfl, rfl, rfl⟩
    refine ⟨?_, by simp [Rep.add, openAfter], ?_, hst.2.1, hst.2.2⟩
    · cases first <;> simp [Rep.add, Core.step, observed, Item.isAssertion, Item.reported, List.filter_cons]
    · rw [hst.1, hs]
      cases p <;> simp [Phase.next, Item.isSkip, Item.isFailure]
  | leave id last =>
    simp only [Nested, List.getLast?_map, Option.map_eq_some_iff, and_true] at hn
    obtain ⟨y, hy, hid⟩ := hn
    have hst : (R.add (.leave id last)).core.state = R.core.state ∧
        (R.add (.leave id last)).core.mayFail = R.core.mayFail ∧
        (R.add (.leave id last)).core.shouldFail = R.core.shouldFail := by
      cases last <;> simp [Rep.add, hy, Core.step]
    refine ⟨?_, by simp [Rep.add, openAfter, List.map_dropLast], ?_, hst.2.1, hst.2.2⟩
    · cases last <;> simp [Rep.add, hy, Core.step, observed, Item.isAssertion, Item.reported, hid, List.filter_cons]
    · rw [hst.1, hs]
      cases p <;> simp [Phase.next, Item.isSkip, Item.isFailure]
  | interrupted loc =>
    refine ⟨?_, rfl, ?_, rfl, rfl⟩
    · simp [Rep.add, Item.isAssertion, Item.reported, List.filter_cons]
    · cases p <;> simpa [Rep.add, Phase.next, Item.isSkip, Item.isFailure] using hs
  | skip ctx msg =>
    refine ⟨?_, rfl, ?_, rfl, rfl⟩
    · simp [Rep.add, Core.step, observed, Item.isAssertion, Item.reported, List.filter_cons]
    · simp only [Rep.add, Core.step, hs]
      cases p with
      | fresh => rfl
      | skipped => rfl
      | failed =>
        simp only [Phase.next, Phase.state]
        cases (R.core.mayFail || R.core.shouldFail) <;> rfl
  | assertion ok ctx d =>
    have hids : (R.add (.assertion ok ctx d)).opened.map (·.id) = R.opened.map (·.id) := by
      simp only [Rep.add]
      split
      · rfl
      · rw [List.map_map]
        apply List.map_congr_left
        intro y _
        simp only [Function.comp, Section.count]
        split
        · rfl
        · split <;> rfl
    have hsk : R.core.state = .skipped ↔ p = .skipped := by
      rw [hs]
      cases p with
      | fresh => simp [Phase.state]
      | skipped => simp [Phase.state]
      | failed =>
        simp only [Phase.state, reduceCtorEq, iff_false]
        split <;> simp
    by_cases hp : p = .skipped
    · have := hsk.mpr hp
      refine ⟨?_, hids, ?_, ?_, ?_⟩
      · simp [Rep.add, Core.step, this, hp, Item.isAssertion]
      · simp [Rep.add, Core.step, this, hp, Phase.next, Phase.state]
      · simp [Rep.add, Core.step, this]
      · simp [Rep.add, Core.step, this]
    · have hns : ¬ (R.core.state = .skipped) := fun h => hp (hsk.mp h)
      have hc : ¬ (p = .skipped ∧ (Item.assertion ok ctx d).isAssertion = true) := fun h => hp h.1
      rw [if_neg hc]
      cases ok with
      | true =>
        refine ⟨?_, hids, ?_, ?_, ?_⟩
        · simp [Rep.add, Core.step, hns, observed, Item.reported, List.filter_cons]
        · simp only [Rep.add, Core.step, hns, if_false, if_true]
          rw [hs]
          cases p <;> simp [Phase.next, Item.isSkip, Item.isFailure]
        · simp [Rep.add, Core.step, hns]
        · simp [Rep.add, Core.step, hns]
      | false =>
        cases hm : (R.core.mayFail || R.core.shouldFail) with
        | true =>
          rw [hm] at hs
          refine ⟨?_, hids, ?_, ?_, ?_⟩
          · simp [Rep.add, Core.step, hns, hm, observed, Item.reported, List.filter_cons]
          · simp only [Rep.add, Core.step, hns, if_false, hm, if_true, Bool.false_eq_true]
            rw [hs]
            cases p with
            | fresh => rfl
            | skipped => exact absurd rfl hp
            | failed => rfl
          · simp [Rep.add, Core.step, hns, hm]
          · simp [Rep.add, Core.step, hns, hm]
        | false =>
          rw [hm] at hs
          refine ⟨?_, hids, ?_, ?_, ?_⟩
          · simp [Rep.add, Core.step, hns, hm, observed, Item.reported, List.filter_cons]
          · simp only [Rep.add, Core.step, hns, if_false, hm, Bool.false_eq_true]
            rw [hs]
            cases p with
            | fresh => rfl
            | skipped => exact absurd rfl hp
            | failed => rfl
          · simp [Rep.add, Core.step, hns, hm]
          · simp [Rep.add, Core.step, hns, hm]

/-- The log written for some items. -/
theorem adds_log (l : List Item) : ∀ (R : Rep) (p : Phase),
    R.core.state = p.state (R.core.mayFail || R.core.shouldFail) →
    Nested (R.opened.map (·.id)) l →
    (R.adds l).core.log.filterMap observed = R.core.log.filterMap observed ++
      (effectiveFrom p l).filter Item.reported ∧
    (R.adds l).core.state = (p.after l).state (R.core.mayFail || R.core.shouldFail) ∧
    (R.adds l).core.mayFail = R.core.mayFail ∧ (R.adds l).core.shouldFail = R.core.shouldFail := by
  induction l with
  | nil =>
    intro R p hs _
    refine ⟨?_, hs, rfl, rfl⟩
    cases p <;> simp [Rep.adds, effectiveFrom, effective]
  | cons x l ih =>
    intro R p hs hn
    have e : R.adds (x :: l) = (R.add x).adds l := rfl
    have hn2 := (nested_append (R.opened.map (·.id)) [x] l).mp hn
    obtain ⟨h1, h2, h3, h4, h5⟩ := add_log R x p hs hn2.1
    rw [← h4, ← h5] at h3
    obtain ⟨g1, g2, g3, g4⟩ := ih (R.add x) (p.next x) h3 (by rw [h2]; exact hn2.2)
    rw [e]
    refine ⟨?_, ?_, g3.trans h4, g4.trans h5⟩
    · rw [g1, h1, effectiveFrom_cons, List.filter_append, List.append_assoc]
    · rw [g2, h4, h5]; rfl

/-! ## The loop -/

/-- The section bookkeeping between passes, `n` of which have been done. -/
def Ready (body : Prog) (n : Nat) (levels : List Level) : Prop :=
  (levels = [] ∧ (leaves body = 0 ∨ n = 0)) ∨
  (0 < n ∧ n < leaves body ∧
    levels.map zeroCur = { cur := 0, prev := (enc body 0 n).1, max := nsec body } :: (enc body 0 n).2)

theorem passNo_balanced [MessageLimit] (body : Prog) (c : Ctx) (n : Nat) : Balanced c (passNo body c n) :=
  balanced_pass body c _

/-- One pass of the loop. -/
theorem one_pass [MessageLimit] {cfg : Cfg} (hv : cfg.verbosity = 3) {body : Prog} (ht : Tidy body) {loc : Nat}
    (hd : secDepth body ≤ cfg.maxNested) (hc : capDepth body ≤ cfg.maxCaptures) {s : TS} {R : Rep}
    (h : At s R (topCtx loc)) (hl1 : s.info.locations.length = 1) {n : Nat} (hn : n < passCount body)
    (hr : Ready body n s.info.sections.levels) :
    match passNo body (topCtx loc) n with
    | (l, .normal) => ∃ s', exec cfg false body (resetPass s) = .ok (s', .normal) ∧
        At (clearFinished s') (R.adds l) (topCtx loc) ∧
        (clearFinished s').info.locations = s.info.locations ∧
        ((clearFinished s').info.sections.levels = [] ↔ n + 1 = passCount body) ∧
        (n + 1 < passCount body → Ready body (n + 1) (clearFinished s').info.sections.levels)
    | (l, .raised e a) => ∃ s', exec cfg false body (resetPass s) = .ok (s', .raised e) ∧
        Thrown s s' (R.adds l) (topCtx loc) a := by
  have h' : At (resetPass s) R (topCtx loc) :=
    { core := h.core, cur := h.cur, ids := h.ids, caps := h.caps, last := h.last, room := h.room
      held := h.held, inCheck := h.inCheck, unhandled := h.unhandled, depth := h.depth }
  have hlv : (resetPass s).info.sections.levels = s.info.sections.levels.map zeroCur := rfl
  unfold passCount at hn ⊢
  obtain ⟨lv, inner, sh, cz, mx, mode⟩ : ∃ lv inner,
      Shape 0 (resetPass s).info.sections.levels [] lv inner ∧ lv.cur = 0 ∧ lv.max ≤ nsec body ∧
      Mode (if leaves body = 0 then none else some n) false lv inner body := by
    rcases hr with ⟨hl, h0⟩ | ⟨hn0, hn1, hl⟩
    · refine ⟨{}, [], ⟨rfl, Or.inr ⟨by rw [hlv, hl]; rfl, rfl, rfl⟩⟩, rfl, Nat.zero_le _, ?_⟩
      by_cases hb : leaves body = 0
      · rw [if_pos hb]
        right
        intro i i1 i2
        rw [(leaves_pos body).mp hb] at i2
        omega
      · rw [if_neg hb]
        have hz := h0.resolve_left hb
        subst hz
        exact ⟨by omega, rfl, by rw [enc_zero]⟩
    · refine ⟨{ cur := 0, prev := (enc body 0 n).1, max := nsec body }, (enc body 0 n).2,
        ⟨rfl, Or.inl (by rw [hlv, hl]; rfl)⟩, rfl, Nat.le_refl _, ?_⟩
      rw [if_neg (by omega)]
      exact ⟨hn1, rfl, rfl⟩
  have key := exec_pass hv body (resetPass s) R (topCtx loc)
    (if leaves body = 0 then none else some n) [] lv inner ht h' (by show s.info.locations.length + _ ≤ _; omega)
    (by simpa [topCtx] using hc) sh (by omega) mode
  unfold passNo
  generalize pass body (topCtx loc) (if leaves body = 0 then none else some n) = x at key ⊢
  obtain ⟨l, e⟩ := x
  unfold Good at key
  cases e with
  | raised e a =>
    obtain ⟨s', e1, t1, _⟩ := key
    exact ⟨s', e1, t1.start rfl rfl⟩
  | normal =>
    obtain ⟨s', e1, a1, l1, p1⟩ := key
    refine ⟨s', e1, ?_⟩
    have hcur : s'.info.sections.current = [] := by
      have h1 := a1.ids
      rw [← a1.cur] at h1
      simpa [topCtx] using h1
    have hclear : ∀ x : SecState, x.current = [] → x.depth = s'.info.sections.depth →
        At (setSections x s') (R.adds l) (topCtx loc) := by
      intro x hx hx'
      exact { core := a1.core, cur := by rw [← a1.cur, hcur]; exact hx, ids := a1.ids, caps := a1.caps
              last := a1.last, room := a1.room, held := a1.held, inCheck := a1.inCheck
              unhandled := a1.unhandled, depth := hx'.trans a1.depth }
    obtain ⟨lv', inner', sh', c', mx', z', p', hw⟩ := p1
    by_cases hb : leaves body = 0
    · have nb := (leaves_pos body).mp hb
      have hlev : s'.info.sections.levels = [] := by
        rw [z' nb, hlv]
        rcases hr with ⟨hl, _⟩ | ⟨_, hn1, _⟩
        · rw [hl]; rfl
        · omega
      have hcf : clearFinished s' = s' := by
        unfold clearFinished; rw [hlev]
      rw [hcf]
      refine ⟨a1, l1, ?_, fun h => by omega⟩
      rw [hlev]
      simp only [true_iff]
      omega
    · have nb : 0 < nsec body := by
        have := leaves_pos body
        omega
      rw [if_neg hb] at hw
      obtain ⟨hleaf, henc⟩ := hw
      rw [cz] at henc mx'
      have hmx : lv'.max = nsec body := by omega
      have hlen := p' nb
      have hlev : s'.info.sections.levels = lv' :: inner' := by
        rcases sh'.2 with h | ⟨h, _, _⟩
        · exact h
        · rw [h] at hlen; simp at hlen
      by_cases hlast : n + 1 < leaves body
      · have hcf : clearFinished s' = s' := by
          unfold clearFinished
          rw [hlev]
          split
          · rename_i child heq
            simp only [List.cons.injEq] at heq
            obtain ⟨rfl, rfl⟩ := heq
            rcases enc_unfinished body 0 (n + 1) hlast with hu | ⟨y, hy, _⟩
            · rw [← henc] at hu
              simp only at hu
              rw [if_neg (by omega)]
            · rw [← henc] at hy
              simp at hy
          · rfl
        rw [hcf]
        refine ⟨a1, l1, ?_, fun _ => Or.inr ⟨by omega, by omega, ?_⟩⟩
        · rw [hlev]
          simp only [reduceCtorEq, false_iff]
          omega
        · rw [hlev, ← henc]
          simp [zeroCur, hmx]
      · have hn1 : n + 1 = leaves body := by omega
        rw [enc_full' body 0 _ hn1] at henc
        simp only [Nat.zero_add, Prod.mk.injEq, List.map_eq_nil_iff] at henc
        obtain ⟨he1, rfl⟩ := henc
        have hcf : clearFinished s' =
            setSections { s'.info.sections with levels := [], current := [] } s' := by
          unfold clearFinished
          rw [hlev]
          simp only [he1, hmx, if_true]
        rw [hcf]
        refine ⟨hclear _ rfl rfl, l1, ?_, fun h => by omega⟩
        simp only [setSections, true_iff]
        omega

theorem ready_same {p q : Prog} (h : sections p = sections q) {n : Nat} {l : List Level} (hr : Ready p n l) :
    Ready q n l := by
  unfold Ready at hr ⊢
  rw [← same_leaves h, ← same_enc h, ← same_nsec h]
  exact hr

/-- The loop follows the story. -/
theorem runLoop_story [MessageLimit] {cfg : Cfg} (hv : cfg.verbosity = 3) {bodies : Nat → Prog}
    (ht : ∀ n, Tidy (bodies n)) (hsec : ∀ n, sections (bodies n) = sections (bodies 0)) {loc : Nat}
    (hd : ∀ n, secDepth (bodies n) ≤ cfg.maxNested) (hc : ∀ n, capDepth (bodies n) ≤ cfg.maxCaptures) (R₀ : Rep)
    (h0 : R₀.opened = []) (hst : R₀.core.state = .success) (k : Nat) :
    ∀ (n : Nat) (seen : List Item) (s : TS) (fuel : Nat), n + (k + 1) = passCount (bodies 0) →
      At s (R₀.adds seen) (topCtx loc) → s.info.locations.length = 1 → Nested [] seen → openAfter [] seen = [] →
      Ready (bodies n) n s.info.sections.levels →
      let x := story bodies (topCtx loc) (k + 1) n seen
      (fuel < x.2 → runLoop cfg bodies fuel n s = none) ∧
      (x.2 ≤ fuel → ∃ s' r, runLoop cfg bodies fuel n s = some (.ok (s', r)) ∧
        Nested [] x.1.1 ∧
        match x.1.2 with
        | .normal => r = .normal ∧ openAfter [] x.1.1 = [] ∧ At s' (R₀.adds x.1.1) (topCtx loc) ∧
            s'.info.locations = s.info.locations
        | .raised e a => r = .raised e ∧ openAfter [] x.1.1 = a.path ∧
            Thrown s s' (R₀.adds x.1.1) (topCtx loc) a) := by
  induction k with
  | zero =>
    intro n seen s fuel hnk ha hl1 hns hos hr
    have hone := one_pass hv (ht n) (hd n) (hc n) ha hl1 (n := n) (by rw [same_count (hsec n)]; omega) hr
    rw [same_count (hsec n)] at hone
    have hbal := passNo_balanced (bodies n) (topCtx loc) n
    simp only [story]
    generalize passNo (bodies n) (topCtx loc) n = y at hone hbal ⊢
    obtain ⟨l, e⟩ := y
    have hnest : Nested [] (seen ++ l) := (nested_append _ _ _).mpr ⟨hns, by rw [hos]; exact hbal.1⟩
    cases e with
    | raised e a =>
      obtain ⟨s', e1, t1⟩ := hone
      refine ⟨?_, ?_⟩
      · intro hf
        have : fuel = 0 := by simpa using hf
        subst this; rfl
      · intro hf
        obtain ⟨f, rfl⟩ : ∃ f, fuel = f + 1 := ⟨fuel - 1, by simp only at hf; omega⟩
        refine ⟨s', .raised e, by simp only [runLoop, e1], hnest, rfl, ?_, ?_⟩
        · rw [openAfter_append, hos]; exact hbal.2
        · rw [Rep.adds_append]; exact t1
    | normal =>
      obtain ⟨s', e1, a1, l1, lev, _⟩ := hone
      have hl0 := lev.mpr (by omega)
      have hcount : (if skipsTest (seen ++ l) = true then (((seen ++ l, Exit.normal), 1) :
          (List Item × Exit) × Nat) else ((seen ++ l, .normal), 0 + 1)) = ((seen ++ l, .normal), 1) := by
        split <;> rfl
      simp only [hcount]
      refine ⟨?_, ?_⟩
      · intro hf
        have : fuel = 0 := by omega
        subst this; rfl
      · intro hf
        obtain ⟨f, rfl⟩ : ∃ f, fuel = f + 1 := ⟨fuel - 1, by omega⟩
        refine ⟨clearFinished s', .normal, ?_, hnest, rfl, ?_, ?_, l1⟩
        · simp only [runLoop, e1, hl0, List.isEmpty_nil, Bool.not_true, Bool.false_and,
            Bool.false_eq_true, if_false]
        · rw [openAfter_append, hos]; exact hbal.2
        · rw [Rep.adds_append]; exact a1
  | succ k ih =>
    intro n seen s fuel hnk ha hl1 hns hos hr
    have hone := one_pass hv (ht n) (hd n) (hc n) ha hl1 (n := n) (by rw [same_count (hsec n)]; omega) hr
    rw [same_count (hsec n)] at hone
    have hbal := passNo_balanced (bodies n) (topCtx loc) n
    have hstory : story bodies (topCtx loc) (k + 1 + 1) n seen =
        match passNo (bodies n) (topCtx loc) n with
        | (l, .raised e a) => ((seen ++ l, .raised e a), 1)
        | (l, .normal) =>
          if skipsTest (seen ++ l) then ((seen ++ l, .normal), 1)
          else
            let r := story bodies (topCtx loc) (k + 1) (n + 1) (seen ++ l)
            (r.1, r.2 + 1) := rfl
    rw [hstory]
    clear hstory
    generalize passNo (bodies n) (topCtx loc) n = y at hone hbal ⊢
    obtain ⟨l, e⟩ := y
    have hnest : Nested [] (seen ++ l) := (nested_append _ _ _).mpr ⟨hns, by rw [hos]; exact hbal.1⟩
    cases e with
    | raised e a =>
      obtain ⟨s', e1, t1⟩ := hone
      refine ⟨?_, ?_⟩
      · intro hf
        have : fuel = 0 := by simpa using hf
        subst this; rfl
      · intro hf
        obtain ⟨f, rfl⟩ : ∃ f, fuel = f + 1 := ⟨fuel - 1, by simp only at hf; omega⟩
        refine ⟨s', .raised e, by simp only [runLoop, e1], hnest, rfl, ?_, ?_⟩
        · rw [openAfter_append, hos]; exact hbal.2
        · rw [Rep.adds_append]; exact t1
    | normal =>
      obtain ⟨s', e1, a1, l1, lev, rdy⟩ := hone
      have hopen : openAfter [] (seen ++ l) = [] := by
        rw [openAfter_append, hos]; exact hbal.2
      have hl0 : (clearFinished s').info.sections.levels ≠ [] := fun h => by
        have := lev.mp h; omega
      rw [← Rep.adds_append] at a1
      have hstate : ((clearFinished s').state = .skipped) ↔ skipsTest (seen ++ l) = true := by
        have h1 := (adds_log (seen ++ l) R₀ .fresh hst (by rw [h0]; exact hnest)).2.1
        have h2 : (clearFinished s').state = (R₀.adds (seen ++ l)).core.state := by
          rw [← a1.core]; rfl
        rw [h2, h1, after_fresh]
        cases skipsTest (seen ++ l) with
        | true => simp [Phase.state]
        | false =>
          simp only [Bool.false_eq_true, if_false, iff_false]
          split
          · simp only [Phase.state]; split <;> simp
          · simp [Phase.state]
      have hne : (clearFinished s').info.sections.levels.isEmpty = false := by
        cases hl : (clearFinished s').info.sections.levels with
        | nil => exact absurd hl hl0
        | cons => rfl
      dsimp only
      cases hsk : skipsTest (seen ++ l) with
      | true =>
        simp only [if_true]
        refine ⟨?_, ?_⟩
        · intro hf
          have : fuel = 0 := by omega
          subst this; rfl
        · intro hf
          obtain ⟨f, rfl⟩ : ∃ f, fuel = f + 1 := ⟨fuel - 1, by omega⟩
          refine ⟨clearFinished s', .normal, ?_, hnest, rfl, hopen, a1, l1⟩
          simp only [runLoop, e1, hne, hstate.mpr hsk, ne_eq, not_true_eq_false, decide_false,
            Bool.and_false, Bool.false_eq_true, if_false]
      | false =>
        simp only [Bool.false_eq_true, if_false]
        have hst' : ¬ ((clearFinished s').state = .skipped) := by
          rw [hstate, hsk]; simp
        have hloop : ∀ f, runLoop cfg bodies (f + 1) n s = runLoop cfg bodies f (n + 1) (clearFinished s') := by
          intro f
          simp only [runLoop, e1, hne, Bool.not_false, ne_eq, hst', not_false_eq_true, decide_true,
            Bool.and_self, if_true]
        refine ⟨?_, ?_⟩
        · intro hf
          cases fuel with
          | zero => rfl
          | succ f =>
            rw [hloop f]
            exact (ih (n + 1) (seen ++ l) (clearFinished s') f (by omega) a1 (by rw [l1]; exact hl1) hnest hopen
              (ready_same ((hsec n).trans (hsec (n + 1)).symm) (rdy (by omega)))).1 (by omega)
        · intro hf
          cases fuel with
          | zero => omega
          | succ f =>
            rw [hloop f]
            obtain ⟨u, r, g1, g2, g3⟩ := (ih (n + 1) (seen ++ l) (clearFinished s') f (by omega) a1 (by rw [l1]; exact hl1)
              hnest hopen (ready_same ((hsec n).trans (hsec (n + 1)).symm) (rdy (by omega)))).2 (by omega)
            refine ⟨u, r, g1, g2, ?_⟩
            cases hx : (story bodies (topCtx loc) (k + 1) (n + 1) (seen ++ l)).1.2 with
            | normal =>
              rw [hx] at g3
              exact ⟨g3.1, g3.2.1, g3.2.2.1, g3.2.2.2.trans l1⟩
            | raised e a =>
              rw [hx] at g3
              exact ⟨g3.1, g3.2.1, g3.2.2.start (by rw [a1.caps, ha.caps]) l1⟩

/-! ## The end of the run -/

theorem at_init (cfg : Cfg) (hv : cfg.verbosity = 3) (t : TestCase) (tags : List Filter.ParsedTag) :
    At (initState cfg t tags) { opened := [], core := core (initState cfg t tags), inCheck := false } (topCtx t.loc) := by
  have : initState cfg t tags = { freshState t tags with
      log := [.caseStarted t.id] } := by
    simp [initState, emit, hv, freshState]
  rw [this]
  exact { core := rfl, cur := rfl, ids := rfl, caps := rfl, last := rfl, room := Nat.le_refl _, held := rfl
          inCheck := rfl, unhandled := rfl, depth := rfl }

/-- What is known at the end of the test, whatever happened. -/
structure Ended (s : TS) (R : Rep) (loc : Nat) : Prop where
  core : core s = R.core
  cur : s.info.sections.current = []
  caps : s.info.captures = []
  last : s.info.locations = [(loc, .testCaseScope)]
  held : s.held = none
  inCheck : s.inCheck = false
  unhandled : s.unhandled = false

/-- Closing the sections left open by an exception. -/
theorem closeHeld_core {cfg : Cfg} (hv : cfg.verbosity = 3) (l : List Section) :
    ∀ (s : TS) (R : Rep), core s = R.core → R.opened = l.reverse →
      core (closeHeld cfg l s) =
        (R.adds ((l.map (·.id)).map fun id => Item.leave id true)).core ∧
      (closeHeld cfg l s).info = s.info ∧ (closeHeld cfg l s).inCheck = s.inCheck ∧
      (closeHeld cfg l s).unhandled = s.unhandled := by
  induction l with
  | nil => intro s R hs _; exact ⟨hs, rfl, rfl, rfl⟩
  | cons x l ih =>
    intro s R hs hR
    have hlast : R.opened.getLast? = some x := by rw [hR]; simp
    have h1 : core (reportSectionEnded cfg x s) = (R.add (.leave x.id true)).core := by
      simp only [reportSectionEnded, emit, hv, ge_iff_le, Nat.reduceLeDiff, if_true, Rep.add, hlast]
      rw [← hs]
      rfl
    obtain ⟨h2, h3, h4, h5⟩ := ih (reportSectionEnded cfg x s) (R.add (.leave x.id true)) h1
      (by simp [Rep.add, hR])
    obtain ⟨f1, _, f3, f4⟩ := emit_fields cfg 2 (.sectionEnded x.id (decide (s.state = .skipped))
      x.asserts x.failures x.allowed) s
    exact ⟨h2, h3.trans f1, h4.trans f3, h5.trans f4⟩

theorem ended_normal [MessageLimit] {cfg : Cfg} (hv : cfg.verbosity = 3) {s : TS} {R : Rep} {loc : Nat}
    (h : At s R (topCtx loc)) (hl : s.info.locations = [(loc, .testCaseScope)]) :
    Ended (afterLoop cfg s .normal) (R.adds (ending loc .normal)) loc := by
  have hcore := core_reportAssertion (fl := false) cfg true "no exception caught".toList (setInCheck true s)
  rw [full_full hv, assertionCtx_registered] at hcore
  have hctx : assertionCtx false (setInCheck true s) = Ctx.exactly (topCtx loc) loc := by
    simp only [assertionCtx, setInCheck, h.unhandled, Bool.false_or, Bool.false_eq_true, if_false, if_true, hl,
      List.getLastD_cons, h.cur, h.ids, h.caps]
    rfl
  rw [hctx] at hcore
  obtain ⟨f1, f2, f3, f4⟩ := reportAssertion_fields (fl := false) cfg true "no exception caught".toList
    (setInCheck true s)
  obtain ⟨u, hu⟩ : ∃ u, u = reportAssertion cfg false true "no exception caught".toList
    (setInCheck true s) := ⟨_, rfl⟩
  rw [← hu] at f1 f2 f3 f4 hcore
  have huu : u.unhandled = false := f4.trans h.unhandled
  have hal : afterLoop cfg s .normal = { u with inCheck := false, unhandled := false } := by
    show settle cfg (setInCheck false (reportAssertion cfg false true "no exception caught".toList
      (setInCheck true s))) = _
    rw [← hu]
    have h1 : (setInCheck false u).unhandled = false := huu
    simp only [settle, h1, Bool.false_eq_true, if_false]
    rfl
  rw [hal]
  have hcur : s.info.sections.current = [] := by
    have h1 := h.ids
    rw [← h.cur] at h1
    simpa [topCtx] using h1
  have hi : u.info.sections.current = [] ∧ u.info.captures = [] ∧
      u.info.locations = [(loc, .testCaseScope)] := by
    rw [f1]
    have : (setInCheck true s).info = s.info := rfl
    rw [this]
    unfold countUnless
    split
    · exact ⟨hcur, h.caps, hl⟩
    · exact ⟨by simp [Info.count, hcur], h.caps, hl⟩
  exact { core := by
            show core u = _
            rw [hcore]
            show Core.steps (core s) _ = _
            rw [h.core]; rfl
          cur := hi.1, caps := hi.2.1, last := hi.2.2, held := by
            show u.held = none
            rw [f2]
            simp [setInCheck, h.held]
          inCheck := rfl, unhandled := rfl }

/-- `settle` when an exception escaped: the sections left are closed. -/
theorem settle_unhandled {cfg : Cfg} (hv : cfg.verbosity = 3) {u : TS} {R : Rep} {loc : Nat}
    (hun : u.unhandled = true) (hcore : core u = R.core) (hcur : u.info.sections.current = [])
    (hheld : (u.held.getD u.info).sections.current = R.opened)
    (hcaps : u.info.captures = []) (hloc : u.info.locations = [(loc, .testCaseScope)])
    (hin : u.inCheck = false) :
    Ended (settle cfg u)
      (R.adds ((R.opened.map (·.id)).reverse.map fun id => Item.leave id true)) loc := by
  unfold settle
  rw [if_pos hun]
  unfold notify
  cases hh : u.held with
  | none =>
    rw [hh] at hheld
    simp only [Option.getD_none, hcur] at hheld
    rw [← hheld]
    exact { core := hcore, cur := hcur, caps := hcaps, last := hloc, held := hh, inCheck := hin
            unhandled := rfl }
  | some i =>
    rw [hh] at hheld
    simp only [Option.getD_some] at hheld
    simp only [hheld, hcur, List.length_nil, List.drop_zero]
    obtain ⟨h1, h2, h3, h4⟩ := closeHeld_core hv R.opened.reverse u R hcore (by simp)
    rw [List.map_reverse] at h1
    exact { core := h1
            cur := by
              show (closeHeld cfg R.opened.reverse u).info.sections.current = []
              rw [h2]; exact hcur
            caps := by
              show (closeHeld cfg R.opened.reverse u).info.captures = []
              rw [h2]; exact hcaps
            last := by
              show (closeHeld cfg R.opened.reverse u).info.locations = _
              rw [h2]; exact hloc
            held := rfl
            inCheck := h3.trans hin
            unhandled := rfl }

theorem ended_raised [MessageLimit] {cfg : Cfg} (hv : cfg.verbosity = 3) {s₀ s : TS} {R : Rep} {loc : Nat} {a : Ctx}
    {e : Exn} (h : Thrown s₀ s R (topCtx loc) a) (hc : s₀.info.captures = [])
    (hl : s₀.info.locations = [(loc, .testCaseScope)]) (hin : R.inCheck = false) :
    Ended (afterLoop cfg s (.raised e)) (R.adds (ending loc (.raised e a))) loc := by
  have hcur : s.info.sections.current = [] := by rw [h.cur]; rfl
  unfold afterLoop reportEnd ending
  cases hab : e.isAbort with
  | true =>
    simp only [hab, if_true, List.nil_append]
    rw [← h.ids]
    exact settle_unhandled (u := setUnhandled true s) hv rfl h.core hcur h.hcur (h.caps.trans hc)
      (h.locs.trans hl) (h.inCheck.trans hin)
  | false =>
    simp only [hab, Bool.false_eq_true, if_false, List.singleton_append, joined_eq]
    change Ended (settle cfg (reportAssertion cfg false false (unexpectedMessage e)
      (setUnhandled true s))) _ _
    generalize unexpectedMessage e = msg
    have hcore := core_reportAssertion (fl := false) cfg false msg (setUnhandled true s)
    rw [full_full hv, assertionCtx_registered] at hcore
    have hctx : assertionCtx false (setUnhandled true s) = a := by
      simp only [assertionCtx, setUnhandled, Bool.or_true, if_true, h.hcur, h.ids, h.hcaps, h.hlast, h.inCheck, hin,
        Bool.false_eq_true, if_false]
    rw [hctx] at hcore
    obtain ⟨f1, f2, f3, f4⟩ := reportAssertion_fields (fl := false) cfg false msg (setUnhandled true s)
    obtain ⟨u, hu⟩ : ∃ u, u = reportAssertion cfg false false msg (setUnhandled true s) := ⟨_, rfl⟩
    rw [← hu] at f1 f2 f3 f4 hcore ⊢
    have hci : ∀ i : Info, (countUnless false (setUnhandled true s) i).captures = i.captures ∧
        (countUnless false (setUnhandled true s) i).locations = i.locations ∧
        (countUnless false (setUnhandled true s) i).sections.current =
          if s.state = .skipped then i.sections.current
          else i.sections.current.map (Section.count false (s.mayFail || s.shouldFail)) := by
      intro i
      unfold countUnless
      by_cases hk : s.state = .skipped
      · have : (setUnhandled true s).state = .skipped := hk
        rw [if_pos this, if_pos hk]
        exact ⟨rfl, rfl, rfl⟩
      · have : ¬ ((setUnhandled true s).state = .skipped) := hk
        rw [if_neg this, if_neg hk]
        exact ⟨rfl, rfl, rfl⟩
    have hgetD : u.held.getD u.info = countUnless false (setUnhandled true s) (s.held.getD s.info) := by
      rw [f1, f2]
      show ((s.held.map _).getD _) = _
      cases s.held <;> rfl
    have hst : s.state = R.core.state := congrArg Core.state h.core
    have hmay : s.mayFail = R.core.mayFail := congrArg Core.mayFail h.core
    have hsh : s.shouldFail = R.core.shouldFail := congrArg Core.shouldFail h.core
    have hopen : (u.held.getD u.info).sections.current =
        (R.add (.assertion false a msg)).opened := by
      rw [hgetD, (hci _).2.2, h.hcur, hst, hmay, hsh]
      rfl
    have hids : (R.add (.assertion false a msg)).opened.map (·.id) = a.path := by
      rw [← h.ids]
      simp only [Rep.add]
      split
      · rfl
      · rw [List.map_map]
        apply List.map_congr_left
        intro y _
        simp only [Function.comp, Section.count]
        split
        · rfl
        · split <;> rfl
    have := settle_unhandled (loc := loc) (R := R.add (.assertion false a msg)) hv (u := u)
      (f4.trans rfl)
      (by
        rw [hcore]
        show Core.steps (core s) _ = _
        rw [h.core]; rfl)
      (by
        rw [f1, (hci _).2.2]
        show (if s.state = .skipped then s.info.sections.current else
          s.info.sections.current.map _) = []
        rw [hcur]; simp)
      hopen
      (by rw [f1, (hci _).1]; exact h.caps.trans hc)
      (by rw [f1, (hci _).2.1]; exact h.locs.trans hl)
      (f3.trans (h.inCheck.trans hin))
    rw [hids] at this
    exact this

/-- The nesting of what is reported at the end. -/
theorem nested_leaves (p : List Nat) (n : List Nat) (h : n = p.reverse) :
    Nested p (n.map fun id => Item.leave id true) ∧
    openAfter p (n.map fun id => Item.leave id true) = [] := by
  induction n generalizing p with
  | nil => simp at h; subst h; simp [Nested, openAfter]
  | cons x n ih =>
    have hp : p = n.reverse ++ [x] := by
      have := congrArg List.reverse h
      simpa using this.symm
    subst hp
    have := ih n.reverse (by simp)
    simp only [List.map_cons, Nested, openAfter, List.getLast?_concat, List.dropLast_concat]
    exact ⟨⟨trivial, this.1⟩, this.2⟩

theorem nested_ending [MessageLimit] (loc : Nat) (x : Exit) (p : List Nat)
    (hp : p = match x with | .normal => [] | .raised _ a => a.path) :
    Nested p (ending loc x) ∧ openAfter p (ending loc x) = [] := by
  cases x with
  | normal => subst hp; simp [ending, Nested, openAfter]
  | raised e a =>
    subst hp
    simp only [ending]
    have := nested_leaves a.path a.path.reverse rfl
    cases e.isAbort with
    | true => simpa using this
    | false => simpa [Nested, openAfter] using this

/-- The state in which a test ends is the report of everything that happens in it. -/
theorem run_rep [MessageLimit] {cfg : Cfg} (hv : cfg.verbosity = 3) {t : TestCase} (ht : Always Tidy t.body)
    (hsec : Alike t.body) (hd : Always (secDepth · ≤ cfg.maxNested) t.body)
    (hc : Always (capDepth · ≤ cfg.maxCaptures) t.body)
    {tags : List Filter.ParsedTag} (htags : Filter.forEachTag cfg.maxTag t.id.tags = .ok tags)
    (fuel : Nat) :
    let x := story t.body.no (topCtx t.loc) (passCount t.body.first) 0 []
    (fuel < x.2 → run cfg fuel t = none) ∧
    (x.2 ≤ fuel → ∃ b, run cfg fuel t = some (.ok (endCase cfg t (checkShouldFail cfg b))) ∧
      Ended b (Rep.adds ⟨[], core (initState cfg t tags), false⟩ (x.1.1 ++ ending t.loc x.1.2)) t.loc ∧
      Nested [] (x.1.1 ++ ending t.loc x.1.2) ∧ openAfter [] (x.1.1 ++ ending t.loc x.1.2) = []) := by
  intro x
  obtain ⟨k, hk⟩ : ∃ k, passCount t.body.first = k + 1 := ⟨passCount t.body.first - 1, by
    unfold passCount; omega⟩
  obtain ⟨R₀, hR⟩ : ∃ R : Rep, R = { opened := [], core := core (initState cfg t tags), inCheck := false } := ⟨_, rfl⟩
  have ha := at_init cfg hv t tags
  rw [← hR] at ha
  have hinit : initState cfg t tags = { freshState t tags with log := [.caseStarted t.id] } := by
    simp [initState, emit, hv, freshState]
  have hloop := runLoop_story hv ht hsec hd hc R₀ (by rw [hR]) (by rw [hR, hinit]; rfl) k 0 []
    (initState cfg t tags) fuel (by rw [no_zero]; omega) ha (by rw [hinit]; rfl) (by simp [Nested]) (by simp [openAfter])
    (Or.inl ⟨by rw [hinit]; rfl, Or.inr rfl⟩)
  rw [← hk] at hloop
  obtain ⟨h1, h2⟩ := hloop
  refine ⟨fun hf => ?_, fun hf => ?_⟩
  · unfold run
    rw [htags]
    simp only [h1 hf]
  · obtain ⟨u, r, e1, hn, h3⟩ := h2 hf
    have hrun : run cfg fuel t =
        some (.ok (endCase cfg t (checkShouldFail cfg (afterLoop cfg u r)))) := by
      unfold run
      rw [htags]
      simp only [e1]
    have hloc0 : (initState cfg t tags).info.locations = [(t.loc, .testCaseScope)] := by
      rw [hinit]; rfl
    have hcap0 : (initState cfg t tags).info.captures = [] := by rw [hinit]; rfl
    -- the state after the loop
    obtain ⟨hend, hopen⟩ : Ended (afterLoop cfg u r) (R₀.adds (x.1.1 ++ ending t.loc x.1.2)) t.loc ∧
        openAfter [] x.1.1 = match x.1.2 with | .normal => [] | .raised _ a => a.path := by
      show Ended (afterLoop cfg u r) (R₀.adds ((story t.body.no (topCtx t.loc) (passCount t.body.first) 0
        []).1.1 ++ ending t.loc (story t.body.no (topCtx t.loc) (passCount t.body.first) 0 []).1.2)) t.loc ∧ _
      rw [Rep.adds_append]
      show _ ∧ openAfter [] (story t.body.no (topCtx t.loc) (passCount t.body.first) 0 []).1.1 =
        match (story t.body.no (topCtx t.loc) (passCount t.body.first) 0 []).1.2 with
        | .normal => [] | .raised _ a => a.path
      generalize (story t.body.no (topCtx t.loc) (passCount t.body.first) 0 []).1 = y at h3 ⊢
      obtain ⟨l, e⟩ := y
      cases e with
      | normal =>
        obtain ⟨rfl, g1, g2, g3⟩ := h3
        exact ⟨ended_normal hv g2 (g3.trans hloc0), g1⟩
      | raised e a =>
        obtain ⟨rfl, g1, g2⟩ := h3
        exact ⟨ended_raised hv g2 hcap0 hloc0 (Rep.adds_inCheck (by rw [hR]) _), g1⟩
    rw [hR] at hend
    refine ⟨_, hrun, hend, ?_, ?_⟩
    · rw [nested_append]
      exact ⟨hn, (nested_ending t.loc x.1.2 _ hopen).1⟩
    · rw [openAfter_append]
      exact (nested_ending t.loc x.1.2 _ hopen).2

/-- The whole run of a test case follows its story. -/
theorem run_story [MessageLimit] {cfg : Cfg} (hv : cfg.verbosity = 3) {t : TestCase} (ht : Always Tidy t.body)
    (hsec : Alike t.body) (hd : Always (secDepth · ≤ cfg.maxNested) t.body)
    (hc : Always (capDepth · ≤ cfg.maxCaptures) t.body)
    {tags : List Filter.ParsedTag} (htags : Filter.forEachTag cfg.maxTag t.id.tags = .ok tags)
    (fuel : Nat) :
    let x := story t.body.no (topCtx t.loc) (passCount t.body.first) 0 []
    (fuel < x.2 → run cfg fuel t = none) ∧
    (x.2 ≤ fuel → ∃ s, run cfg fuel t = some (.ok s) ∧
      s.log.filterMap observed =
        (caseStory t (tags.contains .shouldFail)).filter Item.reported) := by
  intro x
  obtain ⟨h1, h2⟩ := run_rep hv ht hsec hd hc htags fuel
  refine ⟨h1, fun hf => ?_⟩
  · obtain ⟨b, hrun, hend, hnall, hopen0⟩ := h2 hf
    refine ⟨_, hrun, ?_⟩
    clear hrun
    change Ended b (Rep.adds _ (x.1.1 ++ ending t.loc x.1.2)) t.loc at hend
    change Nested [] (x.1.1 ++ ending t.loc x.1.2) at hnall
    have hstory : caseStory t (tags.contains .shouldFail) =
        effective ((x.1.1 ++ ending t.loc x.1.2) ++ if tags.contains .shouldFail then
          [.assertion ((x.1.1 ++ ending t.loc x.1.2).any Item.isFailure)
            (Ctx.exactly (topCtx t.loc) t.loc) "expected test to fail".toList] else []) := rfl
    rw [hstory]
    generalize hall : x.1.1 ++ ending t.loc x.1.2 = all at hend hnall ⊢
    obtain ⟨R₀, hR⟩ : ∃ R : Rep, R = { opened := [], core := core (initState cfg t tags), inCheck := false } := ⟨_, rfl⟩
    have hinit : initState cfg t tags = { freshState t tags with log := [.caseStarted t.id] } := by
      simp [initState, emit, hv, freshState]
    rw [← hR] at hend
    have hflags : R₀.core.mayFail = tags.contains .mayFail ∧
        R₀.core.shouldFail = tags.contains .shouldFail ∧ R₀.core.state = .success ∧
        R₀.core.log.filterMap observed = [] ∧ R₀.opened = [] := by
      rw [hR, hinit]; exact ⟨rfl, rfl, rfl, rfl, rfl⟩
    obtain ⟨f1, f2, f3, f4, f5⟩ := hflags
    obtain ⟨g1, g2, g3, g4⟩ := adds_log all R₀ .fresh f3 (by rw [f5]; exact hnall)
    have hbsh : b.shouldFail = tags.contains .shouldFail := by
      have : b.shouldFail = (R₀.adds all).core.shouldFail := congrArg Core.shouldFail hend.core
      rw [this, g4, f2]
    have hblog : b.log.filterMap observed = (effective all).filter Item.reported := by
      have : b.log = (R₀.adds all).core.log := congrArg Core.log hend.core
      rw [this, g1, f4]
      rfl
    have hendlog : ∀ v : TS, (endCase cfg t v).log.filterMap observed = v.log.filterMap observed := by
      intro v
      simp [endCase, emit, hv, observed]
    rw [hendlog]
    unfold checkShouldFail
    rw [hbsh]
    cases hs : tags.contains Filter.ParsedTag.shouldFail with
    | false =>
      simp only [Bool.false_eq_true, if_false, List.append_nil]
      exact hblog
    | true =>
      simp only [if_true]
      rw [hs] at hbsh f2
      have hmay : (R₀.core.mayFail || R₀.core.shouldFail) = true := by rw [f2]; simp
      rw [hmay] at g2
      have hstate : b.state = (Phase.fresh.after all).state true := by
        have : b.state = (R₀.adds all).core.state := congrArg Core.state hend.core
        rw [this, g2]
      have hcore := core_reportAssertion (fl := false) cfg (decide (b.state = .allowedFail))
        "expected test to fail".toList (setInCheck true (setShouldFail false b))
      rw [full_full hv, assertionCtx_registered] at hcore
      have hctx : assertionCtx false (setInCheck true (setShouldFail false b)) =
          Ctx.exactly (topCtx t.loc) t.loc := by
        simp only [assertionCtx, setInCheck, setShouldFail, hend.unhandled, Bool.false_or, Bool.false_eq_true,
          if_false, if_true, hend.last, List.getLastD_cons, hend.cur, hend.caps]
        rfl
      rw [hctx] at hcore
      have hlog := congrArg Core.log hcore
      simp only [Core.steps, List.foldl_cons, List.foldl_nil] at hlog
      have hfin : (setShouldFail true (setInCheck false (reportAssertion cfg false
          (decide (b.state = .allowedFail)) "expected test to fail".toList
          (setInCheck true (setShouldFail false b))))).log =
          (core (reportAssertion cfg false (decide (b.state = .allowedFail))
            "expected test to fail".toList (setInCheck true (setShouldFail false b)))).log := rfl
      rw [hfin, hlog]
      -- the effect of the last assertion
      have heff : ∀ y : Item, y.isAssertion = true → effective (all ++ [y]) =
          effective all ++ (if Phase.fresh.after all = .skipped then [] else [y]) := by
        intro y hy
        have hgen : ∀ (p : Phase) (l : List Item), effectiveFrom p (l ++ [y]) =
            effectiveFrom p l ++ (if p.after l = .skipped then [] else [y]) := by
          intro p l
          induction l generalizing p with
          | nil =>
            rw [List.nil_append, effectiveFrom_cons]
            have hnil : ∀ q : Phase, effectiveFrom q [] = [] := by
              intro q; cases q <;> simp [effectiveFrom, effective]
            rw [hnil, hnil]
            have : p.after [] = p := rfl
            rw [this]
            simp only [hy, and_true, List.append_nil, List.nil_append]
          | cons z l ih =>
            rw [List.cons_append, effectiveFrom_cons, effectiveFrom_cons, ih (p.next z)]
            have : p.after (z :: l) = (p.next z).after l := rfl
            rw [this, List.append_assoc]
        exact hgen .fresh all
      rw [heff _ rfl, List.filter_append, ← hblog]
      rw [after_fresh] at hstate ⊢
      have hbst : (core (setInCheck true (setShouldFail false b))).state = b.state := rfl
      have hblog' : (core (setInCheck true (setShouldFail false b))).log = b.log := rfl
      by_cases hsk : skipsTest all = true
      · simp only [hsk, if_true, Phase.state] at hstate ⊢
        simp only [Core.step, hbst, hstate, if_true, hblog', List.filter_nil, List.append_nil]
      · simp only [hsk, if_false, Bool.false_eq_true] at hstate ⊢
        by_cases hf : all.any Item.isFailure = true
        · simp only [hf, if_true, Phase.state] at hstate ⊢
          simp [Core.step, hbst, hstate, hblog', observed, Item.reported, List.filter_cons]
        · simp only [hf, if_false, Phase.state, Bool.false_eq_true] at hstate ⊢
          have hf' : all.any Item.isFailure = false := by simpa using hf
          simp only [Core.step, hbst, hstate, reduceCtorEq, if_false, decide_false,
            Bool.false_eq_true, hblog']
          split <;> simp [observed, Item.reported, List.filter_cons]

end Verif.Run
