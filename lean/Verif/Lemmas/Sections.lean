import Verif.Lemmas.Refine
/-! # Entering and leaving sections, captures and handlers -/
namespace Verif.Run
open Spec

theorem ensureLevel_ok {cfg : Cfg} {d : Nat} {x : SecState} {anc inner : List Level} {lv : Level}
    (hd : x.depth = d) (hsh : Shape d x.levels anc lv inner) (hn : d < cfg.maxNested) :
    ensureLevel cfg x = .ok { x with levels := anc ++ lv :: inner } := by
  obtain ⟨ha, h | ⟨h, rfl, rfl⟩⟩ := hsh
  · unfold ensureLevel
    have : ¬ (x.depth ≥ x.levels.length) := by rw [h, hd]; simp; omega
    rw [if_neg this, ← h]
  · unfold ensureLevel
    rw [if_pos (by rw [h, hd, ha]; exact Nat.le_refl _), if_neg (by omega),
      if_neg (by rw [h, ha]; omega), h]

theorem set_mid {α : Type} (a b : List α) (x y : α) (n : Nat) (h : a.length = n) :
    (a ++ x :: b).set n y = a ++ y :: b := by
  subst h; simp

theorem get_mid {α : Type} (a b : List α) (x : α) (n : Nat) (h : a.length = n) :
    (a ++ x :: b)[n]? = some x := by
  subst h; simp

/-- Meeting a section that is not entered. -/
theorem not_entered {cfg : Cfg} {s : TS} {R : Rep} {c : Ctx} (h : At s R c) {anc inner : List Level}
    {lv : Level} (hsh : Shape c.path.length s.info.sections.levels anc lv inner)
    (hd : c.path.length < cfg.maxNested) (id loc : Nat)
    (hw : s.info.sections.leaf = true ∨
      wanted lv.next (c.path.length + 1) (c.path.length + 1 + inner.length) = false) :
    ∃ s₁, enterSection cfg false id loc s = .ok (s₁, false) ∧
    ∃ s₂, leaveSection cfg false false s₁ = .ok s₂ ∧ At s₂ R c ∧
      s₂.info.locations = s.info.locations ∧ s₂.info.captures = s.info.captures ∧
      s₂.info.sections.levels = anc ++ lv.next :: inner ∧
      s₂.info.sections.leaf = s.info.sections.leaf := by
  have hlen : (anc ++ lv.next :: inner).length = c.path.length + 1 + inner.length := by
    simp [hsh.1]; omega
  unfold enterSection
  rw [arrive_none cfg h.held]
  simp only [ensureLevel_ok h.depth hsh hd, Outcome.bind_ok]
  unfold enterLevel
  simp only [h.depth, Nat.add_sub_cancel, get_mid anc inner lv _ hsh.1, set_mid anc inner lv _ _ hsh.1]
  have hgoal : ∀ b : Bool, b = false → ∃ s₂, leaveSection cfg false false (setSections
      { current := s.info.sections.current, levels := anc ++ lv.next :: inner,
        depth := c.path.length + 1, leaf := s.info.sections.leaf } s) = .ok s₂ ∧ At s₂ R c ∧
      s₂.info.locations = s.info.locations ∧ s₂.info.captures = s.info.captures ∧
      s₂.info.sections.levels = anc ++ lv.next :: inner ∧
      s₂.info.sections.leaf = s.info.sections.leaf := by
    intro _ _
    refine ⟨_, rfl, ?_, rfl, rfl, rfl, rfl⟩
    exact { core := h.core, cur := h.cur, ids := h.ids, caps := h.caps, last := h.last, room := h.room,
            held := h.held, inCheck := h.inCheck, unhandled := h.unhandled, depth := rfl }
  cases hl : s.info.sections.leaf with
  | true =>
    simp only [if_true]
    rw [hl] at hgoal
    exact ⟨_, rfl, hgoal false rfl⟩
  | false =>
    rw [hl] at hgoal
    have hw' := hw.resolve_left (by simp [hl])
    simp only [Bool.false_eq_true, if_false, hlen, hw', Bool.not_false, if_true]
    exact ⟨_, rfl, hgoal false rfl⟩

/-- Meeting a section that is entered. -/
theorem entered {cfg : Cfg} (hv : cfg.verbosity = 3) {s : TS} {R : Rep} {c : Ctx} (h : At s R c)
    {anc inner : List Level} {lv : Level}
    (hsh : Shape c.path.length s.info.sections.levels anc lv inner)
    (hd : s.info.locations.length < cfg.maxNested + 1) (id loc : Nat) (hl : s.info.sections.leaf = false)
    (hw : wanted lv.next (c.path.length + 1) (c.path.length + 1 + inner.length) = true) :
    ∃ s₁, enterSection cfg false id loc s = .ok (s₁, true) ∧
      At s₁ (R.add (.enter id (decide (lv.cur = lv.prev)))) (Ctx.inSection c id loc) ∧
      s₁.info.locations = s.info.locations ++ [(loc, .sectionScope)] ∧
      s₁.info.captures = s.info.captures ∧
      s₁.info.sections.levels = anc ++ { lv.next with prev := lv.cur + 1 } :: inner ∧
      s₁.info.sections.leaf = false := by
  have hr := h.room
  have hd' : c.path.length < cfg.maxNested := by omega
  have hlen : (anc ++ lv.next :: inner).length = c.path.length + 1 + inner.length := by
    simp [hsh.1]; omega
  have hcl : s.info.sections.current.length = c.path.length := by
    rw [h.cur, ← h.ids]; simp
  unfold enterSection
  rw [arrive_none cfg h.held]
  simp only [ensureLevel_ok h.depth hsh hd', Outcome.bind_ok]
  unfold enterLevel
  simp only [h.depth, Nat.add_sub_cancel, get_mid anc inner lv _ hsh.1, set_mid anc inner lv _ _ hsh.1]
  simp only [hl, Bool.false_eq_true, if_false, hlen, hw, Bool.not_true]
  unfold startSection
  have : ¬ (s.info.sections.current.length ≥ cfg.maxNested) := by omega
  simp only [this, if_false, Nat.add_sub_cancel, set_mid anc inner lv.next _ _ hsh.1]
  unfold pushLocation
  have hr : s.info.locations.length < cfg.maxNested + 2 := by omega
  simp only [setSections, hr, if_true, Outcome.bind_ok, Outcome.pure_eq]
  have hnext : (lv.next.cur = lv.next.prev + 1) = (lv.cur = lv.prev) := by
    simp [Level.next]
  simp only [hnext]
  by_cases hf : lv.cur = lv.prev
  · simp only [if_pos hf, reportSectionStarted, emit, hv, ge_iff_le, Nat.reduceLeDiff, if_true]
    refine ⟨_, rfl, ?_, rfl, rfl, rfl, rfl⟩
    constructor
    · simp [core, Rep.add, hf, ← h.core, Core.step]
    · simp [Rep.add, h.cur]
    · simp [Rep.add, Ctx.inSection, h.ids]
    · exact h.caps
    · simp only [getLastD_append_singleton]; rfl
    · simp only [Ctx.inSection, List.length_append, List.length_cons, List.length_nil]; omega
    · exact h.held
    · exact h.inCheck
    · exact h.unhandled
    · simp [Ctx.inSection]
  · simp only [if_neg hf]
    refine ⟨_, rfl, ?_, rfl, rfl, rfl, rfl⟩
    constructor
    · simp only [Rep.add, hf, decide_false, Bool.false_eq_true, if_false]; exact h.core
    · simp [Rep.add, h.cur]
    · simp [Rep.add, Ctx.inSection, h.ids]
    · exact h.caps
    · simp only [getLastD_append_singleton]; rfl
    · simp only [Ctx.inSection, List.length_append, List.length_cons, List.length_nil]; omega
    · exact h.held
    · exact h.inCheck
    · exact h.unhandled
    · simp [Ctx.inSection]

theorem finishLevel_current (x : SecState) : (finishLevel x).1.current = x.current ∧
    (finishLevel x).1.depth = x.depth := by
  unfold finishLevel
  split
  · exact ⟨rfl, rfl⟩
  · split <;> exact ⟨rfl, rfl⟩

/-- Leaving a section normally. -/
theorem leave_normal {cfg : Cfg} (hv : cfg.verbosity = 3) {s : TS} {R : Rep} {c : Ctx}
    {id loc : Nat} (h : At s R (Ctx.inSection c id loc)) {lo : List (Nat × LocType)}
    {x : Nat × LocType} (hl : s.info.locations = lo ++ [x]) (hlo : c.path.length + 1 ≤ lo.length)
    (hlast : lo.getLastD (0, .exact) = (c.loc, c.locType)) :
    ∃ s', leaveSection cfg true false s = .ok s' ∧
      At s' (R.add (.leave id (finishLevel s.info.sections).2)) c ∧ s'.info.locations = lo ∧
      s'.info.captures = s.info.captures ∧
      s'.info.sections.levels = (finishLevel s.info.sections).1.levels ∧
      s'.info.sections.leaf = (finishLevel s.info.sections).1.leaf := by
  obtain ⟨hfc, hfd⟩ := finishLevel_current s.info.sections
  have hne : R.opened ≠ [] := by
    intro hn
    have := h.ids
    rw [hn] at this
    simp [Ctx.inSection] at this
  obtain ⟨init, back, hback⟩ : ∃ init back, R.opened = init ++ [back] :=
    ⟨R.opened.dropLast, R.opened.getLast hne, (List.dropLast_concat_getLast hne).symm⟩
  have hids : init.map (·.id) = c.path := by
    have := h.ids
    rw [hback] at this
    simp only [List.map_append, List.map_cons, List.map_nil, Ctx.inSection] at this
    exact (List.append_inj' this rfl).1
  have hdep : s.info.sections.depth = c.path.length + 1 := by
    rw [h.depth]; simp [Ctx.inSection]
  have hgl : (init ++ [back]).getLast? = some back := by simp
  have hpop : popLocation s = .ok { s with info := { s.info with locations := lo } } := by
    unfold popLocation
    simp [hl]
  have hhold : hold false s = s := rfl
  unfold leaveSection leaveEntered
  simp only [if_true, hhold, hpop, Outcome.bind_ok, hfc, h.cur, hback, hgl, Bool.not_false,
    Bool.and_true]
  cases hfin : (finishLevel s.info.sections).2 with
  | true =>
    simp only [if_true, Outcome.bind_ok, Outcome.pure_eq, reportSectionEnded, emit, hv, ge_iff_le,
      Nat.reduceLeDiff]
    refine ⟨_, rfl, ?_, rfl, rfl, rfl, rfl⟩
    constructor
    · simp only [decDepth, setSections, core, Rep.add, hback, hgl, ← h.core, Core.step]
      rfl
    · simp [decDepth, setSections, hfc, Rep.add, hback, h.cur]
    · simp only [Rep.add, hback, List.dropLast_concat]; exact hids
    · exact h.caps
    · exact hlast
    · exact hlo
    · exact h.held
    · exact h.inCheck
    · exact h.unhandled
    · simp only [decDepth, setSections, hfd, hdep, Nat.add_sub_cancel]
  | false =>
    simp only [Bool.false_eq_true, if_false, Outcome.bind_ok, Outcome.pure_eq]
    refine ⟨_, rfl, ?_, rfl, rfl, rfl, rfl⟩
    constructor
    · exact h.core
    · simp [decDepth, setSections, hfc, Rep.add, hback, h.cur]
    · simp only [Rep.add, hback, List.dropLast_concat]; exact hids
    · exact h.caps
    · exact hlast
    · exact hlo
    · exact h.held
    · exact h.inCheck
    · exact h.unhandled
    · simp only [decDepth, setSections, hfd, hdep, Nat.add_sub_cancel]

theorem hold_true (s : TS) : hold true s = { s with held := some (s.held.getD s.info) } := by
  unfold hold
  cases h : s.held with
  | none => simp
  | some i => cases s; simp_all

/-- Leaving a section by an exception. -/
theorem leave_thrown {cfg : Cfg} {s₀ s₁ s : TS} {R : Rep} {c a : Ctx} {id loc : Nat}
    (h : Thrown s₁ s R (Ctx.inSection c id loc) a) {x : Nat × LocType}
    (hl : s₁.info.locations = s₀.info.locations ++ [x])
    (hc : s₁.info.captures = s₀.info.captures) :
    ∃ s', leaveSection cfg true true s = .ok s' ∧ Thrown s₀ s' R c a := by
  obtain ⟨hfc, hfd⟩ := finishLevel_current s.info.sections
  have hin : (Ctx.inSection c id loc).path.length = c.path.length + 1 := by simp [Ctx.inSection]
  have hlen : R.opened.length = a.path.length := by rw [← h.ids]; simp
  have hdeep := h.deeper
  rw [hin] at hdeep
  have hcur := h.cur
  rw [hin] at hcur
  have hlt : c.path.length < R.opened.length := by omega
  have hcur' : s.info.sections.current = R.opened.take c.path.length ++ [R.opened[c.path.length]] := by
    rw [hcur, List.take_succ_eq_append_getElem hlt]
  unfold leaveSection leaveEntered
  rw [hold_true]
  have hpop : popLocation { s with held := some (s.held.getD s.info) } =
      .ok { s with held := some (s.held.getD s.info),
                   info := { s.info with locations := s₀.info.locations } } := by
    unfold popLocation
    simp [h.locs, hl]
  have hgl : (R.opened.take c.path.length ++ [R.opened[c.path.length]]).getLast? =
    some R.opened[c.path.length] := List.getLast?_concat ..
  simp only [if_true, hpop, Outcome.bind_ok, hfc, hcur', hgl, Bool.not_true, Bool.and_false,
    Bool.false_eq_true, if_false, Outcome.pure_eq]
  refine ⟨_, rfl, ?_⟩
  constructor
  · exact h.core
  · exact h.inCheck
  · exact h.unhandled
  · exact h.caps.trans hc
  · rfl
  · simp only [decDepth, setSections, hfc, hcur', List.dropLast_concat]
  · exact h.ids
  · omega
  · simp only [decDepth, setSections, Option.getD_some]; exact h.hcur
  · simp only [decDepth, setSections, Option.getD_some]; exact h.hcaps
  · simp only [decDepth, setSections, Option.getD_some]; exact h.hlast

/-! ## Captures -/

theorem addCaptures_ok {cfg : Cfg} (caps : List Text) {s : TS} (hh : s.held = none)
    (hc : s.info.captures.length + caps.length ≤ cfg.maxCaptures) :
    addCaptures cfg false caps s =
      .ok { s with info := { s.info with captures := s.info.captures ++ caps } } := by
  induction caps generalizing s with
  | nil => simp [addCaptures]
  | cons x xs ih =>
    simp only [List.length_cons] at hc
    simp only [addCaptures]
    rw [if_neg (by omega), arrive_none cfg hh,
      ih (by exact hh) (by simp only [pushCapture, List.length_append, List.length_cons, List.length_nil]; omega)]
    simp [pushCapture]

theorem popCaptures_normal {s : TS} {a b : List Text} (h : s.info.captures = a ++ b) :
    popCaptures b.length false s = .ok { s with info := { s.info with captures := a } } := by
  unfold popCaptures
  simp [hold, h]

theorem popCaptures_thrown {s : TS} {a b : List Text} (h : s.info.captures = a ++ b) :
    popCaptures b.length true s = .ok { s with
      held := some (s.held.getD s.info), info := { s.info with captures := a } } := by
  unfold popCaptures
  rw [hold_true]
  simp [h]

/-! ## Handlers -/

/-- Code that does not use the framework does not hold on to anything. -/
theorem bare_held [MessageLimit] {cfg : Cfg} {fl : Bool} {K : Prog} (hb : Bare K) {s s' : TS} {r : Res} (hs : s.held = none)
    (h : exec cfg fl K s = .ok (s', r)) : s'.held = none := by
  induction K generalizing fl s s' r with
  | done =>
    simp only [exec, Outcome.ok.injEq, Prod.mk.injEq] at h
    rw [← h.1]; exact hs
  | stmt m k ih =>
    cases m with
    | act a =>
      simp only [exec, execStmt, Outcome.bind_ok] at h
      exact ih hb (s := { s with log := s.log ++ [.user a] }) hs h
    | throw e =>
      simp only [exec, execStmt, Outcome.bind_ok, Outcome.pure_eq, Outcome.ok.injEq,
        Prod.mk.injEq] at h
      rw [← h.1]; exact hs
    | _ => exact absurd hb (by simp [Bare])
  | sec => exact absurd hb (by simp [Bare])
  | capture => exact absurd hb (by simp [Bare])
  | nested => exact absurd hb (by simp [Bare])
  | block b k ihb ihk =>
    simp only [Bare] at hb
    simp only [exec] at h
    obtain ⟨⟨s1, r1⟩, h1, h2⟩ := bind_eq_ok h
    have hs1 := ihb hb.1 hs h1
    cases r1 with
    | normal => exact ihk hb.2 hs1 h2
    | raised e =>
      simp only [Outcome.pure_eq, Outcome.ok.injEq, Prod.mk.injEq] at h2
      rw [← h2.1]; exact hs1
  | tryCatch ty b hd k ihb ihh ihk =>
    simp only [Bare] at hb
    simp only [exec] at h
    obtain ⟨⟨s1, r1⟩, h1, h2⟩ := bind_eq_ok h
    have hs1 := ihb hb.1 hs h1
    cases r1 with
    | normal => exact ihk hb.2.2 hs1 h2
    | raised e =>
      dsimp only at h2
      split at h2
      · obtain ⟨⟨s2, r2⟩, h3, h4⟩ := bind_eq_ok h2
        have hs2 := ihh hb.2.1 hs1 h3
        cases r2 with
        | normal => exact ihk hb.2.2 hs2 h4
        | raised e =>
          simp only [Outcome.pure_eq, Outcome.ok.injEq, Prod.mk.injEq] at h4
          rw [← h4.1]; exact hs2
      · simp only [Outcome.pure_eq, Outcome.ok.injEq, Prod.mk.injEq] at h2
        rw [← h2.1]; exact hs1
  | guard c k ihc ihk =>
    simp only [Bare] at hb
    simp only [exec] at h
    obtain ⟨⟨s1, r1⟩, h1, h2⟩ := bind_eq_ok h
    obtain ⟨⟨s2, r2⟩, h3, h4⟩ := bind_eq_ok h2
    have hs2 := ihc hb.1 (ihk hb.2 hs h1) h3
    cases r2 with
    | normal =>
      simp only [Outcome.pure_eq, Outcome.ok.injEq, Prod.mk.injEq] at h4
      rw [← h4.1]; exact hs2
    | raised e => cases h4

/-- Code that does not use the framework and does not throw just does what it does. -/
theorem bare_calm [MessageLimit] (cfg : Cfg) {K : Prog} (hb : Bare K) (hc : Calm K) : ∃ l : List Nat,
    (∀ fl s, exec cfg fl K s = .ok ({ s with log := s.log ++ l.map Event.user }, .normal)) ∧
    ∀ c w, pass K c w = (l.map Item.act, .normal) := by
  induction K with
  | done => exact ⟨[], fun fl s => by simp [exec], fun c w => rfl⟩
  | stmt m k ih =>
    cases m with
    | act a =>
      obtain ⟨l, h1, h2⟩ := ih hb hc.2
      exact ⟨a :: l, fun fl s => by simp [exec, execStmt, h1], fun c w => by
        simp [pass, passStmt, andThen, h2]⟩
    | throw e => exact absurd hc.1 (by simp [calmStmt])
    | _ => exact absurd hb (by simp [Bare])
  | sec => exact absurd hb (by simp [Bare])
  | capture => exact absurd hb (by simp [Bare])
  | nested => exact absurd hb (by simp [Bare])
  | tryCatch => exact absurd hc (by simp [Calm])
  | block b k ihb ihk =>
    simp only [Bare] at hb
    obtain ⟨l, h1, h2⟩ := ihb hb.1 hc.1
    obtain ⟨l', h1', h2'⟩ := ihk hb.2 hc.2
    refine ⟨l ++ l', fun fl s => by simp [exec, h1, h1'], fun c w => ?_⟩
    cases w with
    | none => simp [pass, andThen, h2, h2']
    | some n =>
      simp only [pass]
      split <;> simp [andThen, h2, h2']
  | guard c k ihc ihk =>
    simp only [Bare] at hb
    obtain ⟨l, h1, h2⟩ := ihk hb.2 hc.2
    obtain ⟨l', h1', h2'⟩ := ihc hb.1 hc.1.1
    exact ⟨l ++ l', fun fl s => by simp [exec, h1, h1'], fun c w => by simp [pass, anyway, h2, h2']⟩

/-- A handler that notifies the framework starts by forgetting what was held. -/
theorem notifies_unhold [MessageLimit] {cfg : Cfg} {K : Prog} (hn : Notifies K) {s : TS}
    (h : ∀ i, s.held = some i → i.sections.current.length ≤ s.info.sections.current.length) :
    exec cfg false K s = exec cfg false K (unhold s) := by
  induction K generalizing s with
  | done => exact absurd hn (by simp [Notifies])
  | sec => exact absurd hn (by simp [Notifies])
  | tryCatch => exact absurd hn (by simp [Notifies])
  | stmt m k ih =>
    obtain ⟨n1, n2⟩ := notify_unhold cfg h
    have hce : ∀ loc, checkEnter cfg false loc s = checkEnter cfg false loc (unhold s) := by
      intro loc
      simp only [checkEnter, arrive, n1, n2]
    rcases m.kinds with ⟨a, rfl⟩ | ⟨e, rfl⟩ | rfl | ⟨loc, abort, msg, rfl⟩ | ⟨loc, a, ev, hm⟩
    · simp only [exec, execStmt, Outcome.bind_ok]
      exact ih hn (s := { s with log := s.log ++ [.user a] }) h
    · exact absurd hn (by simp [Notifies])
    · simp only [exec, execStmt, n1, n2]
    · simp only [exec, execStmt, hce]
    · simp only [exec, execStmt_asks hm, hce]
  | nested loc o ask k =>
    obtain ⟨n1, n2⟩ := notify_unhold cfg h
    have : checkEnter cfg false loc s = checkEnter cfg false loc (unhold s) := by
      simp only [checkEnter, arrive, n1, n2]
    simp only [exec, this]
  | capture caps k ih =>
    obtain ⟨n1, n2⟩ := notify_unhold cfg h
    cases caps with
    | nil => exact absurd hn (by simp [Notifies])
    | cons x xs =>
      have : addCaptures cfg false (x :: xs) s = addCaptures cfg false (x :: xs) (unhold s) := by
        simp only [addCaptures, arrive, n1, n2]
        rfl
      simp only [exec, this]
  | block b k ihb ihk =>
    simp only [exec]
    rw [ihb hn h]
  | guard c k ihc ihk =>
    simp only [exec]
    rw [ihk hn h]

end Verif.Run
