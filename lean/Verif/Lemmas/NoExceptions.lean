import Verif.Lemmas.Grows
import Verif.Spec.NoExceptions
/-!
# The build without exceptions does what the normal build does

`exec_sim` compares the execution of a test body in the two builds.
-/
namespace Verif.NoExc
open Verif.Run Verif.NoExc.Spec

/-- The state with the events as they are told without exceptions. -/
def pl (s : TS) : TS := { s with log := s.log.map exactly }

/-- No exception has been seen. -/
def Ok (s : TS) : Prop := s.held = none ∧ s.unhandled = false

theorem emit_pl (cfg : Cfg) (lvl : Nat) (e e' : Event) (s : TS) (h : exactly e = e') :
    emit cfg lvl e' (pl s) = pl (emit cfg lvl e s) := by
  subst h
  unfold emit pl
  split <;> simp

theorem setState_pl (n : CaseState) (s : TS) : setState n (pl s) = pl (setState n s) := by
  unfold setState pl
  dsimp only
  split <;> rfl

theorem setState_ok (n : CaseState) {s : TS} (h : Ok s) : Ok (setState n s) := by
  unfold setState
  split
  · exact h
  · exact h

theorem emit_ok (cfg : Cfg) (lvl : Nat) (e : Event) {s : TS} (h : Ok s) : Ok (emit cfg lvl e s) := by
  unfold emit
  split
  · exact h
  · exact h

theorem registerAssertion_pl (ok : Bool) {s : TS} (h : Ok s) :
    registerAssertion ok (pl s) = pl (Run.registerAssertion ok s) ∧ Ok (Run.registerAssertion ok s) := by
  unfold registerAssertion Run.registerAssertion
  have hm : (pl s).mayFail = s.mayFail := rfl
  have hsf : (pl s).shouldFail = s.shouldFail := rfl
  dsimp only
  rw [hm, hsf]
  have hn : ∀ f : Info → Info, s.held.map f = none := fun f => by rw [h.1]; rfl
  have e : ∀ (a f g : Nat) (i : Info), Ok { s with asserts := a, failures := f, allowed := g, info := i, held := none } :=
    fun a f g i => ⟨rfl, h.2⟩
  simp only [hn]
  have hp : pl s = { pl s with held := none } := by
    have : (pl s).held = none := h.1
    rw [← this]
  split
  · refine ⟨?_, e ..⟩
    rw [hp]; rfl
  · split
    · refine ⟨?_, setState_ok _ (e ..)⟩
      rw [← setState_pl, hp]; rfl
    · refine ⟨?_, setState_ok _ (e ..)⟩
      rw [← setState_pl, hp]; rfl

theorem exactly_ctx {s : TS} (h : Ok s) :
    { Run.assertionCtx false s with locType := .exact } = assertionCtx (pl s) := by
  unfold Run.assertionCtx assertionCtx
  simp [h.2, pl]

theorem reportAssertion_pl (cfg : Cfg) (ok : Bool) (data : Text) {s : TS} (h : Ok s) :
    reportAssertion cfg ok data (pl s) = pl (Run.reportAssertion cfg false ok data s) ∧
      Ok (Run.reportAssertion cfg false ok data s) := by
  unfold reportAssertion Run.reportAssertion
  have hst : (pl s).state = s.state := rfl
  rw [hst]
  split
  · exact ⟨rfl, h⟩
  · obtain ⟨h1, h2⟩ := registerAssertion_pl ok h
    dsimp only
    rw [h1]
    split
    · exact ⟨emit_pl _ _ _ _ _ (by rw [← exactly_ctx h2]; rfl), emit_ok _ _ _ h2⟩
    · exact ⟨emit_pl _ _ _ _ _ (by rw [← exactly_ctx h2]; rfl), emit_ok _ _ _ h2⟩

theorem reportSkipped_pl (cfg : Cfg) (msg : Text) {s : TS} (h : Ok s) :
    reportSkipped cfg msg (pl s) = pl (reportSkipped cfg msg s) ∧ Ok (reportSkipped cfg msg s) := by
  unfold reportSkipped
  dsimp only
  rw [setState_pl]
  exact ⟨emit_pl _ _ _ _ _ rfl, emit_ok _ _ _ (setState_ok _ h)⟩

theorem arrive_ok (cfg : Cfg) {s : TS} (h : Ok s) : arrive cfg false s = s := by
  change notify cfg s = s
  unfold notify
  rw [h.1]

theorem hold_false (s : TS) : hold false s = s := rfl

theorem pushLocation_pl (cfg : Cfg) (l : Nat × LocType) (s : TS) :
    pushLocation cfg l (pl s) = omap pl (pushLocation cfg l s) := by
  unfold pushLocation pl
  dsimp only
  split <;> rfl

theorem pushLocation_ok {cfg : Cfg} {l : Nat × LocType} {s t : TS} (h : Ok s) (ht : pushLocation cfg l s = .ok t) :
    Ok t := by
  unfold pushLocation at ht
  split at ht
  · cases ht; exact h
  · cases ht

theorem popLocation_pl (s : TS) : popLocation (pl s) = omap pl (popLocation s) := by
  unfold popLocation pl
  dsimp only
  split <;> rfl

theorem popLocation_ok {s t : TS} (h : Ok s) (ht : popLocation s = .ok t) : Ok t := by
  unfold popLocation at ht
  split at ht
  · cases ht
  · cases ht; exact h

theorem checkEnter_pl (cfg : Cfg) (loc : Nat) {s : TS} (h : Ok s) :
    checkEnter cfg loc (pl s) = omap pl (Run.checkEnter cfg false loc s) := by
  unfold checkEnter Run.checkEnter
  rw [arrive_ok cfg h, pushLocation_pl, bind_omap, omap_bind]
  rfl

theorem checkEnter_ok' {cfg : Cfg} {loc : Nat} {s t : TS} (h : Ok s) (ht : Run.checkEnter cfg false loc s = .ok t) :
    Ok t := by
  unfold Run.checkEnter at ht
  rw [arrive_ok cfg h] at ht
  obtain ⟨u, hu, ht⟩ := bind_eq_ok ht
  cases ht
  have := pushLocation_ok h hu
  exact this

/-- How the two builds compare after some code. -/
def Sim (x : Outcome (TS × Stop)) (y : Outcome (TS × Res)) : Prop :=
  match x with
  | .ok (t, .finished) => ∃ s, y = .ok (s, .normal) ∧ t = pl s ∧ Ok s
  | .ok (t, .terminated) => (LastWords t.log ∨ t.state = .skipped) ∧
      ∀ z, y = .ok z → z.2 = .raised abortExn ∧ t.log <+: z.1.log.map exactly
  | .abort => y = .abort
  | .ub => y = .ub

/-- The same for what does not end the program. -/
def SimU (x : Outcome TS) (y : Outcome TS) : Prop :=
  match x with
  | .ok t => ∃ s, y = .ok s ∧ t = pl s ∧ Ok s
  | .abort => y = .abort
  | .ub => y = .ub

theorem simU_of {x y : Outcome TS} (h : x = omap pl y) (ho : ∀ t, y = .ok t → Ok t) : SimU x y := by
  subst h
  cases y with
  | ok t => exact ⟨t, rfl, rfl, ho t rfl⟩
  | abort => rfl
  | ub => rfl

/-- Sequencing after code that does not end the program. -/
theorem SimU.bind {x y : Outcome TS} {f : TS → Outcome (TS × Stop)} {g : TS → Outcome (TS × Res)}
    (h : SimU x y) (hf : ∀ s, Ok s → Sim (f (pl s)) (g s)) : Sim (x >>= f) (y >>= g) := by
  cases x with
  | ok t =>
    obtain ⟨s, hy, ht, ho⟩ := h
    subst hy; subst ht
    exact hf s ho
  | abort => cases h; rfl
  | ub => cases h; rfl

/-- Sequencing: what follows when the code goes on (`f`, `g`), and what the normal build does on the way out when an
exception goes through (`g`, which then only adds events). -/
theorem Sim.bind {x : Outcome (TS × Stop)} {y : Outcome (TS × Res)} {f : TS × Stop → Outcome (TS × Stop)}
    {g : TS × Res → Outcome (TS × Res)} (h : Sim x y)
    (hfin : ∀ s, Ok s → Sim (f (pl s, .finished)) (g (s, .normal)))
    (hter : ∀ t, f (t, .terminated) = .ok (t, .terminated))
    (hout : ∀ s z, g (s, .raised abortExn) = .ok z → z.2 = .raised abortExn ∧ Grows s z.1) :
    Sim (x >>= f) (y >>= g) := by
  cases x with
  | ok p =>
    obtain ⟨t, r⟩ := p
    cases r with
    | finished =>
      obtain ⟨s, hy, ht, ho⟩ := h
      subst hy; subst ht
      exact hfin s ho
    | terminated =>
      obtain ⟨hl, h⟩ := h
      rw [Outcome.bind_ok, hter]
      refine ⟨hl, fun z hz => ?_⟩
      obtain ⟨⟨s, r⟩, hy, hz⟩ := bind_eq_ok hz
      obtain ⟨h1, h2⟩ := h _ hy
      dsimp only at h1 h2
      subst h1
      obtain ⟨h3, h4⟩ := hout s z hz
      exact ⟨h3, h2.trans (List.IsPrefix.map _ h4)⟩
  | abort => cases h; rfl
  | ub => cases h; rfl

theorem endCheck_sim (s : TS) (h : Ok s) : Sim (endCheck .finished (pl s)) (Run.endCheck false .normal s) := by
  unfold endCheck Run.endCheck
  refine SimU.bind (simU_of ?_ ?_) fun s hs => ?_
  · unfold checkLeave Run.checkLeave
    exact popLocation_pl { s with inCheck := false }
  · intro t ht
    exact popLocation_ok (s := { s with inCheck := false }) h ht
  · exact ⟨s, rfl, rfl, hs⟩

theorem endCheck_term {t : TS} {s : TS} (hl : LastWords t.log ∨ t.state = .skipped) (h : t = pl s) :
    Sim (endCheck .terminated t) (Run.endCheck false (.raised abortExn) s) := by
  refine ⟨hl, fun z hz => ?_⟩
  obtain ⟨h1, h2⟩ := grows_endCheck hz
  subst h
  exact ⟨h2, List.IsPrefix.map _ h1⟩

theorem reportAssertion_last (cfg : Cfg) (data : Text) (s : TS) :
    LastWords (reportAssertion cfg false data s).log ∨ (reportAssertion cfg false data s).state = .skipped := by
  unfold reportAssertion
  split
  · rename_i h; exact .inr h
  · left
    exact .inl ⟨_, _, _, _, _, rfl⟩

theorem reportSkipped_last (cfg : Cfg) (msg : Text) (s : TS) : LastWords (reportSkipped cfg msg s).log :=
  .inr ⟨_, _, _, rfl⟩

theorem answer_sim [MessageLimit] (cfg : Cfg) (ok abort : Bool) (data : Text) (s : TS) (h : Ok s) :
    Sim (answer cfg ok abort data (pl s)) (Run.answer cfg false (.check ok abort data) none s) := by
  unfold answer Run.answer
  dsimp only
  obtain ⟨h1, h2⟩ := reportAssertion_pl cfg ok data h
  cases ok with
  | true =>
    rw [h1]
    exact endCheck_sim _ h2
  | false =>
    cases abort with
    | false => rw [h1]; exact endCheck_sim _ h2
    | true => exact endCheck_term (reportAssertion_last cfg data _) h1

theorem execStmt_sim [MessageLimit] (cfg : Cfg) (m : Stmt) (hm : WritableStmt m) (s : TS) (h : Ok s) :
    Sim (execStmt cfg m (pl s)) (Run.execStmt cfg false m s) := by
  have enter : ∀ loc, SimU (checkEnter cfg loc (pl s)) (Run.checkEnter cfg false loc s) :=
    fun loc => simU_of (checkEnter_pl cfg loc h) fun t ht => checkEnter_ok' h ht
  cases m with
  | act a => exact ⟨_, rfl, by simp [pl, exactly], h⟩
  | check loc ev abort data =>
    cases ev with
    | val ok => exact (enter loc).bind fun s hs => answer_sim cfg ok abort data s hs
    | exc e => exact hm.elim
  | skip loc abort msg =>
    refine (enter loc).bind fun s hs => ?_
    obtain ⟨h1, h2⟩ := reportSkipped_pl cfg msg hs
    cases abort with
    | false => rw [h1]; exact endCheck_sim _ h2
    | true =>
      exact endCheck_term (.inl (reportSkipped_last cfg msg _)) h1
  | throw | notify | throwsAs | throwsMatches | nothrow => exact hm.elim

/-- The same for entering a section. -/
def SimS (x : Outcome (TS × Bool)) (y : Outcome (TS × Bool)) : Prop :=
  match x with
  | .ok (t, e) => ∃ s, y = .ok (s, e) ∧ t = pl s ∧ Ok s
  | .abort => y = .abort
  | .ub => y = .ub

theorem startSection_sim (cfg : Cfg) (id loc : Nat) (level : Level) (x : SecState) (s : TS) (h : Ok s) :
    SimS (startSection cfg id loc level x (pl s)) (startSection cfg id loc level x s) := by
  unfold startSection
  split
  · rfl
  · have e : ∀ y, setSections y (pl s) = pl (setSections y s) := fun y => rfl
    rw [e, pushLocation_pl, bind_omap]
    cases hp : pushLocation cfg (loc, .sectionScope) (setSections { x with
      levels := x.levels.set (x.depth - 1) { level with prev := level.cur }
      current := x.current ++ [{ id := id }] } s) with
    | abort => rfl
    | ub => rfl
    | ok t =>
      have ho : Ok t := pushLocation_ok (s := setSections { x with
        levels := x.levels.set (x.depth - 1) { level with prev := level.cur }
        current := x.current ++ [{ id := id }] } s) h hp
      simp only [Outcome.bind_ok]
      split
      · exact ⟨_, rfl, emit_pl _ _ _ _ _ rfl, emit_ok _ _ _ ho⟩
      · exact ⟨_, rfl, rfl, ho⟩

theorem enterSection_sim (cfg : Cfg) (id loc : Nat) (s : TS) (h : Ok s) :
    SimS (enterSection cfg id loc (pl s)) (Run.enterSection cfg false id loc s) := by
  unfold enterSection Run.enterSection
  rw [arrive_ok cfg h]
  have e : (pl s).info = s.info := rfl
  dsimp only
  rw [e]
  cases ensureLevel cfg s.info.sections with
  | abort => rfl
  | ub => rfl
  | ok x =>
    simp only [Outcome.bind_ok]
    unfold enterLevel
    dsimp only
    split
    · rfl
    · split
      · exact ⟨_, rfl, rfl, h⟩
      · split
        · exact ⟨_, rfl, rfl, h⟩
        · exact startSection_sim cfg id loc _ _ s h

theorem leaveSection_sim (cfg : Cfg) (e : Bool) (s : TS) (h : Ok s) :
    SimU (leaveSection cfg e (pl s)) (Run.leaveSection cfg e false s) := by
  unfold leaveSection Run.leaveSection
  split
  · unfold leaveEntered Run.leaveEntered
    rw [hold_false, popLocation_pl, bind_omap]
    cases hp : popLocation s with
    | abort => rfl
    | ub => rfl
    | ok t =>
      have ho : Ok t := popLocation_ok h hp
      simp only [Outcome.bind_ok]
      have e : (pl t).info = t.info := rfl
      have e2 : ∀ y, setSections y (pl t) = pl (setSections y t) := fun y => rfl
      rw [e]
      cases hl : (finishLevel t.info.sections).1.current.getLast? with
      | none => rfl
      | some back =>
        simp only [Bool.not_false, Bool.and_true]
        rw [e2]
        have e3 : ∀ y u, setSections y (pl u) = pl (setSections y u) := fun y u => rfl
        have e4 : ∀ u, (pl u).info = u.info := fun u => rfl
        have e5 : ∀ u, reportSectionEnded cfg back (pl u) = pl (reportSectionEnded cfg back u) :=
          fun u => emit_pl _ _ _ _ _ rfl
        split
        · rw [e5]
          refine ⟨_, rfl, rfl, ?_⟩
          exact emit_ok (s := setSections _ t) _ _ _ ho
        · exact ⟨_, rfl, rfl, ho⟩
  · exact ⟨_, rfl, rfl, h⟩

theorem addCaptures_sim (cfg : Cfg) (caps : List Text) (s : TS) (h : Ok s) :
    SimU (addCaptures cfg caps (pl s)) (Run.addCaptures cfg false caps s) := by
  induction caps generalizing s with
  | nil => exact ⟨_, rfl, rfl, h⟩
  | cons c cs ih =>
    unfold addCaptures Run.addCaptures
    have e : (pl s).info = s.info := rfl
    rw [e, arrive_ok cfg h]
    split
    · rfl
    · exact ih (pushCapture c s) h

theorem popCaptures_sim (n : Nat) (s : TS) (h : Ok s) : SimU (popCaptures n (pl s)) (Run.popCaptures n false s) := by
  unfold popCaptures Run.popCaptures
  rw [hold_false]
  have e : (pl s).info = s.info := rfl
  rw [e]
  dsimp only
  split
  · exact ⟨_, rfl, rfl, h⟩
  · rfl

/-- Executing a test body in the two builds. -/
theorem exec_sim [MessageLimit] (cfg : Cfg) (K : Prog) (hK : Writable K) (s : TS) (h : Ok s) :
    Sim (exec cfg K (pl s)) (Run.exec cfg false K s) := by
  induction K generalizing s with
  | done => exact ⟨_, rfl, rfl, h⟩
  | stmt m k ih =>
    unfold exec Run.exec
    refine (execStmt_sim cfg m hK.1 s h).bind (fun s hs => ih hK.2 s hs) (fun t => rfl) fun s z hz => ?_
    cases hz; exact ⟨rfl, Grows.refl _⟩
  | sec id loc b k ihb ihk =>
    unfold exec Run.exec
    have hs := enterSection_sim cfg id loc s h
    cases he : enterSection cfg id loc (pl s) with
    | abort => rw [he] at hs; rw [show Run.enterSection cfg false id loc s = .abort from hs]; rfl
    | ub => rw [he] at hs; rw [show Run.enterSection cfg false id loc s = .ub from hs]; rfl
    | ok p =>
      obtain ⟨t, en⟩ := p
      rw [he] at hs
      obtain ⟨u, hu, ht, ho⟩ := hs
      subst ht
      rw [hu]
      simp only [Outcome.bind_ok]
      cases en with
      | false =>
        simp only [Bool.false_eq_true, if_false]
        exact (leaveSection_sim cfg false u ho).bind fun s hs => ihk hK.2 s hs
      | true =>
        simp only [if_true]
        refine (ihb hK.1 u ho).bind (fun s hs => ?_) (fun t => rfl) fun s z hz => ?_
        · exact (leaveSection_sim cfg true s hs).bind fun s hs => ihk hK.2 s hs
        · obtain ⟨w, hw, hz⟩ := bind_eq_ok hz
          cases hz
          exact ⟨rfl, grows_leaveSection hw⟩
  | capture caps k ih =>
    unfold exec Run.exec
    refine (addCaptures_sim cfg caps s h).bind fun s hs => ?_
    refine (ih hK s hs).bind (fun s hs => ?_) (fun t => rfl) fun s z hz => ?_
    · exact (popCaptures_sim caps.length s hs).bind fun s hs => ⟨s, rfl, rfl, hs⟩
    · obtain ⟨w, hw, hz⟩ := bind_eq_ok hz
      cases hz
      exact ⟨rfl, grows_popCaptures hw⟩
  | block b k ihb ihk =>
    unfold exec Run.exec
    refine (ihb hK.1 s h).bind (fun s hs => ihk hK.2 s hs) (fun t => rfl) fun s z hz => ?_
    cases hz; exact ⟨rfl, Grows.refl _⟩
  | tryCatch => exact hK.elim
  | nested loc o a k iho ihk =>
    cases a with
    | check ok abort data =>
      unfold exec Run.exec
      refine (simU_of (checkEnter_pl cfg loc h) fun t ht => checkEnter_ok' h ht).bind fun s hs => ?_
      refine (iho hK.2.1 s hs).bind (fun s hs => ?_) (fun t => rfl) fun s z hz => ?_
      · refine (answer_sim cfg ok abort data s hs).bind (fun s hs => ihk hK.2.2 s hs) (fun t => rfl) fun s z hz => ?_
        cases hz; exact ⟨rfl, Grows.refl _⟩
      · obtain ⟨⟨w, r⟩, hw, hz⟩ := bind_eq_ok hz
        have hr := (grows_endCheck (fl := false) (r := .raised abortExn) (s := s) hw)
        dsimp only at hr
        rw [hr.2] at hz
        cases hz
        exact ⟨rfl, hr.1⟩
    | throwsAs | throwsMatches | nothrow => exact hK.1.elim
  | guard c k ihc ihk =>
    unfold exec Run.exec
    refine (ihk hK.2 s h).bind (fun s hs => ?_) (fun t => rfl) fun s z hz => ?_
    · dsimp only
      have e : (false || decide (Res.normal ≠ Res.normal)) = false := rfl
      rw [e]
      have hc := ihc hK.1 s hs
      cases he : exec cfg c (pl s) with
      | abort => rw [he] at hc; rw [show Run.exec cfg false c s = .abort from hc]; rfl
      | ub => rw [he] at hc; rw [show Run.exec cfg false c s = .ub from hc]; rfl
      | ok p =>
        obtain ⟨t, r⟩ := p
        rw [he] at hc
        cases r with
        | finished =>
          obtain ⟨u, hu, ht, ho⟩ := hc
          rw [hu]
          exact ⟨u, rfl, ht, ho⟩
        | terminated =>
          refine ⟨hc.1, fun z hz => ?_⟩
          obtain ⟨⟨w, r⟩, hw, hz⟩ := bind_eq_ok hz
          have := (hc.2 (w, r) hw).1
          dsimp only at this
          subst this
          cases hz
    · obtain ⟨⟨w, r⟩, hw, hz⟩ := bind_eq_ok hz
      cases r with
      | normal => cases hz; exact ⟨rfl, grows_exec (x := (w, .normal)) hw⟩
      | raised e => cases hz

theorem clearFinished_pl (s : TS) : clearFinished (pl s) = pl (clearFinished s) := by
  unfold clearFinished
  have e : (pl s).info = s.info := rfl
  rw [e]
  split
  · split <;> rfl
  · rfl

theorem clearFinished_ok {s : TS} (h : Ok s) : Ok (clearFinished s) := by
  unfold clearFinished
  split
  · split
    · exact h
    · exact h
  · exact h

/-- The loop over the passes in the two builds. -/
theorem runLoop_sim [MessageLimit] (cfg : Cfg) (bodies : Nat → Prog) (hK : ∀ n, Writable (bodies n)) (fuel no : Nat) (s : TS) (h : Ok s) :
    match runLoop cfg bodies fuel no (pl s) with
    | none => Run.runLoop cfg bodies fuel no s = none
    | some x => ∃ y, Run.runLoop cfg bodies fuel no s = some y ∧ Sim x y := by
  induction fuel generalizing no s with
  | zero => rfl
  | succ n ih =>
    unfold runLoop Run.runLoop
    have hx := exec_sim cfg (bodies no) (hK no) (resetPass s) h
    have e : resetPass (pl s) = pl (resetPass s) := rfl
    rw [e]
    cases he : exec cfg (bodies no) (pl (resetPass s)) with
    | abort => rw [he] at hx; rw [show Run.exec cfg false (bodies no) (resetPass s) = .abort from hx]; exact ⟨_, rfl, rfl⟩
    | ub => rw [he] at hx; rw [show Run.exec cfg false (bodies no) (resetPass s) = .ub from hx]; exact ⟨_, rfl, rfl⟩
    | ok p =>
      obtain ⟨t, r⟩ := p
      rw [he] at hx
      cases r with
      | terminated =>
        dsimp only
        cases hy : Run.exec cfg false (bodies no) (resetPass s) with
        | abort => exact ⟨_, rfl, hx.1, fun z hz => by cases hz⟩
        | ub => exact ⟨_, rfl, hx.1, fun z hz => by cases hz⟩
        | ok q =>
          obtain ⟨u, r⟩ := q
          have h1 := (hx.2 _ hy).1
          have h2 := (hx.2 _ hy).2
          dsimp only at h1 h2
          subst h1
          refine ⟨_, rfl, hx.1, fun z hz => ?_⟩
          cases hz
          exact ⟨rfl, h2⟩
      | finished =>
        obtain ⟨u, hu, ht, ho⟩ := hx
        subst ht
        rw [hu]
        dsimp only
        rw [clearFinished_pl]
        have e1 : (pl (clearFinished u)).info = (clearFinished u).info := rfl
        have e2 : (pl (clearFinished u)).state = (clearFinished u).state := rfl
        rw [e1, e2]
        by_cases hc : (!(clearFinished u).info.sections.levels.isEmpty && decide ((clearFinished u).state ≠ .skipped)) = true
        · rw [if_pos hc, if_pos hc]
          exact ih _ _ (clearFinished_ok ho)
        · rw [if_neg hc, if_neg hc]
          exact ⟨_, rfl, _, rfl, rfl, clearFinished_ok ho⟩

theorem checkShouldFail_pl (cfg : Cfg) {s : TS} (h : Ok s) :
    checkShouldFail cfg (pl s) = pl (Run.checkShouldFail cfg s) ∧ Ok (Run.checkShouldFail cfg s) := by
  unfold checkShouldFail Run.checkShouldFail
  have e : (pl s).shouldFail = s.shouldFail := rfl
  have e2 : (pl s).state = s.state := rfl
  rw [e, e2]
  split
  · obtain ⟨h1, h2⟩ := reportAssertion_pl cfg (decide (s.state = .allowedFail)) "expected test to fail".toList
      (s := setInCheck true (setShouldFail false s)) h
    have e3 : setInCheck true (setShouldFail false (pl s)) = pl (setInCheck true (setShouldFail false s)) := rfl
    rw [e3, h1]
    exact ⟨rfl, h2⟩
  · exact ⟨rfl, h⟩

/-- Two states that differ by one assertion made earlier (its event `N` came after `A`). -/
structure Like (A N : List Event) (k : Nat) (s s' : TS) : Prop where
  state : s'.state = s.state
  failures : s'.failures = s.failures
  allowed : s'.allowed = s.allowed
  asserts : s'.asserts = s.asserts + k
  may : s'.mayFail = s.mayFail
  should : s'.shouldFail = s.shouldFail
  path : s'.info.sections.current.map (·.id) = s.info.sections.current.map (·.id)
  caps : s'.info.captures = s.info.captures
  locs : s'.info.locations = s.info.locations
  log : ∃ B, s.log = A ++ B ∧ s'.log = A ++ N ++ B

theorem count_ids (ok may : Bool) (l : List Section) :
    (l.map (Section.count ok may)).map (·.id) = l.map (·.id) := by
  rw [List.map_map]
  refine List.map_congr_left fun x _ => ?_
  unfold Section.count
  simp only [Function.comp]
  split
  · rfl
  · split <;> rfl

theorem like_setState {A N : List Event} {k : Nat} {s s' : TS} (n : CaseState) (h : Like A N k s s') :
    Like A N k (setState n s) (setState n s') := by
  unfold setState
  rw [h.state]
  split
  · exact ⟨rfl, h.failures, h.allowed, h.asserts, h.may, h.should, h.path, h.caps, h.locs, h.log⟩
  · exact h

theorem like_register {A N : List Event} {k : Nat} {s s' : TS} (ok : Bool) (h : Like A N k s s') :
    Like A N k (Run.registerAssertion ok s) (Run.registerAssertion ok s') := by
  unfold Run.registerAssertion
  dsimp only
  rw [h.may, h.should]
  have hp : ∀ may, ((s'.info.count ok may).sections.current.map (·.id)) =
      (s.info.count ok may).sections.current.map (·.id) := by
    intro may
    simp only [Info.count, count_ids, h.path]
  have ha : s'.asserts + 1 = s.asserts + 1 + k := by rw [h.asserts]; omega
  split
  · exact ⟨h.state, h.failures, h.allowed, ha, rfl, rfl, hp _, h.caps, h.locs, h.log⟩
  · split
    · exact like_setState _ ⟨h.state, h.failures, by simp only [h.allowed], ha, rfl, rfl, hp _, h.caps, h.locs, h.log⟩
    · exact like_setState _ ⟨h.state, by simp only [h.failures], h.allowed, ha, rfl, rfl, hp _, h.caps, h.locs, h.log⟩

theorem like_emit {A N : List Event} {k : Nat} {s s' : TS} (cfg : Cfg) (lvl : Nat) (e : Event)
    (h : Like A N k s s') : Like A N k (emit cfg lvl e s) (emit cfg lvl e s') := by
  unfold emit
  split
  · obtain ⟨B, h1, h2⟩ := h.log
    exact ⟨h.state, h.failures, h.allowed, h.asserts, h.may, h.should, h.path, h.caps, h.locs,
      B ++ [e], by simp [h1], by simp [h2]⟩
  · exact h

theorem like_report {A N : List Event} {k : Nat} {s s' : TS} (cfg : Cfg) (ok : Bool) (data : Text)
    (h : Like A N k s s') (hu : s.unhandled = false) (hu' : s'.unhandled = false) (hc : s.inCheck = true)
    (hc' : s'.inCheck = true) :
    Like A N k (Run.reportAssertion cfg false ok data s) (Run.reportAssertion cfg false ok data s') := by
  unfold Run.reportAssertion
  rw [h.state]
  split
  · exact h
  · have h1 := like_register ok h
    have hf : ∀ t : TS, (Run.registerAssertion ok t).unhandled = t.unhandled ∧
        (Run.registerAssertion ok t).inCheck = t.inCheck := by
      intro t
      unfold Run.registerAssertion
      dsimp only
      split
      · exact ⟨rfl, rfl⟩
      · split <;> (unfold setState; split <;> exact ⟨rfl, rfl⟩)
    have hx : Run.assertionCtx false (Run.registerAssertion ok s') = Run.assertionCtx false (Run.registerAssertion ok s) := by
      unfold Run.assertionCtx
      simp only [(hf s).1, (hf s').1, (hf s).2, (hf s').2, hu, hu', hc, hc', Bool.or_self, Bool.false_eq_true,
        if_false, if_true, h1.path, h1.caps, h1.locs]
    dsimp only
    rw [hx, h1.should, h1.may]
    split
    · exact like_emit cfg _ _ h1
    · exact like_emit cfg _ _ h1

theorem like_should {A N : List Event} {k : Nat} {s s' : TS} (cfg : Cfg) (h : Like A N k s s')
    (hu : s.unhandled = false) (hu' : s'.unhandled = false) :
    Like A N k (Run.checkShouldFail cfg s) (Run.checkShouldFail cfg s') := by
  unfold Run.checkShouldFail
  rw [h.should]
  split
  · rw [h.state]
    have h0 : Like A N k (setInCheck true (setShouldFail false s)) (setInCheck true (setShouldFail false s')) :=
      ⟨h.state, h.failures, h.allowed, h.asserts, h.may, rfl, h.path, h.caps, h.locs, h.log⟩
    have h1 := like_report cfg (decide (s.state = .allowedFail)) "expected test to fail".toList h0 hu hu' rfl rfl
    exact ⟨h1.state, h1.failures, h1.allowed, h1.asserts, h1.may, rfl, h1.path, h1.caps, h1.locs, h1.log⟩
  · exact h

/-- The assertion at the end of a test in the normal build. -/
theorem like_after [MessageLimit] (cfg : Cfg) {s : TS} (h : Ok s) :
    ∃ ctx, Like s.log (implicit cfg s.state ctx) (implicitCount s.state) s (afterLoop cfg s .normal) ∧
      (afterLoop cfg s .normal).unhandled = false := by
  refine ⟨Run.assertionCtx false (Run.registerAssertion true (setInCheck true s)), ?_, rfl⟩
  unfold afterLoop settle reportEnd
  unfold Run.reportAssertion
  have e : (setInCheck true s).state = s.state := rfl
  rw [e]
  unfold implicit implicitCount
  by_cases hs : s.state = .skipped
  · simp only [hs, if_true, ne_eq, not_true_eq_false, and_false, if_false]
    have hu : (setInCheck false (setInCheck true s)).unhandled = false := h.2
    rw [hu]
    exact ⟨rfl, rfl, rfl, rfl, rfl, rfl, rfl, rfl, rfl, [], by simp, by simp [setInCheck, setUnhandled]⟩
  · simp only [hs, if_false, if_true, ne_eq, not_false_eq_true, and_true]
    have hu : (setInCheck false (emit cfg 3 (.assertionSucceeded
        (Run.assertionCtx false (Run.registerAssertion true (setInCheck true s))) "no exception caught".toList)
        (Run.registerAssertion true (setInCheck true s)))).unhandled = false := by
      unfold emit
      split
      · exact h.2
      · exact h.2
    rw [hu]
    simp only [Bool.false_eq_true, if_false]
    unfold emit
    split
    · exact ⟨rfl, rfl, rfl, rfl, rfl, rfl, count_ids _ _ _, rfl, rfl, [], by simp, by simp [setInCheck, setUnhandled, Run.registerAssertion]⟩
    · exact ⟨rfl, rfl, rfl, rfl, rfl, rfl, count_ids _ _ _, rfl, rfl, [], by simp, by simp [setInCheck, setUnhandled, Run.registerAssertion]⟩

theorem implicit_state (cfg : Cfg) {s : TS} :
    (Run.checkShouldFail cfg s).state = .skipped ↔ s.state = .skipped := by
  unfold Run.checkShouldFail
  split
  · unfold Run.reportAssertion
    have e : (setInCheck true (setShouldFail false s)).state = s.state := rfl
    rw [e]
    split
    · exact Iff.rfl
    · rename_i hs
      refine ⟨fun h => ?_, fun h => absurd h hs⟩
      exfalso
      change (if _ then _ else _ : TS).state = .skipped at h
      by_cases ha : s.state = .allowedFail
      · simp only [ha, decide_true, if_true] at h
        unfold emit at h
        split at h
        · change s.state = .skipped at h; exact hs h
        · change s.state = .skipped at h; exact hs h
      · simp only [ha, decide_false, Bool.false_eq_true, if_false, emit, Nat.zero_le, ge_iff_le, if_true] at h
        unfold Run.registerAssertion setState at h
        dsimp only at h
        simp only [Bool.false_eq_true, if_false] at h
        revert h hs
        repeat' split
        all_goals simp_all [setInCheck, setShouldFail]
  · exact Iff.rfl

theorem initState_ok (cfg : Cfg) (t : TestCase) (tags : List Filter.ParsedTag) :
    Ok (initState cfg t tags) ∧ pl (initState cfg t tags) = initState cfg t tags := by
  refine ⟨emit_ok _ _ _ ⟨rfl, rfl⟩, ?_⟩
  unfold initState
  rw [← emit_pl cfg 2 (.caseStarted t.id) (.caseStarted t.id) _ rfl]
  rfl

end Verif.NoExc
