import Verif.Lemmas.Verbosity
/-!
# Every execution is a sequence of primitive reports

Whatever a test body does, the part of the state that matters for accounting changes only by
appending neutral events, by assertions and by skips.
-/
namespace Verif.Run
open Spec

variable {fl : Bool}

/-- The part of the state that matters for accounting. -/
structure Core where
  asserts : Nat
  failures : Nat
  allowed : Nat
  mayFail : Bool
  shouldFail : Bool
  state : CaseState
  log : List Event

def core (s : TS) : Core :=
  ⟨s.asserts, s.failures, s.allowed, s.mayFail, s.shouldFail, s.state, s.log⟩

/-- Events that are not the start or the end of a test case or of a run. -/
def isInner : Event → Bool
  | .caseStarted _ => false
  | .caseEnded .. => false
  | .runStarted => false
  | .runEnded .. => false
  | _ => true

inductive Prim
  | neutral (e : Event) (h : isAssertion e = false ∧ isSkip e = false ∧ isInner e = true)
  | assertion (ok : Bool) (ctx : Ctx) (data : Text)
  | skip (ctx : Ctx) (msg : Text)

def raiseTo (n old : CaseState) : CaseState := if old.toNat < n.toNat then n else old

def Core.step (c : Core) : Prim → Core
  | .neutral e _ => { c with log := c.log ++ [e] }
  | .assertion ok ctx data =>
    if c.state = .skipped then c
    else if ok then
      { c with asserts := c.asserts + 1, log := c.log ++ [.assertionSucceeded ctx data] }
    else if c.mayFail || c.shouldFail then
      { c with
        asserts := c.asserts + 1, allowed := c.allowed + 1, state := raiseTo .allowedFail c.state
        log := c.log ++ [.assertionFailed ctx data c.shouldFail c.mayFail] }
    else
      { c with
        asserts := c.asserts + 1, failures := c.failures + 1, state := raiseTo .failed c.state
        log := c.log ++ [.assertionFailed ctx data c.shouldFail c.mayFail] }
  | .skip ctx msg =>
    { c with state := raiseTo .skipped c.state, log := c.log ++ [.caseSkipped ctx msg] }

def Core.steps (c : Core) (ps : List Prim) : Core := ps.foldl Core.step c

/-- `s'` is reached from `s` by primitive reports. -/
def Reach (s s' : TS) : Prop := ∃ ps, core s' = (core s).steps ps

theorem Reach.refl (s : TS) : Reach s s := ⟨[], rfl⟩

theorem Reach.of_core {s s' : TS} (h : core s' = core s) : Reach s s' := ⟨[], h⟩

theorem Reach.trans {a b c : TS} (h : Reach a b) (h' : Reach b c) : Reach a c := by
  obtain ⟨p, hp⟩ := h
  obtain ⟨q, hq⟩ := h'
  exact ⟨p ++ q, by rw [hq, hp]; simp [Core.steps]⟩

theorem reach_emit (cfg : Cfg) (lvl : Nat) (e : Event) (s : TS) (h3 : lvl ≤ 3)
    (h : isAssertion e = false ∧ isSkip e = false ∧ isInner e = true) : Reach s (emit (full cfg) lvl e s) :=
  ⟨[.neutral e h], by simp [Core.steps, Core.step, core, emit, full, h3]⟩

theorem core_setState (n : CaseState) (s : TS) :
    core (setState n s) = { core s with state := raiseTo n s.state } := by
  unfold setState raiseTo core
  split <;> rfl

theorem core_reportAssertion (cfg : Cfg) (ok : Bool) (data : Text) (s : TS) :
    core (reportAssertion (full cfg) fl ok data s) =
      (core s).steps [.assertion ok (assertionCtx fl (registerAssertion ok s)) data] := by
  unfold reportAssertion
  split
  · rename_i hs
    have hs' : (core s).state = .skipped := hs
    simp [Core.steps, Core.step, hs']
  · rename_i hs
    cases ok with
    | true =>
      simp [Core.steps, Core.step, core, hs, emit, full, registerAssertion]
    | false =>
      have e : ∀ t : TS, core { t with log := t.log ++ [Event.assertionFailed
          (assertionCtx fl (registerAssertion false s)) data t.shouldFail t.mayFail] } =
          { core t with log := t.log ++ [Event.assertionFailed
          (assertionCtx fl (registerAssertion false s)) data (core t).shouldFail (core t).mayFail] } :=
        fun _ => rfl
      simp only [Bool.false_eq_true, if_false, emit, full, ge_iff_le, Nat.zero_le, if_true]
      rw [e]
      have e2 : (registerAssertion false s).log = (core (registerAssertion false s)).log := rfl
      rw [e2]
      have e3 : core (registerAssertion false s) =
        if s.mayFail || s.shouldFail then
          { core s with asserts := s.asserts + 1, allowed := s.allowed + 1
                        state := raiseTo .allowedFail s.state }
        else { core s with asserts := s.asserts + 1, failures := s.failures + 1
                           state := raiseTo .failed s.state } := by
        unfold registerAssertion
        simp only [Bool.false_eq_true, if_false]
        split
        · rw [core_setState]; rfl
        · rw [core_setState]; rfl
      rw [e3]
      have hs' : (core s).state ≠ .skipped := hs
      have em : (core s).mayFail = s.mayFail := rfl
      have es : (core s).shouldFail = s.shouldFail := rfl
      simp only [Core.steps, List.foldl_cons, List.foldl_nil, Core.step, hs', if_false,
        Bool.false_eq_true, em, es]
      split <;> rfl

theorem reach_reportAssertion (cfg : Cfg) (ok : Bool) (data : Text) (s : TS) :
    Reach s (reportAssertion (full cfg) fl ok data s) := ⟨_, core_reportAssertion cfg ok data s⟩

theorem reach_reportSkipped (cfg : Cfg) (msg : Text) (s : TS) :
    Reach s (reportSkipped (full cfg) msg s) := by
  have e2 : (setState .skipped s).log = s.log := by unfold setState; split <;> rfl
  refine ⟨[.skip { path := (setState .skipped s).info.sections.current.map (·.id)
                   caps := (setState .skipped s).info.captures
                   loc := ((setState .skipped s).info.locations.getLastD (0, .exact)).1
                   locType := .exact } msg], ?_⟩
  have e3 := core_setState .skipped s
  simp only [core, Core.mk.injEq] at e3
  simp only [reportSkipped, emit, full, ge_iff_le, Nat.zero_le, if_true, Core.steps,
    List.foldl_cons, List.foldl_nil, Core.step, core, e2, Core.mk.injEq, and_true]
  exact ⟨e3.1, e3.2.1, e3.2.2.1, e3.2.2.2.1, e3.2.2.2.2.1, e3.2.2.2.2.2.1⟩

theorem reach_closeHeld (cfg : Cfg) (l : List Section) (s : TS) :
    Reach s (closeHeld (full cfg) l s) := by
  induction l generalizing s with
  | nil => exact Reach.refl s
  | cons x xs ih => exact (reach_emit cfg 2 _ s (by omega) ⟨rfl, rfl, rfl⟩).trans (ih _)

theorem reach_notify (cfg : Cfg) (s : TS) : Reach s (notify (full cfg) s) := by
  unfold notify
  split
  · exact Reach.refl s
  · exact (reach_closeHeld cfg _ s).trans (Reach.of_core rfl)

theorem reach_arrive (cfg : Cfg) (s : TS) : Reach s (arrive (full cfg) fl s) := by
  cases fl with
  | false => exact reach_notify cfg s
  | true => exact Reach.refl s

theorem core_hold (u : Bool) (s : TS) : core (hold u s) = core s := by
  unfold hold
  split <;> rfl

theorem reach_pushLocation {cfg : Cfg} {l} {s s' : TS} (h : pushLocation cfg l s = .ok s') :
    Reach s s' := by
  unfold pushLocation at h
  split at h
  · cases h; exact Reach.of_core rfl
  · cases h

theorem reach_popLocation {s s' : TS} (h : popLocation s = .ok s') : Reach s s' := by
  unfold popLocation at h
  split at h
  · cases h
  · cases h; exact Reach.of_core rfl

theorem reach_checkEnter {cfg : Cfg} {loc : Nat} {s s' : TS}
    (h : checkEnter (full cfg) fl loc s = .ok s') : Reach s s' := by
  unfold checkEnter at h
  cases hp : pushLocation (full cfg) (loc, .inCheck) (arrive (full cfg) fl s) with
  | abort => simp [hp] at h
  | ub => simp [hp] at h
  | ok t =>
    simp only [hp, Outcome.bind_ok, Outcome.pure_eq, Outcome.ok.injEq] at h
    subst h
    exact ((reach_arrive cfg s).trans (reach_pushLocation hp)).trans (Reach.of_core rfl)

theorem bind_eq_ok {α β : Type} {x : Outcome α} {f : α → Outcome β} {b : β}
    (h : x >>= f = .ok b) : ∃ a, x = .ok a ∧ f a = .ok b := by
  cases x with
  | ok a => exact ⟨a, rfl, h⟩
  | abort => cases h
  | ub => cases h

theorem reach_endCheck {r : Res} {s : TS} {x : TS × Res} (h : endCheck fl r s = .ok x) :
    Reach s x.1 ∧ x.2 = r := by
  unfold endCheck checkLeave at h
  obtain ⟨t, hp, h⟩ := bind_eq_ok h
  cases h
  exact ⟨(Reach.of_core (by rw [core_hold]; rfl)).trans (reach_popLocation hp), rfl⟩

theorem reach_answer [MessageLimit] {cfg : Cfg} {a : Ask} {ev : Option Exn} {s : TS} {x : TS × Res}
    (h : answer (full cfg) fl a ev s = .ok x) : Reach s x.1 := by
  have report : ∀ {ok d r}, endCheck fl r (reportAssertion (full cfg) fl ok d s) = .ok x → Reach s x.1 :=
    fun h => (reach_reportAssertion cfg _ _ _).trans (reach_endCheck h).1
  have caught : ∀ {ok d r}, endCheck fl r (notify (full cfg) (reportAssertion (full cfg) fl ok d s)) = .ok x →
      Reach s x.1 :=
    fun h => (reach_reportAssertion cfg _ _ _).trans ((reach_notify cfg _).trans (reach_endCheck h).1)
  cases a with
  | check ok abort data =>
    cases ev with
    | some e => exact (reach_endCheck h).1
    | none => exact report h
  | throwsAs type name abort =>
    cases ev with
    | none => exact report h
    | some e =>
      simp only [answer] at h
      split at h
      · exact caught h
      · exact caught h
  | throwsMatches type name matched desc abort =>
    cases ev with
    | none => exact report h
    | some e =>
      simp only [answer] at h
      split at h
      · split at h
        · exact caught h
        · exact caught h
      · exact caught h
  | nothrow text abort =>
    cases ev with
    | none => exact report h
    | some e => exact caught h

theorem reach_execStmt [MessageLimit] {cfg : Cfg} {m : Stmt} {s : TS} {x : TS × Res}
    (h : execStmt (full cfg) fl m s = .ok x) : Reach s x.1 := by
  rcases m.kinds with ⟨a, rfl⟩ | ⟨e, rfl⟩ | rfl | ⟨loc, abort, msg, rfl⟩ | ⟨loc, a, ev, hm⟩
  · cases h
    exact ⟨[.neutral (.user a) ⟨rfl, rfl, rfl⟩], rfl⟩
  · cases h; exact Reach.refl s
  · cases h; exact reach_notify cfg s
  · unfold execStmt at h
    obtain ⟨t, ht, h⟩ := bind_eq_ok h
    exact (reach_checkEnter ht).trans ((reach_reportSkipped cfg _ _).trans (reach_endCheck h).1)
  · rw [execStmt_asks hm] at h
    obtain ⟨t, ht, h⟩ := bind_eq_ok h
    exact (reach_checkEnter ht).trans (reach_answer h)

theorem reach_enterSection {cfg : Cfg} {id loc : Nat} {s : TS} {x : TS × Bool}
    (h : enterSection (full cfg) fl id loc s = .ok x) : Reach s x.1 := by
  unfold enterSection at h
  obtain ⟨y, hy, h⟩ := bind_eq_ok h
  refine (reach_arrive (fl := fl) cfg s).trans ?_
  unfold enterLevel at h
  dsimp only at h
  split at h
  · cases h
  · split at h
    · cases h; exact Reach.of_core rfl
    · split at h
      · cases h; exact Reach.of_core rfl
      · unfold startSection at h
        split at h
        · cases h
        · obtain ⟨t, ht, h⟩ := bind_eq_ok h
          refine ((Reach.of_core rfl).trans (reach_pushLocation ht)).trans ?_
          cases h
          dsimp only
          split
          · exact reach_emit cfg 2 _ _ (by omega) ⟨rfl, rfl, rfl⟩
          · exact Reach.refl t

theorem reach_leaveSection {cfg : Cfg} {en u : Bool} {s s' : TS}
    (h : leaveSection (full cfg) en u s = .ok s') : Reach s s' := by
  unfold leaveSection at h
  split at h
  · obtain ⟨t, ht, h⟩ := bind_eq_ok h
    cases h
    refine Reach.trans ?_ (Reach.of_core (s := t) rfl)
    unfold leaveEntered at ht
    obtain ⟨p, hp, ht⟩ := bind_eq_ok ht
    refine ((Reach.of_core (core_hold u s)).trans (reach_popLocation hp)).trans ?_
    dsimp only at ht
    split at ht
    · cases ht
    · cases ht
      split
      · exact Reach.trans (Reach.trans (Reach.of_core (s' := setSections _ p) rfl)
          (reach_emit cfg 2 _ _ (by omega) ⟨rfl, rfl, rfl⟩)) (Reach.of_core rfl)
      · exact Reach.of_core rfl
  · cases h
    exact Reach.of_core rfl

theorem reach_addCaptures {cfg : Cfg} {l : List Text} {s s' : TS}
    (h : addCaptures (full cfg) fl l s = .ok s') : Reach s s' := by
  induction l generalizing s with
  | nil => cases h; exact Reach.refl _
  | cons c cs ih =>
    unfold addCaptures at h
    split at h
    · cases h
    · exact ((reach_arrive cfg s).trans
        (Reach.of_core (s' := pushCapture c (arrive (full cfg) fl s)) rfl)).trans (ih h)

theorem reach_popCaptures {n : Nat} {u : Bool} {s s' : TS} (h : popCaptures n u s = .ok s') :
    Reach s s' := by
  unfold popCaptures at h
  dsimp only at h
  split at h
  · cases h
    exact (Reach.of_core (core_hold u s)).trans (Reach.of_core rfl)
  · cases h

theorem reach_exec [MessageLimit] {cfg : Cfg} {K : Prog} {s : TS} {x : TS × Res}
    (h : exec (full cfg) fl K s = .ok x) : Reach s x.1 := by
  induction K generalizing fl s x with
  | done => cases h; exact Reach.refl s
  | stmt m k ih =>
    unfold exec at h
    obtain ⟨⟨t, r⟩, ht, h⟩ := bind_eq_ok h
    refine (reach_execStmt ht).trans ?_
    cases r with
    | normal => exact ih h
    | raised e => cases h; exact Reach.refl t
  | sec id loc b k ihb ihk =>
    unfold exec at h
    obtain ⟨⟨t, en⟩, ht, h⟩ := bind_eq_ok h
    refine (reach_enterSection ht).trans ?_
    cases en with
    | false =>
      simp only [Bool.false_eq_true, if_false] at h
      obtain ⟨u, hu, h⟩ := bind_eq_ok h
      exact (reach_leaveSection hu).trans (ihk h)
    | true =>
      simp only [if_true] at h
      obtain ⟨⟨u, r⟩, hu, h⟩ := bind_eq_ok h
      obtain ⟨w, hw, h⟩ := bind_eq_ok h
      refine ((ihb hu).trans (reach_leaveSection hw)).trans ?_
      cases r with
      | normal => exact ihk h
      | raised e => cases h; exact Reach.refl w
  | capture caps k ih =>
    unfold exec at h
    obtain ⟨t, ht, h⟩ := bind_eq_ok h
    obtain ⟨⟨u, r⟩, hu, h⟩ := bind_eq_ok h
    obtain ⟨w, hw, h⟩ := bind_eq_ok h
    cases h
    exact ((reach_addCaptures ht).trans (ih hu)).trans (reach_popCaptures hw)
  | block b k ihb ihk =>
    unfold exec at h
    obtain ⟨⟨t, r⟩, ht, h⟩ := bind_eq_ok h
    refine (ihb ht).trans ?_
    cases r with
    | normal => exact ihk h
    | raised e => cases h; exact Reach.refl t
  | tryCatch ty b hd k ihb ihh ihk =>
    unfold exec at h
    obtain ⟨⟨t, r⟩, ht, h⟩ := bind_eq_ok h
    refine (ihb ht).trans ?_
    cases r with
    | normal => exact ihk h
    | raised e =>
      dsimp only at h
      split at h
      · obtain ⟨⟨u, r⟩, hu, h⟩ := bind_eq_ok h
        refine (ihh hu).trans ?_
        cases r with
        | normal => exact ihk h
        | raised e => cases h; exact Reach.refl u
      · cases h; exact Reach.refl t
  | nested loc o ask k iho ihk =>
    unfold exec at h
    obtain ⟨t, ht, h⟩ := bind_eq_ok h
    obtain ⟨⟨u, r⟩, hu, h⟩ := bind_eq_ok h
    obtain ⟨⟨w, r'⟩, hw, h⟩ := bind_eq_ok h
    refine ((reach_checkEnter ht).trans (iho hu)).trans ((reach_answer hw).trans ?_)
    cases r' with
    | normal => exact ihk h
    | raised e => cases h; exact Reach.refl w
  | guard c k ihc ihk =>
    unfold exec at h
    obtain ⟨⟨t, r⟩, ht, h⟩ := bind_eq_ok h
    obtain ⟨⟨u, r'⟩, hu, h⟩ := bind_eq_ok h
    cases r' with
    | normal =>
      cases h
      exact (ihk ht).trans (ihc hu (x := (u, .normal)))
    | raised e => cases h

theorem core_clearFinished (s : TS) : core (clearFinished s) = core s := by
  unfold clearFinished
  split
  · split <;> rfl
  · rfl

theorem reach_runLoop [MessageLimit] {cfg : Cfg} {bodies : Nat → Prog} {fuel n : Nat} {s : TS} {x : TS × Res}
    (h : runLoop (full cfg) bodies fuel n s = some (.ok x)) : Reach s x.1 := by
  induction fuel generalizing s n with
  | zero => cases h
  | succ f ih =>
    unfold runLoop at h
    refine (Reach.of_core (s' := resetPass s) rfl).trans ?_
    cases he : exec (full cfg) false (bodies n) (resetPass s) with
    | abort => simp [he] at h
    | ub => simp [he] at h
    | ok y =>
      obtain ⟨t, r⟩ := y
      refine (reach_exec he).trans ?_
      cases r with
      | raised e => simp only [he] at h; cases h; exact Reach.refl t
      | normal =>
        simp only [he] at h
        refine (Reach.of_core (core_clearFinished t)).trans ?_
        split at h
        · exact ih h
        · cases h; exact Reach.refl _

theorem reach_reportEnd [MessageLimit] (cfg : Cfg) (s : TS) (r : Res) : Reach s (reportEnd (full cfg) s r) := by
  cases r with
  | normal =>
    exact (Reach.of_core (s' := setInCheck true s) rfl).trans
      ((reach_reportAssertion cfg true "no exception caught".toList (setInCheck true s)).trans
        (Reach.of_core rfl))
  | raised e =>
    unfold reportEnd
    dsimp only
    split
    · exact Reach.of_core rfl
    · exact (Reach.of_core (s' := setUnhandled true s) rfl).trans (reach_reportAssertion cfg _ _ _)

theorem reach_settle (cfg : Cfg) (s : TS) : Reach s (settle (full cfg) s) := by
  unfold settle
  split
  · exact (reach_notify cfg s).trans (Reach.of_core rfl)
  · exact Reach.of_core rfl

theorem reach_afterLoop [MessageLimit] (cfg : Cfg) (s : TS) (r : Res) : Reach s (afterLoop (full cfg) s r) :=
  (reach_reportEnd cfg s r).trans (reach_settle cfg _)

/-! ## Invariants of primitive reports -/

/-- Number of events of a log satisfying a test. -/
def countIn (p : Event → Bool) (log : List Event) : Nat := (log.filter p).length

theorem countIn_append (p : Event → Bool) (a b : List Event) :
    countIn p (a ++ b) = countIn p a + countIn p b := by
  simp [countIn, List.filter_append]

theorem countIn_snoc (p : Event → Bool) (a : List Event) (e : Event) :
    countIn p (a ++ [e]) = countIn p a + if p e then 1 else 0 := by
  rw [countIn_append]
  cases h : p e <;> simp [countIn, h]

/-- The state of a test case as a function of its log. -/
def stateOf (may : Bool) (log : List Event) : CaseState :=
  if log.any isFailure then (if may then .allowedFail else .failed)
  else if log.any isSkip then .skipped else .success

/-- The accounting invariant of the body of a test case. -/
structure Counted (c : Core) : Prop where
  asserts : c.asserts = countIn isAssertion c.log
  failures : c.failures = if c.mayFail || c.shouldFail then 0 else countIn isFailure c.log
  allowed : c.allowed = if c.mayFail || c.shouldFail then countIn isFailure c.log else 0
  state : c.state = stateOf (c.mayFail || c.shouldFail) c.log

theorem Counted.step {c : Core} (h : Counted c) (p : Prim) : Counted (c.step p) := by
  obtain ⟨h1, h2, h3, h4⟩ := h
  cases p with
  | neutral e he =>
    obtain ⟨ha, hs⟩ := he
    have hf : isFailure e = false := by cases e <;> first | rfl | cases ha
    constructor
    · simp [Core.step, countIn_snoc, h1, ha]
    · simp [Core.step, countIn_snoc, h2, hf]
    · simp [Core.step, countIn_snoc, h3, hf]
    · simp [Core.step, h4, stateOf, hf, hs]
  | skip ctx msg =>
    constructor
    · simp [Core.step, countIn_snoc, h1, isAssertion]
    · simp [Core.step, countIn_snoc, h2, isFailure]
    · simp [Core.step, countIn_snoc, h3, isFailure]
    · simp only [Core.step, h4, stateOf, raiseTo, List.any_append, List.any_cons, isFailure,
        isSkip, List.any_nil, Bool.or_false, Bool.or_true, if_true]
      by_cases ha : c.log.any isFailure <;> by_cases hb : c.log.any isSkip <;>
        cases (c.mayFail || c.shouldFail) <;> simp [ha, hb, CaseState.toNat]
  | assertion ok ctx data =>
    by_cases hs : c.state = .skipped
    · simp only [Core.step, hs, if_true]; exact ⟨h1, h2, h3, h4⟩
    · have hns : c.log.any isFailure = true ∨ c.log.any isSkip = false := by
        rw [h4] at hs
        unfold stateOf at hs
        by_cases ha : c.log.any isFailure <;> by_cases hb : c.log.any isSkip <;> simp_all
      cases ok with
      | true =>
        constructor
        · simp [Core.step, hs, countIn_snoc, h1, isAssertion]
        · simp [Core.step, hs, countIn_snoc, h2, isFailure]
        · simp [Core.step, hs, countIn_snoc, h3, isFailure]
        · simp only [Core.step, hs, if_false, if_true]
          simp [h4, stateOf, isFailure, isSkip]
      | false =>
        by_cases hm : c.mayFail || c.shouldFail
        · simp only [Core.step, hs, if_false, hm, if_true, Bool.false_eq_true]
          simp only [hm, if_true] at h2 h3
          constructor
          · simp [countIn_snoc, h1, isAssertion]
          · simp [hm, h2]
          · simp [hm, h3, countIn_snoc, isFailure]
          · dsimp only
            rw [h4, hm]
            simp only [stateOf, if_true, List.any_append, List.any_cons, isFailure, Bool.true_or,
              Bool.or_true, raiseTo]
            by_cases ha : c.log.any isFailure <;> by_cases hb : c.log.any isSkip <;>
              simp [ha, hb, CaseState.toNat]
        · simp only [Core.step, hs, if_false, hm, Bool.false_eq_true]
          simp only [hm, if_false, Bool.false_eq_true] at h2 h3
          constructor
          · simp [countIn_snoc, h1, isAssertion]
          · simp [hm, h2, countIn_snoc, isFailure]
          · simp [hm, h3]
          · dsimp only
            rw [h4, Bool.eq_false_iff.mpr hm]
            simp only [stateOf, Bool.false_eq_true, if_false, List.any_append, List.any_cons,
              isFailure, Bool.true_or, Bool.or_true, raiseTo, if_true]
            rcases hns with hn | hn
            · simp [hn, CaseState.toNat]
            · cases ha : c.log.any isFailure <;> simp [hn, CaseState.toNat]

theorem Counted.steps {c : Core} (h : Counted c) (ps : List Prim) : Counted (c.steps ps) := by
  induction ps generalizing c with
  | nil => exact h
  | cons p ps ih => exact ih (h.step p)

theorem Counted.reach {s s' : TS} (h : Counted (core s)) (hr : Reach s s') :
    Counted (core s') := by
  obtain ⟨ps, hp⟩ := hr
  rw [hp]
  exact h.steps ps

theorem steps_flags (c : Core) (ps : List Prim) :
    (c.steps ps).mayFail = c.mayFail ∧ (c.steps ps).shouldFail = c.shouldFail := by
  induction ps generalizing c with
  | nil => exact ⟨rfl, rfl⟩
  | cons p ps ih =>
    have : (c.step p).mayFail = c.mayFail ∧ (c.step p).shouldFail = c.shouldFail := by
      cases p with
      | neutral e he => exact ⟨rfl, rfl⟩
      | skip ctx msg => exact ⟨rfl, rfl⟩
      | assertion ok ctx data =>
        unfold Core.step
        dsimp only
        split
        · exact ⟨rfl, rfl⟩
        · split
          · exact ⟨rfl, rfl⟩
          · split <;> exact ⟨rfl, rfl⟩
    rw [← this.1, ← this.2]
    exact ih (c.step p)

theorem Reach.flags {s s' : TS} (hr : Reach s s') :
    s'.mayFail = s.mayFail ∧ s'.shouldFail = s.shouldFail := by
  obtain ⟨ps, hp⟩ := hr
  have := steps_flags (core s) ps
  rw [← hp] at this
  exact this

/-- Primitive reports only append to the log. -/
theorem steps_log (c : Core) (ps : List Prim) : ∃ l, (c.steps ps).log = c.log ++ l := by
  induction ps generalizing c with
  | nil => exact ⟨[], by simp [Core.steps]⟩
  | cons p ps ih =>
    obtain ⟨l, hl⟩ := ih (c.step p)
    have : ∃ l', (c.step p).log = c.log ++ l' := by
      cases p with
      | neutral e he => exact ⟨_, rfl⟩
      | skip ctx msg => exact ⟨_, rfl⟩
      | assertion ok ctx data =>
        unfold Core.step
        dsimp only
        split
        · exact ⟨[], by simp⟩
        · split
          · exact ⟨_, rfl⟩
          · split <;> exact ⟨_, rfl⟩
    obtain ⟨l', hl'⟩ := this
    exact ⟨l' ++ l, by
      have : (c.steps (p :: ps)).log = ((c.step p).steps ps).log := rfl
      rw [this, hl, hl', List.append_assoc]⟩

end Verif.Run
