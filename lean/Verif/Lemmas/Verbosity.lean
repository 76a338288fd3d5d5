import Verif.Spec.TestCase
import Verif.Lemmas.Ask
/-! # Verbosity only filters the log -/
namespace Verif.Run
open Spec

variable {fl : Bool}

/-- The same state with only the events shown at verbosity `v`. -/
def hide (v : Nat) (s : TS) : TS := { s with log := shown v s.log }

/-- The same configuration at full verbosity. -/
def full (cfg : Cfg) : Cfg := { cfg with verbosity := 3 }

def omap {α β : Type} (f : α → β) : Outcome α → Outcome β
  | .ok a => .ok (f a)
  | .abort => .abort
  | .ub => .ub

def hideR {β : Type} (v : Nat) (x : TS × β) : TS × β := (hide v x.1, x.2)

@[simp] theorem omap_ok {α β : Type} (f : α → β) (a : α) : omap f (.ok a) = .ok (f a) := rfl
@[simp] theorem omap_abort {α β : Type} (f : α → β) : omap f .abort = .abort := rfl
@[simp] theorem omap_ub {α β : Type} (f : α → β) : omap f .ub = .ub := rfl

theorem omap_bind {α β γ : Type} (f : β → γ) (x : Outcome α) (g : α → Outcome β) :
    omap f (x >>= g) = x >>= fun a => omap f (g a) := by
  cases x <;> rfl

theorem bind_omap {α β γ : Type} (f : α → β) (x : Outcome α) (g : β → Outcome γ) :
    (omap f x) >>= g = x >>= fun a => g (f a) := by
  cases x <;> rfl

theorem bind_congr' {α β : Type} (x : Outcome α) (f g : α → Outcome β) (h : ∀ a, f a = g a) :
    x >>= f = x >>= g := by
  cases x <;> simp [h]

theorem emit_hide (cfg : Cfg) (lvl : Nat) (e : Event) (s : TS) (h : levelOf e = lvl) (h3 : lvl ≤ 3) :
    emit cfg lvl e (hide cfg.verbosity s) = hide cfg.verbosity (emit (full cfg) lvl e s) := by
  unfold emit full hide shown
  simp only [ge_iff_le, h3, if_true]
  by_cases hv : lvl ≤ cfg.verbosity <;> simp [hv, List.filter_append, h]

theorem setState_hide (v : Nat) (n : CaseState) (s : TS) :
    setState n (hide v s) = hide v (setState n s) := by
  unfold setState hide
  dsimp only
  split <;> rfl

theorem registerAssertion_hide (v : Nat) (ok : Bool) (s : TS) :
    registerAssertion ok (hide v s) = hide v (registerAssertion ok s) := by
  unfold registerAssertion
  cases ok
  · cases h : (s.mayFail || s.shouldFail)
    · simp only [hide, h, Bool.false_eq_true, if_false]
      exact setState_hide v _ { s with
        asserts := s.asserts + 1, failures := s.failures + 1
        info := s.info.count false false, held := s.held.map (Info.count false false) }
    · simp only [hide, h, Bool.false_eq_true, if_false, if_true]
      exact setState_hide v _ { s with
        asserts := s.asserts + 1, allowed := s.allowed + 1
        info := s.info.count false true, held := s.held.map (Info.count false true) }
  · rfl

theorem reportAssertion_hide (cfg : Cfg) (ok : Bool) (data : Text) (s : TS) :
    reportAssertion cfg fl ok data (hide cfg.verbosity s) =
      hide cfg.verbosity (reportAssertion (full cfg) fl ok data s) := by
  unfold reportAssertion
  have e : (hide cfg.verbosity s).state = s.state := rfl
  rw [e]
  split
  · rfl
  · dsimp only
    rw [registerAssertion_hide]
    cases ok
    · simp only [Bool.false_eq_true, if_false]
      exact emit_hide cfg 0 _ _ rfl (by omega)
    · simp only [if_true]
      exact emit_hide cfg 3 _ _ rfl (by omega)

theorem reportSkipped_hide (cfg : Cfg) (msg : Text) (s : TS) :
    reportSkipped cfg msg (hide cfg.verbosity s) =
      hide cfg.verbosity (reportSkipped (full cfg) msg s) := by
  unfold reportSkipped
  dsimp only
  rw [setState_hide]
  exact emit_hide cfg 0 _ _ rfl (by omega)

theorem reportSectionStarted_hide (cfg : Cfg) (x : Section) (s : TS) :
    reportSectionStarted cfg x (hide cfg.verbosity s) =
      hide cfg.verbosity (reportSectionStarted (full cfg) x s) :=
  emit_hide cfg 2 _ _ rfl (by omega)

theorem reportSectionEnded_hide (cfg : Cfg) (x : Section) (s : TS) :
    reportSectionEnded cfg x (hide cfg.verbosity s) =
      hide cfg.verbosity (reportSectionEnded (full cfg) x s) :=
  emit_hide cfg 2 _ _ rfl (by omega)

theorem closeHeld_hide (cfg : Cfg) (l : List Section) (s : TS) :
    closeHeld cfg l (hide cfg.verbosity s) = hide cfg.verbosity (closeHeld (full cfg) l s) := by
  induction l generalizing s with
  | nil => rfl
  | cons x xs ih => simp only [closeHeld, reportSectionEnded_hide, ih]

theorem notify_hide (cfg : Cfg) (s : TS) :
    notify cfg (hide cfg.verbosity s) = hide cfg.verbosity (notify (full cfg) s) := by
  unfold notify
  have e : (hide cfg.verbosity s).held = s.held := rfl
  rw [e]
  cases s.held with
  | none => rfl
  | some h =>
    dsimp only
    have e : (hide cfg.verbosity s).info = s.info := rfl
    rw [e, closeHeld_hide]
    rfl

theorem arrive_hide (cfg : Cfg) (s : TS) :
    arrive cfg fl (hide cfg.verbosity s) = hide cfg.verbosity (arrive (full cfg) fl s) := by
  cases fl with
  | false => exact notify_hide cfg s
  | true => rfl

theorem hold_hide (v : Nat) (u : Bool) (s : TS) : hold u (hide v s) = hide v (hold u s) := by
  unfold hold
  have e : (hide v s).held = s.held := rfl
  rw [e]
  split <;> rfl

theorem pushLocation_hide (cfg : Cfg) (l : Nat × LocType) (s : TS) (v : Nat) :
    pushLocation cfg l (hide v s) = omap (hide v) (pushLocation (full cfg) l s) := by
  unfold pushLocation hide full
  dsimp only
  split <;> rfl

theorem popLocation_hide (s : TS) (v : Nat) :
    popLocation (hide v s) = omap (hide v) (popLocation s) := by
  unfold popLocation hide
  dsimp only
  split <;> rfl

theorem checkEnter_hide (cfg : Cfg) (loc : Nat) (s : TS) :
    checkEnter cfg fl loc (hide cfg.verbosity s) =
      omap (hide cfg.verbosity) (checkEnter (full cfg) fl loc s) := by
  unfold checkEnter
  rw [arrive_hide, pushLocation_hide]
  cases pushLocation (full cfg) (loc, .inCheck) (arrive (full cfg) fl s) <;> rfl

theorem checkLeave_hide (u : Bool) (s : TS) (v : Nat) :
    checkLeave u (hide v s) = omap (hide v) (checkLeave u s) := by
  unfold checkLeave
  rw [← popLocation_hide, ← hold_hide]
  rfl

theorem endCheck_hide (r : Res) (s : TS) (v : Nat) :
    endCheck fl r (hide v s) = omap (hideR v) (endCheck fl r s) := by
  unfold endCheck
  rw [checkLeave_hide, bind_omap, omap_bind]
  rfl

theorem answer_hide [MessageLimit] (cfg : Cfg) (a : Ask) (ev : Option Exn) (s : TS) :
    answer cfg fl a ev (hide cfg.verbosity s) = omap (hideR cfg.verbosity) (answer (full cfg) fl a ev s) := by
  cases a with
  | check ok abort data =>
    cases ev <;> simp only [answer, reportAssertion_hide, endCheck_hide]
  | throwsAs type name abort =>
    cases ev with
    | none => simp only [answer, reportAssertion_hide, endCheck_hide]
    | some e =>
      simp only [answer]
      split <;> simp only [reportAssertion_hide, notify_hide, endCheck_hide]
  | throwsMatches type name matched desc abort =>
    cases ev with
    | none => simp only [answer, reportAssertion_hide, endCheck_hide]
    | some e =>
      simp only [answer]
      cases matched <;>
      split <;> simp only [reportAssertion_hide, notify_hide, endCheck_hide, Bool.not_false,
        Bool.not_true, if_true, Bool.false_eq_true, if_false]
  | nothrow text abort =>
    cases ev <;> simp only [answer, reportAssertion_hide, notify_hide, endCheck_hide]

theorem execStmt_hide [MessageLimit] (cfg : Cfg) (m : Stmt) (s : TS) :
    execStmt cfg fl m (hide cfg.verbosity s) =
      omap (hideR cfg.verbosity) (execStmt (full cfg) fl m s) := by
  rcases m.kinds with ⟨a, rfl⟩ | ⟨e, rfl⟩ | rfl | ⟨loc, abort, msg, rfl⟩ | ⟨loc, a, ev, h⟩
  · simp [execStmt, hide, hideR, shown, List.filter_append, levelOf]
  · rfl
  · simp only [execStmt, notify_hide]; rfl
  · simp only [execStmt, checkEnter_hide, bind_omap, omap_bind]
    apply bind_congr'
    intro a
    simp only [reportSkipped_hide, endCheck_hide]
  · rw [execStmt_asks h, execStmt_asks h, checkEnter_hide, bind_omap, omap_bind]
    apply bind_congr'
    exact fun t => answer_hide cfg a ev t

theorem setSections_hide (v : Nat) (x : SecState) (s : TS) :
    setSections x (hide v s) = hide v (setSections x s) := rfl

theorem startSection_hide (cfg : Cfg) (id loc : Nat) (l : Level) (x : SecState) (s : TS) :
    startSection cfg id loc l x (hide cfg.verbosity s) =
      omap (hideR cfg.verbosity) (startSection (full cfg) id loc l x s) := by
  unfold startSection
  have em : (full cfg).maxNested = cfg.maxNested := rfl
  rw [em]
  split
  · rfl
  · rw [setSections_hide, pushLocation_hide, bind_omap, omap_bind]
    apply bind_congr'
    intro t
    simp only [reportSectionStarted_hide, Outcome.pure_eq, omap_ok, hideR]
    split <;> rfl

theorem enterSection_hide (cfg : Cfg) (id loc : Nat) (s : TS) :
    enterSection cfg fl id loc (hide cfg.verbosity s) =
      omap (hideR cfg.verbosity) (enterSection (full cfg) fl id loc s) := by
  unfold enterSection
  simp only [arrive_hide]
  have e : ∀ t : TS, (hide cfg.verbosity t).info = t.info := fun _ => rfl
  have em : ∀ x, ensureLevel (full cfg) x = ensureLevel cfg x := fun _ => rfl
  simp only [e, em, omap_bind]
  apply bind_congr'
  intro x
  unfold enterLevel
  dsimp only
  split
  · rfl
  · split
    · rfl
    · split
      · rfl
      · exact startSection_hide ..

theorem leaveSection_hide (cfg : Cfg) (en u : Bool) (s : TS) :
    leaveSection cfg en u (hide cfg.verbosity s) =
      omap (hide cfg.verbosity) (leaveSection (full cfg) en u s) := by
  unfold leaveSection
  cases en with
  | false => rfl
  | true =>
    simp only [if_true, leaveEntered, hold_hide, popLocation_hide, bind_omap, omap_bind]
    cases popLocation (hold u s) with
    | abort => rfl
    | ub => rfl
    | ok t =>
      simp only [Outcome.bind_ok, setSections_hide]
      have e : ∀ t : TS, (hide cfg.verbosity t).info = t.info := fun _ => rfl
      simp only [e]
      split
      · rfl
      · simp only [reportSectionEnded_hide, Outcome.pure_eq, Outcome.bind_ok, omap_ok]
        split <;> rfl

theorem addCaptures_hide (cfg : Cfg) (l : List Text) (s : TS) :
    addCaptures cfg fl l (hide cfg.verbosity s) =
      omap (hide cfg.verbosity) (addCaptures (full cfg) fl l s) := by
  induction l generalizing s with
  | nil => rfl
  | cons c cs ih =>
    unfold addCaptures
    have e : ∀ t : TS, (hide cfg.verbosity t).info = t.info := fun _ => rfl
    have ep : ∀ t : TS, pushCapture c (hide cfg.verbosity t) = hide cfg.verbosity (pushCapture c t) :=
      fun _ => rfl
    simp only [e, arrive_hide, ep]
    have em : (full cfg).maxCaptures = cfg.maxCaptures := rfl
    rw [em]
    split
    · rfl
    · exact ih _

theorem popCaptures_hide (n : Nat) (u : Bool) (s : TS) (v : Nat) :
    popCaptures n u (hide v s) = omap (hide v) (popCaptures n u s) := by
  unfold popCaptures
  rw [hold_hide]
  have e : ∀ t : TS, (hide v t).info = t.info := fun _ => rfl
  simp only [e]
  split <;> rfl

theorem exec_hide [MessageLimit] (cfg : Cfg) (K : Prog) (s : TS) :
    exec cfg fl K (hide cfg.verbosity s) = omap (hideR cfg.verbosity) (exec (full cfg) fl K s) := by
  induction K generalizing fl s with
  | done => rfl
  | stmt m k ih =>
    unfold exec
    rw [execStmt_hide, bind_omap, omap_bind]
    apply bind_congr'
    rintro ⟨t, r⟩
    cases r with
    | normal => exact ih t
    | raised e => rfl
  | sec id loc b k ihb ihk =>
    unfold exec
    rw [enterSection_hide, bind_omap, omap_bind]
    apply bind_congr'
    rintro ⟨t, en⟩
    cases en with
    | false =>
      simp only [hideR, Bool.false_eq_true, if_false, leaveSection_hide, bind_omap, omap_bind]
      apply bind_congr'
      intro t
      exact ihk t
    | true =>
      simp only [hideR, if_true, ihb, bind_omap, omap_bind]
      apply bind_congr'
      rintro ⟨t, r⟩
      simp only [leaveSection_hide, bind_omap]
      apply bind_congr'
      intro t
      cases r with
      | normal => exact ihk t
      | raised e => rfl
  | capture caps k ih =>
    unfold exec
    rw [addCaptures_hide, bind_omap, omap_bind]
    apply bind_congr'
    intro t
    simp only [ih, bind_omap, omap_bind]
    apply bind_congr'
    rintro ⟨t, r⟩
    simp only [hideR, popCaptures_hide, bind_omap]
    rfl
  | block b k ihb ihk =>
    unfold exec
    rw [ihb, bind_omap, omap_bind]
    apply bind_congr'
    rintro ⟨t, r⟩
    cases r with
    | normal => exact ihk t
    | raised e => rfl
  | tryCatch ty b h k ihb ihh ihk =>
    unfold exec
    rw [ihb, bind_omap, omap_bind]
    apply bind_congr'
    rintro ⟨t, r⟩
    cases r with
    | normal => exact ihk t
    | raised e =>
      simp only [hideR]
      split
      · simp only [ihh, bind_omap, omap_bind]
        apply bind_congr'
        rintro ⟨t, r⟩
        cases r with
        | normal => exact ihk t
        | raised e => rfl
      · rfl
  | nested loc o ask k iho ihk =>
    unfold exec
    rw [checkEnter_hide, bind_omap, omap_bind]
    apply bind_congr'
    intro t
    rw [iho, bind_omap, omap_bind]
    apply bind_congr'
    rintro ⟨t, r⟩
    simp only [hideR, answer_hide, bind_omap, omap_bind]
    apply bind_congr'
    rintro ⟨t, r⟩
    cases r with
    | normal => exact ihk t
    | raised e => rfl
  | guard c k ihc ihk =>
    unfold exec
    rw [ihk, bind_omap, omap_bind]
    apply bind_congr'
    rintro ⟨t, r⟩
    simp only [hideR, ihc, bind_omap, omap_bind]
    apply bind_congr'
    rintro ⟨t, r'⟩
    cases r' <;> rfl

def omapo {α β : Type} (f : α → β) : Option (Outcome α) → Option (Outcome β)
  | none => none
  | some x => some (omap f x)

theorem clearFinished_hide (v : Nat) (s : TS) :
    clearFinished (hide v s) = hide v (clearFinished s) := by
  unfold clearFinished
  have e : ∀ t : TS, (hide v t).info = t.info := fun _ => rfl
  simp only [e]
  split
  · split <;> rfl
  · rfl

theorem runLoop_hide [MessageLimit] (cfg : Cfg) (bodies : Nat → Prog) (fuel n : Nat) (s : TS) :
    runLoop cfg bodies fuel n (hide cfg.verbosity s) =
      omapo (hideR cfg.verbosity) (runLoop (full cfg) bodies fuel n s) := by
  induction fuel generalizing s n with
  | zero => rfl
  | succ f ih =>
    unfold runLoop
    have e : resetPass (hide cfg.verbosity s) = hide cfg.verbosity (resetPass s) := rfl
    rw [e, exec_hide]
    cases exec (full cfg) false (bodies n) (resetPass s) with
    | abort => rfl
    | ub => rfl
    | ok x =>
      obtain ⟨t, r⟩ := x
      cases r with
      | raised e => rfl
      | normal =>
        simp only [omap_ok, hideR, clearFinished_hide]
        have e1 : (hide cfg.verbosity (clearFinished t)).info = (clearFinished t).info := rfl
        have e2 : (hide cfg.verbosity (clearFinished t)).state = (clearFinished t).state := rfl
        rw [e1, e2, ih]
        split <;> rfl

theorem settle_hide (cfg : Cfg) (s : TS) :
    settle cfg (hide cfg.verbosity s) = hide cfg.verbosity (settle (full cfg) s) := by
  unfold settle
  have hu : (hide cfg.verbosity s).unhandled = s.unhandled := rfl
  rw [hu, notify_hide]
  split <;> rfl

theorem reportEnd_hide [MessageLimit] (cfg : Cfg) (s : TS) (r : Res) :
    reportEnd cfg (hide cfg.verbosity s) r = hide cfg.verbosity (reportEnd (full cfg) s r) := by
  have e1 : ∀ b t, setInCheck b (hide cfg.verbosity t) = hide cfg.verbosity (setInCheck b t) :=
    fun _ _ => rfl
  have e2 : ∀ b t, setUnhandled b (hide cfg.verbosity t) = hide cfg.verbosity (setUnhandled b t) :=
    fun _ _ => rfl
  cases r with
  | normal => simp only [reportEnd, e1, reportAssertion_hide]
  | raised e =>
    simp only [reportEnd, e2, reportAssertion_hide]
    split <;> rfl

theorem afterLoop_hide [MessageLimit] (cfg : Cfg) (s : TS) (r : Res) :
    afterLoop cfg (hide cfg.verbosity s) r = hide cfg.verbosity (afterLoop (full cfg) s r) := by
  simp only [afterLoop, reportEnd_hide, settle_hide]

theorem checkShouldFail_hide (cfg : Cfg) (s : TS) :
    checkShouldFail cfg (hide cfg.verbosity s) = hide cfg.verbosity (checkShouldFail (full cfg) s) := by
  unfold checkShouldFail
  have e1 : ∀ b t, setInCheck b (hide cfg.verbosity t) = hide cfg.verbosity (setInCheck b t) :=
    fun _ _ => rfl
  have e2 : ∀ b t, setShouldFail b (hide cfg.verbosity t) = hide cfg.verbosity (setShouldFail b t) :=
    fun _ _ => rfl
  have e3 : (hide cfg.verbosity s).shouldFail = s.shouldFail := rfl
  have e4 : (hide cfg.verbosity s).state = s.state := rfl
  simp only [e1, e2, e3, e4, reportAssertion_hide]
  split <;> rfl

theorem run_hide [MessageLimit] (cfg : Cfg) (fuel : Nat) (t : TestCase) :
    run cfg fuel t = omapo (hide cfg.verbosity) (run (full cfg) fuel t) := by
  unfold run
  have e : (full cfg).maxTag = cfg.maxTag := rfl
  rw [e]
  cases Filter.forEachTag cfg.maxTag t.id.tags with
  | abort => rfl
  | ub => rfl
  | ok tags =>
    dsimp only
    have e : initState cfg t tags = hide cfg.verbosity (initState (full cfg) t tags) := by
      unfold initState
      exact emit_hide cfg 2 (.caseStarted t.id) (freshState t tags) rfl (by omega)
    rw [e, runLoop_hide]
    cases runLoop (full cfg) t.body.no fuel 0 (initState (full cfg) t tags) with
    | none => rfl
    | some o =>
      cases o with
      | abort => rfl
      | ub => rfl
      | ok x =>
        obtain ⟨s, r⟩ := x
        simp only [omapo, omap_ok, hideR, afterLoop_hide, checkShouldFail_hide, endCase]
        rw [← emit_hide cfg 2 _ _ rfl (by omega)]
        rfl

end Verif.Run
