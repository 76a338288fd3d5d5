import Verif.Model.Timing
/-! # Running tests with a clock does the same as without -/
namespace Verif.Timing
open Verif.Run

/-- Apply a function to the result of a call. -/
def er {α β : Type} (e : α → β) (x : Outcome α) : Outcome β := x >>= fun a => .ok (e a)

@[simp] theorem er_ok {α β : Type} (e : α → β) (a : α) : er e (.ok a) = .ok (e a) := rfl
@[simp] theorem er_abort {α β : Type} (e : α → β) : er e (.abort : Outcome α) = .abort := rfl
@[simp] theorem er_ub {α β : Type} (e : α → β) : er e (.ub : Outcome α) = .ub := rfl

theorem er_bind {α β α' β' : Type} {e : α → α'} {e' : β → β'} {x : Outcome α} {y : Outcome α'} (h : er e x = y)
    {f : α → Outcome β} {g : α' → Outcome β'} (hf : ∀ a, x = .ok a → er e' (f a) = g (e a)) :
    er e' (x >>= f) = (y >>= g) := by
  subst h
  cases x with
  | ok a => exact hf a rfl
  | abort => rfl
  | ub => rfl

/-- Forget the time. -/
def bare (x : Timed × Res) : TS × Res := (x.1.ts, x.2)

@[simp] theorem bare_mk (s : Timed) (r : Res) : bare (s, r) = (s.ts, r) := rfl

@[simp] theorem lift_ts (f : TS → TS) (s : Timed) : (lift f s).ts = f s.ts := rfl
@[simp] theorem lift_watch (f : TS → TS) (s : Timed) : (lift f s).watch = s.watch := rfl
@[simp] theorem notify_ts (clock : Nat → Nat) (cfg : Cfg) (s : Timed) : (notify clock cfg s).ts = Run.notify cfg s.ts := rfl
@[simp] theorem hold_ts (u : Bool) (s : Timed) : (hold u s).ts = Run.hold u s.ts := rfl
@[simp] theorem arrive_ts (clock : Nat → Nat) (cfg : Cfg) (fl : Bool) (s : Timed) :
    (arrive clock cfg fl s).ts = Run.arrive cfg fl s.ts := by cases fl <;> rfl

theorem er_liftOk (f : TS → Outcome TS) (s : Timed) : er Timed.ts (liftOk f s) = f s.ts := by
  unfold liftOk
  cases f s.ts <;> rfl

theorem er_checkEnter (clock : Nat → Nat) (cfg : Cfg) (fl : Bool) (loc : Nat) (s : Timed) :
    er Timed.ts (checkEnter clock cfg fl loc s) = Run.checkEnter cfg fl loc s.ts := by
  unfold checkEnter Run.checkEnter
  refine er_bind (by rw [er_liftOk, arrive_ts]) fun a _ => rfl

theorem er_checkLeave (u : Bool) (s : Timed) : er Timed.ts (checkLeave u s) = Run.checkLeave u s.ts := by
  unfold checkLeave Run.checkLeave
  rw [er_liftOk]
  rfl

theorem er_endCheck (fl : Bool) (r : Res) (s : Timed) : er bare (endCheck fl r s) = Run.endCheck fl r s.ts := by
  unfold endCheck Run.endCheck
  exact er_bind (er_checkLeave _ _) fun a _ => rfl

variable [MessageLimit]

theorem er_answer (clock : Nat → Nat) (cfg : Cfg) (fl : Bool) (ask : Ask) (ev : Option Exn) (s : Timed) :
    er bare (answer clock cfg fl ask ev s) = Run.answer cfg fl ask ev s.ts := by
  unfold answer Run.answer
  cases ask with
  | check ok abort data => cases ev <;> simp only [report, er_endCheck] <;> rfl
  | throwsAs type name abort =>
    cases ev with
    | none => simp only [report, er_endCheck]; rfl
    | some e =>
      cases h : e.types.contains type <;>
        (simp only [report, h, Bool.false_eq_true, ↓reduceIte, er_endCheck]; rfl)
  | throwsMatches type name matched desc abort =>
    cases ev with
    | none => simp only [report, er_endCheck]; rfl
    | some e =>
      cases h : e.types.contains type <;> cases matched <;>
        (simp only [report, h, Bool.false_eq_true, Bool.not_false, Bool.not_true, ↓reduceIte, er_endCheck]; rfl)
  | nothrow text abort => cases ev <;> simp only [report, er_endCheck] <;> rfl

theorem er_execStmt (clock : Nat → Nat) (cfg : Cfg) (fl : Bool) (m : Stmt) (s : Timed) :
    er bare (execStmt clock cfg fl m s) = Run.execStmt cfg fl m s.ts := by
  rcases m.kinds with ⟨a, rfl⟩ | ⟨e, rfl⟩ | rfl | ⟨loc, abort, msg, rfl⟩ | ⟨loc, a, ev, h⟩
  · rfl
  · rfl
  · rfl
  · refine er_bind (er_checkEnter clock cfg fl loc s) fun a _ => ?_
    rw [er_endCheck]
    rfl
  · rw [execStmt_asks h]
    unfold execStmt
    rw [h]
    exact er_bind (er_checkEnter clock cfg fl loc s) fun a _ => er_answer ..

omit [MessageLimit] in
theorem er_enterSection (clock : Nat → Nat) (cfg : Cfg) (fl : Bool) (id loc : Nat) (s : Timed) :
    er (fun x : Timed × Bool => (x.1.ts, x.2)) (enterSection clock cfg fl id loc s) =
      Run.enterSection cfg fl id loc s.ts := by
  unfold enterSection Run.enterSection
  dsimp only
  rw [arrive_ts]
  cases ensureLevel cfg (Run.arrive cfg fl s.ts).info.sections with
  | ok x =>
    dsimp only [Outcome.bind_ok]
    cases enterLevel cfg id loc x (Run.arrive cfg fl s.ts) <;> rfl
  | abort => rfl
  | ub => rfl

omit [MessageLimit] in
theorem hold_again (u : Bool) (s : TS) : Run.hold u (Run.hold u s) = Run.hold u s := by
  unfold Run.hold
  cases u <;> cases h : s.held <;> simp [h]

omit [MessageLimit] in
theorem er_leaveEntered (clock : Nat → Nat) (cfg : Cfg) (u : Bool) (s : Timed) :
    er Timed.ts (leaveEntered clock cfg u s) = Run.leaveEntered cfg u s.ts := by
  have h : Run.leaveEntered cfg u (Run.hold u s.ts) = Run.leaveEntered cfg u s.ts := by
    unfold Run.leaveEntered
    rw [hold_again]
  unfold leaveEntered
  dsimp only
  rw [hold_ts, h]
  cases Run.leaveEntered cfg u s.ts <;> rfl

omit [MessageLimit] in
theorem er_leaveSection (clock : Nat → Nat) (cfg : Cfg) (en u : Bool) (s : Timed) :
    er Timed.ts (leaveSection clock cfg en u s) = Run.leaveSection cfg en u s.ts := by
  unfold leaveSection Run.leaveSection
  cases en
  · rfl
  · exact er_bind (er_leaveEntered clock cfg u s) fun a _ => rfl

omit [MessageLimit] in
theorem er_addCaptures (clock : Nat → Nat) (cfg : Cfg) (fl : Bool) (cs : List Text) : ∀ s : Timed,
    er Timed.ts (addCaptures clock cfg fl cs s) = Run.addCaptures cfg fl cs s.ts := by
  induction cs with
  | nil => intro s; rfl
  | cons c cs ih =>
    intro s
    unfold addCaptures Run.addCaptures
    split
    · rfl
    · rw [ih, lift_ts, arrive_ts]

omit [MessageLimit] in
theorem er_popCaptures (count : Nat) (u : Bool) (s : Timed) :
    er Timed.ts (popCaptures count u s) = Run.popCaptures count u s.ts := by
  have h : Run.popCaptures count false (Run.hold u s.ts) = Run.popCaptures count u s.ts := rfl
  unfold popCaptures
  dsimp only
  rw [hold_ts, h]
  cases Run.popCaptures count u s.ts <;> rfl

/-- Executing a body with a clock does the same as without. -/
theorem er_exec (clock : Nat → Nat) (cfg : Cfg) (p : Prog) : ∀ (fl : Bool) (s : Timed),
    er bare (exec clock cfg fl p s) = Run.exec cfg fl p s.ts := by
  induction p with
  | done => intro fl s; rfl
  | stmt m k ih =>
    intro fl s
    unfold exec Run.exec
    refine er_bind (er_execStmt clock cfg fl m s) ?_
    rintro ⟨s, r⟩ -
    cases r
    · exact ih fl s
    · rfl
  | sec id loc b k ihb ihk =>
    intro fl s
    unfold exec Run.exec
    refine er_bind (er_enterSection clock cfg fl id loc s) ?_
    rintro ⟨s, en⟩ -
    cases en
    · exact er_bind (er_leaveSection clock cfg false fl s) fun s _ => ihk fl s
    · refine er_bind (ihb fl s) ?_
      rintro ⟨s, r⟩ -
      refine er_bind (er_leaveSection clock cfg true _ s) fun s _ => ?_
      cases r
      · exact ihk fl s
      · rfl
  | capture caps k ih =>
    intro fl s
    unfold exec Run.exec
    refine er_bind (er_addCaptures clock cfg fl caps s) fun s _ => ?_
    refine er_bind (ih fl s) ?_
    rintro ⟨s, r⟩ -
    exact er_bind (er_popCaptures _ _ s) fun s _ => rfl
  | block b k ihb ihk =>
    intro fl s
    unfold exec Run.exec
    refine er_bind (ihb fl s) ?_
    rintro ⟨s, r⟩ -
    cases r
    · exact ihk fl s
    · rfl
  | tryCatch type b h k ihb ihh ihk =>
    intro fl s
    unfold exec Run.exec
    refine er_bind (ihb fl s) ?_
    rintro ⟨s, r⟩ -
    cases r with
    | normal => exact ihk fl s
    | raised e =>
      dsimp only [bare]
      split
      · refine er_bind (ihh fl s) ?_
        rintro ⟨s, r⟩ -
        cases r
        · exact ihk fl s
        · rfl
      · rfl
  | nested loc o a k iho ihk =>
    intro fl s
    unfold exec Run.exec
    refine er_bind (er_checkEnter clock cfg fl loc s) fun s _ => ?_
    refine er_bind (iho fl s) ?_
    rintro ⟨s, r⟩ -
    refine er_bind (er_answer clock cfg fl a r.thrown s) ?_
    rintro ⟨s, r⟩ -
    cases r
    · exact ihk fl s
    · rfl
  | guard c k ihc ihk =>
    intro fl s
    unfold exec Run.exec
    refine er_bind (ihk fl s) ?_
    rintro ⟨s, r⟩ -
    refine er_bind (ihc _ s) ?_
    rintro ⟨s, r'⟩ -
    cases r' <;> rfl

omit [MessageLimit] in
theorem clearFinished_ts (s : Timed) : (clearFinished s).ts = Run.clearFinished s.ts := rfl

theorem er_runLoop (clock : Nat → Nat) (cfg : Cfg) (bodies : Nat → Prog) (fuel : Nat) : ∀ (n : Nat) (s : Timed),
    (runLoop clock cfg bodies fuel n s).map (er bare) = Run.runLoop cfg bodies fuel n s.ts := by
  induction fuel with
  | zero => intro n s; rfl
  | succ fuel ih =>
    intro n s
    unfold runLoop Run.runLoop
    have h := er_exec clock cfg (bodies n) false (lift resetPass s)
    rw [lift_ts] at h
    rw [← h]
    rcases exec clock cfg false (bodies n) (lift resetPass s) with ⟨s', r⟩ | _ | _
    · cases r with
      | normal =>
        dsimp only [er_ok, bare]
        rw [← clearFinished_ts]
        split
        · exact ih _ _
        · rfl
      | raised e => rfl
    · rfl
    · rfl

omit [MessageLimit] in
theorem settle_ts (clock : Nat → Nat) (cfg : Cfg) (s : Timed) : (settle clock cfg s).ts = Run.settle cfg s.ts := by
  cases h : s.ts.unhandled <;> simp [h, settle, Run.settle]

theorem afterLoop_ts (clock : Nat → Nat) (cfg : Cfg) (s : Timed) (r : Res) :
    (afterLoop clock cfg s r).ts = Run.afterLoop cfg s.ts r := settle_ts ..

/-- Running a test with a clock does the same as without. -/
theorem er_run (clock : Nat → Nat) (n : Nat) (cfg : Cfg) (fuel : Nat) (t : TestCase) :
    (run clock n cfg fuel t).map (er Ran.ts) = Run.run cfg fuel t := by
  unfold run Run.run
  cases Filter.forEachTag cfg.maxTag t.id.tags with
  | abort => rfl
  | ub => rfl
  | ok tags =>
    dsimp only
    have h := er_runLoop clock cfg t.body.no fuel 0 { ts := initState cfg t tags, watch := { reads := n + 1 } }
    dsimp only at h
    rw [← h]
    rcases runLoop clock cfg t.body.no fuel 0 { ts := initState cfg t tags, watch := { reads := n + 1 } } with
      _ | ⟨s, r⟩ | _ | _
    · rfl
    · dsimp only [Option.map_some, er_ok, bare, lift_ts]
      rw [afterLoop_ts]
    · rfl
    · rfl

theorem er_runEach (clock : Nat → Nat) (lim : Reg.Limits) (fuel : Nat) (pred : Filter.TestId → Outcome Bool)
    (cases : List Reg.Case) : ∀ a : Acc,
    (runEach clock lim fuel pred cases a).map (er Acc.acc) = Reg.runEach lim fuel pred cases a.acc := by
  induction cases with
  | nil => intro a; rfl
  | cons c cs ih =>
    intro a
    unfold runEach Reg.runEach
    cases pred c.test.id with
    | abort => rfl
    | ub => rfl
    | ok b =>
      cases b with
      | false => exact ih _
      | true =>
        dsimp only
        rw [← er_run clock a.reads lim.cfg fuel c.test]
        rcases run clock a.reads lim.cfg fuel c.test with _ | r | _ | _
        · rfl
        · exact ih _
        · rfl
        · rfl

/-- What a run does to the registry, tells and returns. -/
def RunTimes.bare (r : RunTimes) : List Reg.Case × List Run.Event × Bool := (r.cases, r.log, r.success)

/-- A run with a clock does the same as without. -/
theorem er_runSelected (clock : Nat → Nat) (n : Nat) (lim : Reg.Limits) (fuel : Nat)
    (pred : Filter.TestId → Outcome Bool) (cases : List Reg.Case) :
    (runSelected clock n lim fuel pred cases).map (er RunTimes.bare) = Reg.runSelected lim fuel pred cases := by
  unfold runSelected Reg.runSelected
  rw [← er_runEach clock lim fuel pred cases { acc := { log := Reg.shown lim 1 .runStarted }, reads := n + 1 }]
  rcases runEach clock lim fuel pred cases { acc := { log := Reg.shown lim 1 .runStarted }, reads := n + 1 } with
    _ | a | _ | _ <;> rfl

end Verif.Timing
