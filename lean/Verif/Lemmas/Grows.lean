import Verif.Lemmas.Accounting
/-!
# The events reported are never taken back

Executing code only adds to the log, at every verbosity.
-/
namespace Verif.Run

variable {fl : Bool}

/-- `s'` has the events of `s`, then perhaps more. -/
def Grows (s s' : TS) : Prop := s.log <+: s'.log

theorem Grows.refl (s : TS) : Grows s s := List.prefix_refl _

theorem Grows.of_log {s s' : TS} (h : s'.log = s.log) : Grows s s' := by
  unfold Grows; rw [h]; exact List.prefix_refl _

theorem Grows.trans {a b c : TS} (h : Grows a b) (h' : Grows b c) : Grows a c := List.IsPrefix.trans h h'

theorem grows_emit (cfg : Cfg) (lvl : Nat) (e : Event) (s : TS) : Grows s (emit cfg lvl e s) := by
  unfold emit
  split
  · exact ⟨_, rfl⟩
  · exact Grows.refl s

theorem log_setState (n : CaseState) (s : TS) : (setState n s).log = s.log := by
  unfold setState
  split <;> rfl

theorem log_registerAssertion (ok : Bool) (s : TS) : (registerAssertion ok s).log = s.log := by
  unfold registerAssertion
  dsimp only
  split
  · rfl
  · split <;> rw [log_setState]

theorem grows_reportAssertion (cfg : Cfg) (ok : Bool) (data : Text) (s : TS) :
    Grows s (reportAssertion cfg fl ok data s) := by
  unfold reportAssertion
  split
  · exact Grows.refl s
  · dsimp only
    split
    · exact (Grows.of_log (log_registerAssertion ok s)).trans (grows_emit ..)
    · exact (Grows.of_log (log_registerAssertion ok s)).trans (grows_emit ..)

theorem grows_reportSkipped (cfg : Cfg) (msg : Text) (s : TS) : Grows s (reportSkipped cfg msg s) := by
  unfold reportSkipped
  exact (Grows.of_log (log_setState .skipped s)).trans (grows_emit ..)

theorem grows_closeHeld (cfg : Cfg) (l : List Section) (s : TS) :
    Grows s (closeHeld cfg l s) := by
  induction l generalizing s with
  | nil => exact Grows.refl s
  | cons x xs ih => exact (grows_emit cfg 2 _ s).trans (ih _)

theorem grows_notify (cfg : Cfg) (s : TS) : Grows s (notify cfg s) := by
  unfold notify
  split
  · exact Grows.refl s
  · exact (grows_closeHeld cfg _ s).trans (Grows.of_log rfl)

theorem grows_arrive (cfg : Cfg) (s : TS) : Grows s (arrive cfg fl s) := by
  cases fl with
  | false => exact grows_notify cfg s
  | true => exact Grows.refl s

theorem log_hold (u : Bool) (s : TS) : (hold u s).log = s.log := by
  unfold hold
  split <;> rfl

theorem grows_pushLocation {cfg : Cfg} {l} {s s' : TS} (h : pushLocation cfg l s = .ok s') :
    Grows s s' := by
  unfold pushLocation at h
  split at h
  · cases h; exact Grows.of_log rfl
  · cases h

theorem grows_popLocation {s s' : TS} (h : popLocation s = .ok s') : Grows s s' := by
  unfold popLocation at h
  split at h
  · cases h
  · cases h; exact Grows.of_log rfl

theorem grows_checkEnter {cfg : Cfg} {loc : Nat} {s s' : TS}
    (h : checkEnter cfg fl loc s = .ok s') : Grows s s' := by
  unfold checkEnter at h
  cases hp : pushLocation cfg (loc, .inCheck) (arrive cfg fl s) with
  | abort => simp [hp] at h
  | ub => simp [hp] at h
  | ok t =>
    simp only [hp, Outcome.bind_ok, Outcome.pure_eq, Outcome.ok.injEq] at h
    subst h
    exact ((grows_arrive cfg s).trans (grows_pushLocation hp)).trans (Grows.of_log rfl)

theorem grows_endCheck {r : Res} {s : TS} {x : TS × Res} (h : endCheck fl r s = .ok x) :
    Grows s x.1 ∧ x.2 = r := by
  unfold endCheck checkLeave at h
  obtain ⟨t, hp, h⟩ := bind_eq_ok h
  cases h
  exact ⟨(Grows.of_log (by rw [log_hold])).trans (grows_popLocation hp), rfl⟩

theorem grows_answer [MessageLimit] {cfg : Cfg} {a : Ask} {ev : Option Exn} {s : TS} {x : TS × Res}
    (h : answer cfg fl a ev s = .ok x) : Grows s x.1 := by
  have report : ∀ {ok d r}, endCheck fl r (reportAssertion cfg fl ok d s) = .ok x → Grows s x.1 :=
    fun h => (grows_reportAssertion cfg _ _ _).trans (grows_endCheck h).1
  have caught : ∀ {ok d r}, endCheck fl r (notify cfg (reportAssertion cfg fl ok d s)) = .ok x →
      Grows s x.1 :=
    fun h => (grows_reportAssertion cfg _ _ _).trans ((grows_notify cfg _).trans (grows_endCheck h).1)
  cases a with
  | check ok abort data =>
    cases ev with
    | some e => exact (grows_endCheck h).1
    | none => exact report h
  | throwsAs type name abort =>
    cases ev with
    | none => exact report h
    | some e =>
      simp only [answer] at h
      split at h
      · exact caught h
      · exact caught h
  | throwsMatches type name matched desc abort =>
    cases ev with
    | none => exact report h
    | some e =>
      simp only [answer] at h
      split at h
      · split at h
        · exact caught h
        · exact caught h
      · exact caught h
  | nothrow text abort =>
    cases ev with
    | none => exact report h
    | some e => exact caught h

theorem grows_execStmt [MessageLimit] {cfg : Cfg} {m : Stmt} {s : TS} {x : TS × Res}
    (h : execStmt cfg fl m s = .ok x) : Grows s x.1 := by
  rcases m.kinds with ⟨a, rfl⟩ | ⟨e, rfl⟩ | rfl | ⟨loc, abort, msg, rfl⟩ | ⟨loc, a, ev, hm⟩
  · cases h
    exact ⟨_, rfl⟩
  · cases h; exact Grows.refl s
  · cases h; exact grows_notify cfg s
  · unfold execStmt at h
    obtain ⟨t, ht, h⟩ := bind_eq_ok h
    exact (grows_checkEnter ht).trans ((grows_reportSkipped cfg _ _).trans (grows_endCheck h).1)
  · rw [execStmt_asks hm] at h
    obtain ⟨t, ht, h⟩ := bind_eq_ok h
    exact (grows_checkEnter ht).trans (grows_answer h)

theorem grows_enterSection {cfg : Cfg} {id loc : Nat} {s : TS} {x : TS × Bool}
    (h : enterSection cfg fl id loc s = .ok x) : Grows s x.1 := by
  unfold enterSection at h
  obtain ⟨y, hy, h⟩ := bind_eq_ok h
  refine (grows_arrive (fl := fl) cfg s).trans ?_
  unfold enterLevel at h
  dsimp only at h
  split at h
  · cases h
  · split at h
    · cases h; exact Grows.of_log rfl
    · split at h
      · cases h; exact Grows.of_log rfl
      · unfold startSection at h
        split at h
        · cases h
        · obtain ⟨t, ht, h⟩ := bind_eq_ok h
          refine ((Grows.of_log rfl).trans (grows_pushLocation ht)).trans ?_
          cases h
          dsimp only
          split
          · exact grows_emit cfg 2 _ _
          · exact Grows.refl t

theorem grows_leaveSection {cfg : Cfg} {en u : Bool} {s s' : TS}
    (h : leaveSection cfg en u s = .ok s') : Grows s s' := by
  unfold leaveSection at h
  split at h
  · obtain ⟨t, ht, h⟩ := bind_eq_ok h
    cases h
    refine Grows.trans ?_ (Grows.of_log (s := t) rfl)
    unfold leaveEntered at ht
    obtain ⟨p, hp, ht⟩ := bind_eq_ok ht
    refine ((Grows.of_log (log_hold u s)).trans (grows_popLocation hp)).trans ?_
    dsimp only at ht
    split at ht
    · cases ht
    · cases ht
      split
      · rename_i back _ _
        exact Grows.trans (Grows.trans (Grows.of_log (s' := setSections (finishLevel p.info.sections).1 p) rfl)
          (grows_emit cfg 2 (.sectionEnded back.id _ back.asserts back.failures back.allowed) _))
          (Grows.of_log (s := reportSectionEnded cfg back (setSections (finishLevel p.info.sections).1 p)) rfl)
      · exact Grows.of_log rfl
  · cases h
    exact Grows.of_log rfl

theorem grows_addCaptures {cfg : Cfg} {l : List Text} {s s' : TS}
    (h : addCaptures cfg fl l s = .ok s') : Grows s s' := by
  induction l generalizing s with
  | nil => cases h; exact Grows.refl _
  | cons c cs ih =>
    unfold addCaptures at h
    split at h
    · cases h
    · exact ((grows_arrive cfg s).trans
        (Grows.of_log (s' := pushCapture c (arrive cfg fl s)) rfl)).trans (ih h)

theorem grows_popCaptures {n : Nat} {u : Bool} {s s' : TS} (h : popCaptures n u s = .ok s') :
    Grows s s' := by
  unfold popCaptures at h
  dsimp only at h
  split at h
  · cases h
    exact (Grows.of_log (log_hold u s)).trans (Grows.of_log rfl)
  · cases h

theorem grows_exec [MessageLimit] {cfg : Cfg} {K : Prog} {s : TS} {x : TS × Res}
    (h : exec cfg fl K s = .ok x) : Grows s x.1 := by
  induction K generalizing fl s x with
  | done => cases h; exact Grows.refl s
  | stmt m k ih =>
    unfold exec at h
    obtain ⟨⟨t, r⟩, ht, h⟩ := bind_eq_ok h
    refine (grows_execStmt ht).trans ?_
    cases r with
    | normal => exact ih h
    | raised e => cases h; exact Grows.refl t
  | sec id loc b k ihb ihk =>
    unfold exec at h
    obtain ⟨⟨t, en⟩, ht, h⟩ := bind_eq_ok h
    refine (grows_enterSection ht).trans ?_
    cases en with
    | false =>
      simp only [Bool.false_eq_true, if_false] at h
      obtain ⟨u, hu, h⟩ := bind_eq_ok h
      exact (grows_leaveSection hu).trans (ihk h)
    | true =>
      simp only [if_true] at h
      obtain ⟨⟨u, r⟩, hu, h⟩ := bind_eq_ok h
      obtain ⟨w, hw, h⟩ := bind_eq_ok h
      refine ((ihb hu).trans (grows_leaveSection hw)).trans ?_
      cases r with
      | normal => exact ihk h
      | raised e => cases h; exact Grows.refl w
  | capture caps k ih =>
    unfold exec at h
    obtain ⟨t, ht, h⟩ := bind_eq_ok h
    obtain ⟨⟨u, r⟩, hu, h⟩ := bind_eq_ok h
    obtain ⟨w, hw, h⟩ := bind_eq_ok h
    cases h
    exact ((grows_addCaptures ht).trans (ih hu)).trans (grows_popCaptures hw)
  | block b k ihb ihk =>
    unfold exec at h
    obtain ⟨⟨t, r⟩, ht, h⟩ := bind_eq_ok h
    refine (ihb ht).trans ?_
    cases r with
    | normal => exact ihk h
    | raised e => cases h; exact Grows.refl t
  | tryCatch ty b hd k ihb ihh ihk =>
    unfold exec at h
    obtain ⟨⟨t, r⟩, ht, h⟩ := bind_eq_ok h
    refine (ihb ht).trans ?_
    cases r with
    | normal => exact ihk h
    | raised e =>
      dsimp only at h
      split at h
      · obtain ⟨⟨u, r⟩, hu, h⟩ := bind_eq_ok h
        refine (ihh hu).trans ?_
        cases r with
        | normal => exact ihk h
        | raised e => cases h; exact Grows.refl u
      · cases h; exact Grows.refl t
  | nested loc o ask k iho ihk =>
    unfold exec at h
    obtain ⟨t, ht, h⟩ := bind_eq_ok h
    obtain ⟨⟨u, r⟩, hu, h⟩ := bind_eq_ok h
    obtain ⟨⟨w, r'⟩, hw, h⟩ := bind_eq_ok h
    refine ((grows_checkEnter ht).trans (iho hu)).trans ((grows_answer hw).trans ?_)
    cases r' with
    | normal => exact ihk h
    | raised e => cases h; exact Grows.refl w
  | guard c k ihc ihk =>
    unfold exec at h
    obtain ⟨⟨t, r⟩, ht, h⟩ := bind_eq_ok h
    obtain ⟨⟨u, r'⟩, hu, h⟩ := bind_eq_ok h
    cases r' with
    | normal =>
      cases h
      exact (ihk ht).trans (ihc hu (x := (u, .normal)))
    | raised e => cases h

end Verif.Run
