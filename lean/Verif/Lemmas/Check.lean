import Verif.Lemmas.RunCase
/-! # One check, field by field -/
namespace Verif.Run
open Spec

variable {fl : Bool}

/-- Everything of the state that `reportAssertion` and friends do not decide. -/
structure SameRest (s s' : TS) : Prop where
  inCheck : s'.inCheck = s.inCheck
  unhandled : s'.unhandled = s.unhandled

theorem emit_fields (cfg : Cfg) (lvl : Nat) (e : Event) (s : TS) :
    (emit cfg lvl e s).info = s.info ∧ (emit cfg lvl e s).held = s.held ∧
    (emit cfg lvl e s).inCheck = s.inCheck ∧ (emit cfg lvl e s).unhandled = s.unhandled := by
  unfold emit
  split <;> exact ⟨rfl, rfl, rfl, rfl⟩

theorem setState_fields (n : CaseState) (s : TS) :
    (setState n s).info = s.info ∧ (setState n s).held = s.held ∧
    (setState n s).inCheck = s.inCheck ∧ (setState n s).unhandled = s.unhandled := by
  unfold setState
  split <;> exact ⟨rfl, rfl, rfl, rfl⟩

theorem registerAssertion_fields (ok : Bool) (s : TS) :
    (registerAssertion ok s).info = s.info.count ok (s.mayFail || s.shouldFail) ∧
    (registerAssertion ok s).held = s.held.map (Info.count ok (s.mayFail || s.shouldFail)) ∧
    (registerAssertion ok s).inCheck = s.inCheck ∧
    (registerAssertion ok s).unhandled = s.unhandled := by
  unfold registerAssertion
  cases ok with
  | true => exact ⟨rfl, rfl, rfl, rfl⟩
  | false =>
    dsimp only
    simp only [Bool.false_eq_true, if_false]
    split
    · exact setState_fields .allowedFail { s with
        asserts := s.asserts + 1, allowed := s.allowed + 1
        info := s.info.count false (s.mayFail || s.shouldFail)
        held := s.held.map (Info.count false (s.mayFail || s.shouldFail)) }
    · exact setState_fields .failed { s with
        asserts := s.asserts + 1, failures := s.failures + 1
        info := s.info.count false (s.mayFail || s.shouldFail)
        held := s.held.map (Info.count false (s.mayFail || s.shouldFail)) }

/-- What counting does to an `info_state`, unless the test is skipped. -/
def countUnless (ok : Bool) (s : TS) (i : Info) : Info :=
  if s.state = .skipped then i else i.count ok (s.mayFail || s.shouldFail)

theorem reportAssertion_fields (cfg : Cfg) (ok : Bool) (data : Text) (s : TS) :
    (reportAssertion cfg fl ok data s).info = countUnless ok s s.info ∧
    (reportAssertion cfg fl ok data s).held = s.held.map (countUnless ok s) ∧
    (reportAssertion cfg fl ok data s).inCheck = s.inCheck ∧
    (reportAssertion cfg fl ok data s).unhandled = s.unhandled := by
  have key : countUnless ok s = if s.state = .skipped then id else
      Info.count ok (s.mayFail || s.shouldFail) := by
    funext i; unfold countUnless; split <;> rfl
  unfold reportAssertion
  by_cases h : s.state = .skipped
  · simp only [h, if_true, key]
    cases s.held <;> simp
  · simp only [h, if_false, key]
    have r := registerAssertion_fields ok s
    cases ok with
    | true =>
      simp only [if_true]
      have e := emit_fields cfg 3 (.assertionSucceeded (assertionCtx fl (registerAssertion true s)) data)
        (registerAssertion true s)
      exact ⟨e.1.trans r.1, e.2.1.trans r.2.1, e.2.2.1.trans r.2.2.1, e.2.2.2.trans r.2.2.2⟩
    | false =>
      simp only [Bool.false_eq_true, if_false]
      have e := emit_fields cfg 0 (.assertionFailed (assertionCtx fl (registerAssertion false s)) data
        (registerAssertion false s).shouldFail (registerAssertion false s).mayFail)
        (registerAssertion false s)
      exact ⟨e.1.trans r.1, e.2.1.trans r.2.1, e.2.2.1.trans r.2.2.1, e.2.2.2.trans r.2.2.2⟩

theorem reportSkipped_fields (cfg : Cfg) (msg : Text) (s : TS) :
    (reportSkipped cfg msg s).info = s.info ∧ (reportSkipped cfg msg s).held = s.held ∧
    (reportSkipped cfg msg s).inCheck = s.inCheck ∧
    (reportSkipped cfg msg s).unhandled = s.unhandled := by
  unfold reportSkipped
  have r := setState_fields .skipped s
  have e := emit_fields cfg 0 (.caseSkipped
    { path := (setState .skipped s).info.sections.current.map (·.id)
      caps := (setState .skipped s).info.captures
      loc := ((setState .skipped s).info.locations.getLastD (0, .exact)).1
      locType := .exact } msg) (setState .skipped s)
  exact ⟨e.1.trans r.1, e.2.1.trans r.2.1, e.2.2.1.trans r.2.2.1, e.2.2.2.trans r.2.2.2⟩

@[simp] theorem count_locations (ok may : Bool) (i : Info) :
    (i.count ok may).locations = i.locations := rfl
@[simp] theorem count_captures (ok may : Bool) (i : Info) :
    (i.count ok may).captures = i.captures := rfl
@[simp] theorem count_ids (ok may : Bool) (i : Info) :
    (i.count ok may).sections.current.map (·.id) = i.sections.current.map (·.id) := by
  simp only [Info.count, List.map_map]
  apply List.map_congr_left
  intro x _
  simp only [Function.comp, Section.count]
  split
  · rfl
  · split <;> rfl

theorem assertionCtx_registered (ok : Bool) (s : TS) :
    assertionCtx fl (registerAssertion ok s) = assertionCtx fl s := by
  obtain ⟨h1, h2, h3, h4⟩ := registerAssertion_fields ok s
  unfold assertionCtx
  rw [h1, h2, h3, h4]
  cases s.held with
  | none => simp
  | some h => cases fl <;> cases s.unhandled <;> simp

/-- The context of an assertion at a place. -/
def ctxAt (i : Info) (loc : Nat) : Ctx :=
  { path := i.sections.current.map (·.id), caps := i.captures, loc := loc, locType := .exact }

/-- Append a location. -/
def Info.addLoc (i : Info) (l : Nat × LocType) : Info := { i with locations := i.locations ++ [l] }

theorem notify_none (cfg : Cfg) {s : TS} (h : s.held = none) : notify cfg s = s := by
  unfold notify; rw [h]

theorem arrive_none (cfg : Cfg) {s : TS} (h : s.held = none) : arrive cfg fl s = s := by
  cases fl with
  | false => exact notify_none cfg h
  | true => rfl

/-- Entering a check when no exception is held. -/
theorem checkEnter_ok {cfg : Cfg} {s : TS} (loc : Nat) (hh : s.held = none)
    (hr : s.info.locations.length < cfg.maxNested + 2) :
    checkEnter cfg fl loc s = .ok { s with info := s.info.addLoc (loc, .inCheck), inCheck := true } := by
  unfold checkEnter pushLocation
  rw [arrive_none cfg hh]
  simp only [hr, if_true, Outcome.bind_ok, Outcome.pure_eq]
  rfl

/-- Leaving a check. -/
theorem endCheck_ok {s : TS} (r : Res) (l : Nat × LocType) (i : Info) (hi : s.info = i.addLoc l)
    (hh : s.held = none) :
    endCheck false r s = .ok ({ s with
      info := i, inCheck := false
      held := if r = .normal then none else some s.info }, r) := by
  unfold endCheck checkLeave popLocation hold
  cases r with
  | normal =>
    simp [hh, hi, Info.addLoc]
  | raised e =>
    simp [hh, hi, Info.addLoc]

end Verif.Run
