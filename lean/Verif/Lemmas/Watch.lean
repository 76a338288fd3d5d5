import Verif.Lemmas.Timing
import Verif.Spec.Timing
/-! # What happens to the watch -/
namespace Verif.Timing
open Verif.Run Spec

/-- The open sections. -/
def ids (i : Info) : List Nat := i.sections.current.map (·.id)

/-- What happens to the state without any section being entered or left, and without the end of one being told. -/
structure Still (s s' : TS) : Prop where
  here : ids s'.info = ids s.info
  held : s'.held.map ids = s.held.map ids
  log : endedIn s'.log = endedIn s.log

theorem Still.refl (s : TS) : Still s s := ⟨rfl, rfl, rfl⟩
theorem Still.trans {a b c : TS} (h : Still a b) (h' : Still b c) : Still a c :=
  ⟨h'.here.trans h.here, h'.held.trans h.held, h'.log.trans h.log⟩

theorem endedIn_append (a b : List Run.Event) : endedIn (a ++ b) = endedIn a ++ endedIn b := by
  simp [endedIn, List.filterMap_append]

theorem still_emit (cfg : Cfg) (lvl : Nat) (e : Run.Event) (he : endedIn [e] = []) (s : TS) : Still s (emit cfg lvl e s) := by
  unfold emit
  split
  · exact ⟨rfl, rfl, by simp [endedIn_append, he]⟩
  · exact .refl s

theorem ids_count (b m : Bool) (i : Info) : ids (i.count b m) = ids i := by
  unfold ids Info.count
  simp only [List.map_map]
  congr 1
  funext x
  simp only [Function.comp, Section.count]
  split
  · rfl
  · split <;> rfl

theorem still_setState (n : CaseState) (s : TS) : Still s (setState n s) := by
  unfold setState
  split
  · exact ⟨rfl, rfl, rfl⟩
  · exact .refl s

theorem still_register (b : Bool) (s : TS) : Still s (registerAssertion b s) := by
  unfold registerAssertion
  have h : (ids ∘ Info.count b (s.mayFail || s.shouldFail)) = ids := funext fun i => ids_count ..
  dsimp only
  split
  · exact ⟨ids_count .., by simp [h], rfl⟩
  · split
    · exact Still.trans (b := { s with
          asserts := s.asserts + 1
          info := s.info.count b (s.mayFail || s.shouldFail)
          held := s.held.map (Info.count b (s.mayFail || s.shouldFail))
          allowed := s.allowed + 1 }) ⟨ids_count .., by simp [h], rfl⟩ (still_setState _ _)
    · exact Still.trans (b := { s with
          asserts := s.asserts + 1
          info := s.info.count b (s.mayFail || s.shouldFail)
          held := s.held.map (Info.count b (s.mayFail || s.shouldFail))
          failures := s.failures + 1 }) ⟨ids_count .., by simp [h], rfl⟩ (still_setState _ _)

theorem still_report (cfg : Cfg) (fl b : Bool) (d : Text) (s : TS) : Still s (reportAssertion cfg fl b d s) := by
  unfold reportAssertion
  split
  · exact .refl s
  · dsimp only
    split
    · exact (still_register b s).trans (still_emit _ _ _ rfl _)
    · exact (still_register b s).trans (still_emit _ _ _ rfl _)

theorem still_skipped (cfg : Cfg) (m : Text) (s : TS) : Still s (reportSkipped cfg m s) :=
  (still_setState _ s).trans (still_emit _ _ _ rfl _)

theorem still_push {cfg : Cfg} {l : Nat × LocType} {s s' : TS} (h : pushLocation cfg l s = .ok s') : Still s s' := by
  unfold pushLocation at h
  split at h
  · cases h; exact ⟨rfl, rfl, rfl⟩
  · cases h

theorem still_pop {s s' : TS} (h : popLocation s = .ok s') : Still s s' := by
  unfold popLocation at h
  split at h
  · cases h
  · cases h; exact ⟨rfl, rfl, rfl⟩

theorem still_popCaptures {n : Nat} {s s' : TS} (h : Run.popCaptures n false s = .ok s') : Still s s' := by
  unfold Run.popCaptures at h
  rw [show Run.hold false s = s from rfl] at h
  dsimp only at h
  split at h
  · cases h; exact ⟨rfl, rfl, rfl⟩
  · cases h

theorem still_decDepth (s : TS) : Still s (decDepth s) := ⟨rfl, rfl, rfl⟩
theorem still_resetPass (s : TS) : Still s (resetPass s) := ⟨rfl, rfl, rfl⟩
theorem still_pushCapture (c : Text) (s : TS) : Still s (pushCapture c s) := ⟨rfl, rfl, rfl⟩
theorem still_inCheck (b : Bool) (s : TS) : Still s (setInCheck b s) := ⟨rfl, rfl, rfl⟩
theorem still_unhandled (b : Bool) (s : TS) : Still s (setUnhandled b s) := ⟨rfl, rfl, rfl⟩
theorem still_shouldFail (b : Bool) (s : TS) : Still s (setShouldFail b s) := ⟨rfl, rfl, rfl⟩

theorem still_reportEnd [MessageLimit] (cfg : Cfg) (s : TS) (r : Res) : Still s (reportEnd cfg s r) := by
  unfold reportEnd
  cases r with
  | normal => exact ((still_inCheck true s).trans (still_report ..)).trans (still_inCheck false _)
  | raised e =>
    dsimp only
    split
    · exact still_unhandled true s
    · exact (still_unhandled true s).trans (still_report ..)

theorem still_checkShouldFail (cfg : Cfg) (s : TS) : Still s (checkShouldFail cfg s) := by
  unfold checkShouldFail
  split
  · exact ((((still_shouldFail false s).trans (still_inCheck true _)).trans (still_report ..)).trans
      (still_inCheck false _)).trans (still_shouldFail true _)
  · exact .refl s

theorem still_clearFinished {s : TS} (h : ids s.info = []) : Still s (Run.clearFinished s) := by
  unfold Run.clearFinished
  split
  · split
    · refine ⟨?_, rfl, rfl⟩
      rw [h]
      rfl
    · exact .refl s
  · exact .refl s

/-- The ends of the sections left by an exception are told from the innermost on. -/
theorem closeHeld_ids (cfg : Cfg) (xs : List Section) : ∀ s : TS,
    ids (closeHeld cfg xs s).info = ids s.info ∧ (closeHeld cfg xs s).held = s.held ∧
    endedIn (closeHeld cfg xs s).log = endedIn s.log ++ (if cfg.verbosity ≥ 2 then xs.map (fun x => What.section x.id) else []) := by
  induction xs with
  | nil => intro s; simp [closeHeld]
  | cons x xs ih =>
    intro s
    unfold closeHeld
    obtain ⟨h1, h2, h3⟩ := ih (reportSectionEnded cfg x s)
    rw [h1, h2, h3]
    unfold reportSectionEnded emit
    split
    · refine ⟨rfl, rfl, ?_⟩
      simp [endedIn_append, show ∀ a b c d e, endedIn [.sectionEnded a b c d e] = [.section a] from fun _ _ _ _ _ => rfl]
    · exact ⟨rfl, rfl, by simp⟩

theorem notify_ids (cfg : Cfg) (s : TS) :
    ids (Run.notify cfg s).info = ids s.info ∧ (Run.notify cfg s).held = none ∧
    endedIn (Run.notify cfg s).log = endedIn s.log ++
      (if cfg.verbosity ≥ 2 then
        match s.held with
        | none => []
        | some h => ((ids h).drop (ids s.info).length).reverse.map .section
      else []) := by
  unfold Run.notify
  cases hh : s.held with
  | none => simp [hh]
  | some h =>
    obtain ⟨h1, h2, h3⟩ := closeHeld_ids cfg (h.sections.current.drop s.info.sections.current.length).reverse s
    refine ⟨h1, rfl, ?_⟩
    dsimp only
    rw [h3]
    simp [ids, List.map_reverse, List.map_drop, Function.comp_def]

theorem hold_ids (u : Bool) (s : TS) :
    (Run.hold u s).info = s.info ∧ (Run.hold u s).log = s.log ∧
    (Run.hold u s).held = (if u && s.held.isNone then some s.info else s.held) := by
  unfold Run.hold
  split <;> simp [*]

/-- Entering a section, or not. -/
theorem enterLevel_ids {cfg : Cfg} {id loc : Nat} {x x' : SecState} {s s' : TS} {en : Bool}
    (hx : ensureLevel cfg x = .ok x') (h : enterLevel cfg id loc x' s = .ok (s', en)) (hc : x = s.info.sections) :
    s'.held = s.held ∧ endedIn s'.log = endedIn s.log ∧
    ids s'.info = if en then ids s.info ++ [id] else ids s.info := by
  have hcur : x'.current = s.info.sections.current := by
    unfold ensureLevel at hx
    subst hc
    split at hx
    · split at hx
      · cases hx
      · split at hx
        · cases hx
        · cases hx; rfl
    · cases hx; rfl
  unfold enterLevel at h
  dsimp only at h
  split at h
  · cases h
  · split at h
    · cases h
      exact ⟨rfl, rfl, by simp [ids, setSections, hcur]⟩
    · split at h
      · cases h
        exact ⟨rfl, rfl, by simp [ids, setSections, hcur]⟩
      · unfold startSection at h
        split at h
        · cases h
        · rename_i level _ _ _ _
          generalize hp : pushLocation cfg (loc, .sectionScope) (setSections _ s) = o at h
          cases o with
          | abort => cases h
          | ub => cases h
          | ok s1 =>
            have hs := still_push hp
            simp only [Outcome.bind_ok, Outcome.pure_eq, Outcome.ok.injEq, Prod.mk.injEq] at h
            obtain ⟨h1, rfl⟩ := h
            have hh : s1.held = s.held := by
              unfold pushLocation at hp
              split at hp
              · cases hp; rfl
              · cases hp
            have h2 : ids s1.info = ids s.info ++ [id] := by
              rw [hs.here]
              simp [ids, setSections, hcur]
            have h3 : endedIn s1.log = endedIn s.log := hs.log
            subst h1
            split
            · unfold reportSectionStarted emit
              split
              · refine ⟨hh, ?_, h2⟩
                simp [endedIn_append, h3, show ∀ a, endedIn [.sectionStarted a] = [] from fun _ => rfl]
              · exact ⟨hh, h3, h2⟩
            · exact ⟨hh, h3, h2⟩

theorem finishLevel_current (x : SecState) : (finishLevel x).1.current = x.current := by
  unfold finishLevel
  split
  · rfl
  · split <;> rfl

/-- Leaving a section. -/
theorem leaveEntered_ids {cfg : Cfg} {u : Bool} {s s' : TS} (h : Run.leaveEntered cfg u s = .ok s') :
    ∃ outer last, ids s.info = outer ++ [last] ∧ ids s'.info = outer ∧ s'.held = (Run.hold u s).held ∧
      endedIn s'.log = endedIn s.log ++
        (if (finishLevel s.info.sections).2 && !u && decide (cfg.verbosity ≥ 2) then [.section last] else []) := by
  unfold Run.leaveEntered at h
  generalize hp : popLocation (Run.hold u s) = o at h
  cases o with
  | abort => cases h
  | ub => cases h
  | ok s1 =>
    obtain ⟨hi, hl, -⟩ := hold_ids u s
    have hsec : s1.info.sections = s.info.sections ∧ s1.log = s.log ∧ s1.held = (Run.hold u s).held := by
      unfold popLocation at hp
      split at hp
      · cases hp
      · cases hp
        exact ⟨by rw [hi], hl, rfl⟩
    obtain ⟨hsec, hl1, hh1⟩ := hsec
    dsimp only [Outcome.bind_ok] at h
    rw [hsec, finishLevel_current] at h
    cases hb : s.info.sections.current.getLast? with
    | none => rw [hb] at h; cases h
    | some back =>
      rw [hb] at h
      have hcur : s.info.sections.current = s.info.sections.current.dropLast ++ [back] := by
        obtain ⟨ys, hys⟩ := List.getLast?_eq_some_iff.mp hb
        rw [hys]
        simp
      refine ⟨s.info.sections.current.dropLast.map (·.id), back.id, ?_, ?_⟩
      · unfold ids
        conv => lhs; rw [hcur]
        simp
      · dsimp only at h
        cases hf : ((finishLevel s.info.sections).2 && !u) with
        | false =>
          rw [hf] at h
          cases h
          refine ⟨?_, hh1, ?_⟩
          · simp [ids, setSections, finishLevel_current]
          · simp [setSections, hl1]
        | true =>
          rw [hf] at h
          cases h
          simp only [↓reduceIte, Bool.true_and, decide_eq_true_eq]
          unfold reportSectionEnded emit
          split
          · refine ⟨?_, hh1, ?_⟩
            · simp [ids, setSections, finishLevel_current]
            · simp [setSections, hl1, endedIn_append,
                show ∀ a b c d e, endedIn [.sectionEnded a b c d e] = [.section a] from fun _ _ _ _ _ => rfl]
          · refine ⟨?_, hh1, ?_⟩
            · simp [ids, setSections, finishLevel_current]
            · simp [setSections, hl1]

end Verif.Timing
