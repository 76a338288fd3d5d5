import Verif.Spec.Neutral
import Verif.Lemmas.Accounting
import Verif.Lemmas.Verbosity
import Verif.Lemmas.Places
import Mathlib.Data.List.Forall2
/-! # Lemmas for C97 -/
namespace Verif.Run.Neutral
open Verif.Run Verif.Run.Spec

/-- What of the state checks that pass (`kc`), or captures, do not change: the captures in the first case, the number of assertions in the
second. -/
structure Core where
  ids : List Nat
  levels : List Level
  depth : Nat
  leaf : Bool
  shown : List Text × Nat
  locations : List (Nat × LocType)
  failures : Nat
  allowed : Nat
  mayFail : Bool
  shouldFail : Bool
  unhandled : Bool
  state : CaseState
  log : List Essence

/-- What matters of an event, with (`kc`) or without the captures. -/
def ess (kc : Bool) : Event → Option Essence
  | .caseSkipped c msg => some (.skip c.path (if kc then c.caps else []) c.loc msg)
  | e => essence e

theorem ess_true : ess true = essence := by
  funext e
  cases e <;> rfl

def core (kc : Bool) (s : TS) : Core :=
  ⟨s.info.sections.current.map (·.id), s.info.sections.levels, s.info.sections.depth, s.info.sections.leaf,
    if kc then (s.info.captures, 0) else ([], s.asserts),
    s.info.locations, s.failures, s.allowed, s.mayFail, s.shouldFail, s.unhandled, s.state, s.log.filterMap (ess kc)⟩

def coreR {β : Type} (kc : Bool) (x : TS × β) : Core × β := (core kc x.1, x.2)

/-- Two states are alike. -/
def Like (kc : Bool) (s t : TS) : Prop := core kc s = core kc t

variable {kc : Bool}

theorem Like.rfl {s : TS} : Like kc s s := Eq.refl _
theorem Like.trans {s t u : TS} (h : Like kc s t) (g : Like kc t u) : Like kc s u := Eq.trans h g
theorem Like.symm {s t : TS} (h : Like kc s t) : Like kc t s := Eq.symm h

theorem like_iff {s t : TS} : Like kc s t ↔
    s.info.sections.current.map (·.id) = t.info.sections.current.map (·.id) ∧ s.info.sections.levels = t.info.sections.levels ∧
    s.info.sections.depth = t.info.sections.depth ∧ s.info.sections.leaf = t.info.sections.leaf ∧
    (if kc then (s.info.captures, 0) else ([], s.asserts)) = (if kc then (t.info.captures, 0) else ([], t.asserts)) ∧ s.info.locations = t.info.locations ∧ s.failures = t.failures ∧ s.allowed = t.allowed ∧
    s.mayFail = t.mayFail ∧ s.shouldFail = t.shouldFail ∧ s.unhandled = t.unhandled ∧ s.state = t.state ∧
    s.log.filterMap (ess kc) = t.log.filterMap (ess kc) := by
  simp [Like, core]

/-! ## Things that make no difference -/

theorem like_emit_none (cfg : Cfg) (lvl : Nat) {e : Event} (he : ess kc e = none) (s : TS) : Like kc (emit cfg lvl e s) s := by
  unfold emit
  split
  · simp [like_iff, List.filterMap_append, he]
  · exact .rfl

theorem like_closeHeld (cfg : Cfg) : ∀ (l : List Section) (s : TS), Like kc (closeHeld cfg l s) s
  | [], _ => .rfl
  | _ :: l, s => (like_closeHeld cfg l _).trans (like_emit_none cfg 2 rfl s)

theorem like_notify (cfg : Cfg) (s : TS) : Like kc (notify cfg s) s := by
  unfold notify
  split
  · exact .rfl
  · rename_i h _
    exact Like.trans (t := closeHeld cfg (h.sections.current.drop s.info.sections.current.length).reverse s) (by simp [like_iff])
      (like_closeHeld cfg _ s)

theorem like_arrive (cfg : Cfg) (fl : Bool) (s : TS) : Like kc (arrive cfg fl s) s := by
  cases fl
  · exact like_notify cfg s
  · exact .rfl

theorem like_hold (u : Bool) (s : TS) : Like kc (hold u s) s := by
  unfold hold
  split <;> simp [like_iff]

theorem like_inCheck (b : Bool) (s : TS) : Like kc { s with inCheck := b } s := by simp [like_iff]

theorem count_ids (ok may : Bool) (l : List Section) : (l.map (Section.count ok may)).map (·.id) = l.map (·.id) := by
  rw [List.map_map]
  congr 1
  funext x
  cases ok <;> cases may <;> rfl

theorem like_passed (cfg : Cfg) (fl : Bool) (data : Text) (s : TS) : Like true (reportAssertion cfg fl true data s) s := by
  unfold reportAssertion
  split
  · exact .rfl
  · refine (like_emit_none cfg 3 rfl _).trans ?_
    simp only [registerAssertion, if_true, like_iff, Info.count, count_ids, and_self, if_true]

/-! ## The same step in states that are alike -/

theorem emit_like {cfg : Cfg} {lvl : Nat} {e e' : Event} (he : ess kc e = ess kc e') {s t : TS} (h : Like kc s t) :
    Like kc (emit cfg lvl e s) (emit cfg lvl e' t) := by
  unfold emit
  split
  · rw [like_iff] at h ⊢
    obtain ⟨h1, h2, h3, h4, h5, h6, h7, h8, h9, h10, h11, h12, h13⟩ := h
    refine ⟨h1, h2, h3, h4, h5, h6, h7, h8, h9, h10, h11, h12, ?_⟩
    simp only [List.filterMap_append, h13, List.filterMap_cons, he]
  · exact h

theorem setState_like (n : CaseState) {s t : TS} (h : Like kc s t) : Like kc (setState n s) (setState n t) := by
  have h' := h
  rw [like_iff] at h'
  unfold setState
  rw [h'.2.2.2.2.2.2.2.2.2.2.2.1]
  split
  · rw [like_iff]
    simp only [h', and_self]
  · exact h

theorem failed_like (cfg : Cfg) (fl : Bool) (data : Text) {s t : TS} (h : Like kc s t) :
    Like kc (reportAssertion cfg fl false data s) (reportAssertion cfg fl false data t) := by
  have h' := h
  rw [like_iff] at h'
  obtain ⟨h1, h2, h3, h4, h5, h6, h7, h8, h9, h10, h11, h12, h13⟩ := h'
  have h5' : (if kc then (s.info.captures, 0) else ([], s.asserts + 1)) = (if kc then (t.info.captures, 0) else ([], t.asserts + 1)) := by
    cases kc <;> simpa using h5
  have hr : Like kc (registerAssertion false s) (registerAssertion false t) := by
    unfold registerAssertion
    rw [h9, h10]
    cases (t.mayFail || t.shouldFail)
    · refine setState_like .failed ?_
      simp only [like_iff, Info.count, count_ids, h1, h2, h3, h4, h5', h6, h7, h8, h11, h12, h13, and_self]
    · refine setState_like .allowedFail ?_
      simp only [like_iff, Info.count, count_ids, h1, h2, h3, h4, h5', h6, h7, h8, h11, h12, h13, and_self]
  unfold reportAssertion
  rw [h12]
  split
  · exact h
  · have hr' := hr
    rw [like_iff] at hr'
    dsimp only
    rw [if_neg Bool.false_ne_true, if_neg Bool.false_ne_true]
    refine emit_like ?_ hr
    simp only [ess, essence, hr'.2.2.2.2.2.2.2.2.1, hr'.2.2.2.2.2.2.2.2.2.1]

theorem assertion_like (cfg : Cfg) (fl ok : Bool) (data : Text) {s t : TS} (h : Like kc s t) :
    Like kc (reportAssertion cfg fl ok data s) (reportAssertion cfg fl ok data t) := by
  cases ok
  · exact failed_like cfg fl data h
  · unfold reportAssertion
    have h' := h
    rw [like_iff] at h'
    obtain ⟨h1, h2, h3, h4, h5, h6, h7, h8, h9, h10, h11, h12, h13⟩ := h'
    have h5' : (if kc then (s.info.captures, 0) else ([], s.asserts + 1)) = (if kc then (t.info.captures, 0) else ([], t.asserts + 1)) := by
      cases kc <;> simpa using h5
    rw [h12]
    split
    · exact h
    · dsimp only
      rw [if_pos rfl, if_pos rfl]
      refine emit_like (by rfl) ?_
      simp only [registerAssertion, if_true, like_iff, Info.count, count_ids, h1, h2, h3, h4, h5', h6, h7, h8, h9, h10, h11, h12, h13, and_self]

theorem notify_like (cfg : Cfg) {s t : TS} (h : Like kc s t) : Like kc (notify cfg s) (notify cfg t) :=
  ((like_notify ..).trans h).trans (like_notify ..).symm

theorem skipped_like (cfg : Cfg) (msg : Text) {s t : TS} (h : Like kc s t) : Like kc (reportSkipped cfg msg s) (reportSkipped cfg msg t) := by
  have hr := setState_like .skipped h
  have h' := hr
  rw [like_iff] at h'
  unfold reportSkipped
  refine emit_like ?_ hr
  have hcap : (if kc then (setState .skipped s).info.captures else []) = (if kc then (setState .skipped t).info.captures else []) := by
    have := congrArg Prod.fst h'.2.2.2.2.1
    cases kc
    · rfl
    · exact this
  simp only [ess, h'.1, hcap, h'.2.2.2.2.2.1]

/-- Outcomes that are alike. -/
def LikeR {β : Type} (kc : Bool) (x y : Outcome (TS × β)) : Prop := omap (coreR kc) x = omap (coreR kc) y

def LikeO (kc : Bool) (x y : Outcome TS) : Prop := omap (core kc) x = omap (core kc) y

theorem LikeO.elim {x y : Outcome TS} (h : LikeO kc x y) : (∃ s t, x = .ok s ∧ y = .ok t ∧ Like kc s t) ∨ (x = .abort ∧ y = .abort) ∨
    (x = .ub ∧ y = .ub) := by
  cases x <;> cases y <;> simp_all [LikeO, Like]

theorem LikeR.elim {β : Type} {x y : Outcome (TS × β)} (h : LikeR kc x y) :
    (∃ s t b, x = .ok (s, b) ∧ y = .ok (t, b) ∧ Like kc s t) ∨ (x = .abort ∧ y = .abort) ∨ (x = .ub ∧ y = .ub) := by
  cases x with
  | ok x =>
    cases y with
    | ok y =>
      obtain ⟨s, b⟩ := x
      obtain ⟨t, c⟩ := y
      simp only [LikeR, omap_ok, coreR, Outcome.ok.injEq, Prod.mk.injEq] at h
      obtain ⟨h, rfl⟩ := h
      exact .inl ⟨s, t, b, rfl, rfl, h⟩
    | abort => cases h
    | ub => cases h
  | abort => cases y <;> first | (cases h; done) | simp
  | ub => cases y <;> first | (cases h; done) | simp

theorem LikeR.ok {β : Type} {s t : TS} (b : β) (h : Like kc s t) : LikeR kc (.ok (s, b)) (.ok (t, b)) := by
  simp only [LikeR, omap_ok, coreR, show core kc s = core kc t from h]

theorem LikeO.ok {s t : TS} (h : Like kc s t) : LikeO kc (.ok s) (.ok t) := by
  simp only [LikeO, omap_ok, show core kc s = core kc t from h]

theorem LikeO.bind {x y : Outcome TS} (h : LikeO kc x y) {f g : TS → Outcome TS} (hf : ∀ s t, Like kc s t → LikeO kc (f s) (g t)) :
    LikeO kc (x >>= f) (y >>= g) := by
  rcases h.elim with ⟨s, t, rfl, rfl, hl⟩ | ⟨rfl, rfl⟩ | ⟨rfl, rfl⟩
  · exact hf s t hl
  · rfl
  · rfl

theorem LikeO.bindR {β : Type} {x y : Outcome TS} (h : LikeO kc x y) {f g : TS → Outcome (TS × β)}
    (hf : ∀ s t, Like kc s t → LikeR kc (f s) (g t)) : LikeR kc (x >>= f) (y >>= g) := by
  rcases h.elim with ⟨s, t, rfl, rfl, hl⟩ | ⟨rfl, rfl⟩ | ⟨rfl, rfl⟩
  · exact hf s t hl
  · rfl
  · rfl

theorem push_like (cfg : Cfg) (l : Nat × LocType) {s t : TS} (h : Like kc s t) : LikeO kc (pushLocation cfg l s) (pushLocation cfg l t) := by
  rw [like_iff] at h
  unfold pushLocation
  rw [h.2.2.2.2.2.1]
  split
  · exact .ok (by rw [like_iff]; simp only [h, and_self])
  · rfl

theorem pop_like {s t : TS} (h : Like kc s t) : LikeO kc (popLocation s) (popLocation t) := by
  rw [like_iff] at h
  unfold popLocation
  rw [h.2.2.2.2.2.1]
  split
  · rfl
  · exact .ok (by rw [like_iff]; simp only [h, and_self])

theorem checkEnter_like (cfg : Cfg) (fl : Bool) (loc : Nat) {s t : TS} (h : Like kc s t) :
    LikeO kc (checkEnter cfg fl loc s) (checkEnter cfg fl loc t) := by
  unfold checkEnter
  refine (push_like cfg _ (((like_arrive ..).trans h).trans (like_arrive ..).symm)).bind fun s t h => .ok ?_
  exact ((like_inCheck ..).trans h).trans (like_inCheck ..).symm

theorem endCheck_like (fl : Bool) (r : Res) {s t : TS} (h : Like kc s t) : LikeR kc (endCheck fl r s) (endCheck fl r t) := by
  unfold endCheck checkLeave
  refine (pop_like ?_).bindR fun s t h => .ok _ h
  exact ((like_hold ..).trans (((like_inCheck ..).trans h).trans (like_inCheck ..).symm)).trans (like_hold ..).symm

section
variable [MessageLimit]

theorem answer_like (cfg : Cfg) (fl : Bool) (a : Ask) (ev : Option Exn) {s t : TS} (h : Like kc s t) :
    LikeR kc (answer cfg fl a ev s) (answer cfg fl a ev t) := by
  cases a with
  | check ok abort data =>
    cases ev
    · exact endCheck_like _ _ (assertion_like _ _ _ _ h)
    · exact endCheck_like _ _ h
  | throwsAs type name abort =>
    cases ev
    · exact endCheck_like _ _ (assertion_like _ _ _ _ h)
    · simp only [answer]
      split <;> exact endCheck_like _ _ (notify_like _ (assertion_like _ _ _ _ h))
  | throwsMatches type name matched desc abort =>
    cases ev
    · exact endCheck_like _ _ (assertion_like _ _ _ _ h)
    · simp only [answer]
      split
      · split <;> exact endCheck_like _ _ (notify_like _ (assertion_like _ _ _ _ h))
      · exact endCheck_like _ _ (notify_like _ (assertion_like _ _ _ _ h))
  | nothrow text abort =>
    cases ev
    · exact endCheck_like _ _ (assertion_like _ _ _ _ h)
    · exact endCheck_like _ _ (notify_like _ (assertion_like _ _ _ _ h))

theorem execStmt_like (cfg : Cfg) (fl : Bool) (m : Stmt) {s t : TS} (h : Like kc s t) :
    LikeR kc (execStmt cfg fl m s) (execStmt cfg fl m t) := by
  rcases m.kinds with ⟨a, rfl⟩ | ⟨e, rfl⟩ | rfl | ⟨loc, abort, msg, rfl⟩ | ⟨loc, a, ev, hm⟩
  · refine .ok _ ?_
    rw [like_iff] at h ⊢
    simp only [h, List.filterMap_append, and_self]
  · exact .ok _ h
  · exact .ok _ (notify_like cfg h)
  · exact (checkEnter_like cfg fl loc h).bindR fun s t h => endCheck_like _ _ (skipped_like _ _ h)
  · rw [execStmt_asks hm, execStmt_asks hm]
    exact (checkEnter_like cfg fl loc h).bindR fun s t h => answer_like cfg fl a ev h

/-- A check that passes leaves everything alike. -/
theorem passes_like {cfg : Cfg} {fl : Bool} {m : Stmt} (hm : passes m = true) {s : TS} {x : TS × Res}
    (h : execStmt cfg fl m s = .ok x) : Like true x.1 s ∧ x.2 = .normal := by
  have key : ∀ (loc : Nat) (f : TS → TS), (∀ s, Like true (f s) s) →
      (checkEnter cfg fl loc s >>= fun s => endCheck fl .normal (f s)) = .ok x → Like true x.1 s ∧ x.2 = .normal := by
    intro loc f hf h
    obtain ⟨s1, h1, h⟩ := bind_eq_ok h
    obtain ⟨s0, h0, h1⟩ := bind_eq_ok h1
    cases h1
    obtain ⟨s2, h2, h⟩ := bind_eq_ok h
    cases h
    refine ⟨?_, rfl⟩
    have ha := like_arrive (kc := true) cfg fl s
    unfold pushLocation at h0
    split at h0
    · cases h0
      have hb : Like true (hold (fl || decide (Res.normal ≠ Res.normal)) { f { arrive cfg fl s with
          info := { (arrive cfg fl s).info with locations := (arrive cfg fl s).info.locations ++ [(loc, .inCheck)] }
          inCheck := true } with inCheck := false }) _ := (like_hold _ _).trans ((like_inCheck _ _).trans (hf _))
      unfold checkLeave popLocation at h2
      split at h2
      · cases h2
      · cases h2
        rw [like_iff] at hb ha ⊢
        obtain ⟨h1, h2, h3, h4, h5, h6, h7, h8, h9, h10, h11, h12, h13⟩ := hb
        dsimp only at h1 h2 h3 h4 h5 h6 h7 h8 h9 h10 h11 h12 h13 ⊢
        rw [h1, h2, h3, h4, h5, h6, h7, h8, h9, h10, h11, h12, h13, List.dropLast_concat]
        exact ha
    · cases h0
  cases m with
  | act a => cases hm
  | throw e => cases hm
  | notify => cases h; exact ⟨like_notify cfg s, rfl⟩
  | skip => cases hm
  | check loc ev abort data =>
    cases ev with
    | exc e => cases hm
    | val ok =>
      cases ok with
      | false => cases hm
      | true => exact key loc (reportAssertion cfg fl true data) (like_passed cfg fl data) h
  | throwsAs loc ev type name abort =>
    cases ev with
    | none => cases hm
    | some e =>
      simp only [execStmt, answer, if_pos (show e.types.contains type = true from hm)] at h
      exact key loc (fun s => notify cfg (reportAssertion cfg fl true _ s)) (fun s => (like_notify ..).trans (like_passed ..)) h
  | throwsMatches loc ev type name matched desc abort =>
    cases ev with
    | none => cases hm
    | some e =>
      simp only [passes, Bool.and_eq_true] at hm
      obtain ⟨h1, rfl⟩ := hm
      simp only [execStmt, answer, if_pos (show e.types.contains type = true from h1), Bool.not_true, Bool.false_eq_true, if_false] at h
      exact key loc (fun s => notify cfg (reportAssertion cfg fl true _ s)) (fun s => (like_notify ..).trans (like_passed ..)) h
  | nothrow loc ev text abort =>
    cases ev with
    | some e => cases hm
    | none => exact key loc (reportAssertion cfg fl true _) (like_passed cfg fl _) h

end

/-! ## Sections and captures -/

theorem sections_like {x y : SecState} {s t : TS} (h : Like kc s t) (h1 : x.current.map (·.id) = y.current.map (·.id))
    (h2 : x.levels = y.levels) (h3 : x.depth = y.depth) (h4 : x.leaf = y.leaf) : Like kc (setSections x s) (setSections y t) := by
  rw [like_iff] at h ⊢
  simp only [setSections, h, h1, h2, h3, h4, and_self]

theorem enterSection_like (cfg : Cfg) (fl : Bool) (id loc : Nat) {s t : TS} (h : Like kc s t) :
    LikeR kc (enterSection cfg fl id loc s) (enterSection cfg fl id loc t) := by
  have ha : Like kc (arrive cfg fl s) (arrive cfg fl t) := ((like_arrive ..).trans h).trans (like_arrive ..).symm
  unfold enterSection
  dsimp only
  generalize arrive cfg fl s = s at ha ⊢
  generalize arrive cfg fl t = t at ha ⊢
  have ha' := ha
  rw [like_iff] at ha'
  obtain ⟨h1, h2, h3, h4, _⟩ := ha'
  have hlen : s.info.sections.current.length = t.info.sections.current.length := by simpa using congrArg List.length h1
  -- the same after making sure there is a level
  have key : ∀ x y : SecState, x.current.map (·.id) = y.current.map (·.id) → x.levels = y.levels → x.depth = y.depth →
      x.leaf = y.leaf → LikeR kc (enterLevel cfg id loc x s) (enterLevel cfg id loc y t) := by
    intro x y e1 e2 e3 e4
    have elen : x.current.length = y.current.length := by simpa using congrArg List.length e1
    unfold enterLevel
    dsimp only
    rw [e2, e3]
    split
    · rfl
    · rename_i level _
      rw [e4]
      split
      · exact .ok _ (sections_like ha e1 rfl rfl rfl)
      · split
        · exact .ok _ (sections_like ha e1 rfl rfl rfl)
        · unfold startSection
          dsimp only
          rw [elen]
          split
          · rfl
          · refine LikeO.bindR (push_like cfg _ (sections_like ha ?_ ?_ ?_ ?_)) fun s t h => ?_
            · simp only [List.map_append, e1]
            · rfl
            · rfl
            · rfl
            · split
              · exact .ok _ (emit_like rfl h)
              · exact .ok _ h
  unfold ensureLevel
  rw [h2, h3]
  split
  · split
    · rfl
    · split
      · rfl
      · exact key _ _ h1 rfl rfl h4
  · exact key _ _ h1 h2 h3 h4

theorem leaveSection_like (cfg : Cfg) (en u : Bool) {s t : TS} (h : Like kc s t) :
    LikeO kc (leaveSection cfg en u s) (leaveSection cfg en u t) := by
  have dec : ∀ {s t : TS}, Like kc s t → Like kc (decDepth s) (decDepth t) := by
    intro s t h
    have h' := h
    rw [like_iff] at h'
    exact sections_like h h'.1 h'.2.1 (by rw [h'.2.2.1]) h'.2.2.2.1
  unfold leaveSection
  cases en with
  | false => exact .ok (dec h)
  | true =>
    refine LikeO.bind ?_ fun s t h => .ok (dec h)
    unfold leaveEntered
    refine (pop_like (((like_hold ..).trans h).trans (like_hold ..).symm)).bind fun s t h => ?_
    have h' := h
    rw [like_iff] at h'
    obtain ⟨h1, h2, h3, h4, _⟩ := h'
    have hf : (finishLevel s.info.sections).2 = (finishLevel t.info.sections).2 ∧
        (finishLevel s.info.sections).1.current.map (·.id) = (finishLevel t.info.sections).1.current.map (·.id) ∧
        (finishLevel s.info.sections).1.levels = (finishLevel t.info.sections).1.levels ∧
        (finishLevel s.info.sections).1.depth = (finishLevel t.info.sections).1.depth ∧
        (finishLevel s.info.sections).1.leaf = (finishLevel t.info.sections).1.leaf := by
      unfold finishLevel
      rw [h2, h3]
      split
      · exact ⟨rfl, h1, rfl, rfl, rfl⟩
      · split
        · exact ⟨rfl, h1, rfl, rfl, h4⟩
        · exact ⟨rfl, h1, h2, h3, h4⟩
    obtain ⟨f0, f1, f2, f3, f4⟩ := hf
    dsimp only
    rw [f0]
    have hs := sections_like h f1 f2 f3 f4
    generalize (finishLevel s.info.sections).1 = x at f1 hs ⊢
    generalize (finishLevel t.info.sections).1 = y at f1 hs ⊢
    generalize (finishLevel t.info.sections).2 = b
    have hl : (x.current.getLast?).map (·.id) = (y.current.getLast?).map (·.id) := by
      rw [← List.getLast?_map, ← List.getLast?_map, f1]
    cases hx : x.current.getLast? with
    | none =>
      cases hy : y.current.getLast? with
      | none => rfl
      | some q => rw [hx, hy] at hl; cases hl
    | some p =>
      cases hy : y.current.getLast? with
      | none => rw [hx, hy] at hl; cases hl
      | some q =>
        refine .ok ?_
        have he : Like kc (if (b && !u) = true then reportSectionEnded cfg p (setSections x s) else setSections x s)
            (if (b && !u) = true then reportSectionEnded cfg q (setSections y t) else setSections y t) := by
          split
          · exact ((like_emit_none cfg 2 rfl _).trans hs).trans (like_emit_none cfg 2 rfl _).symm
          · exact hs
        have he' := he
        rw [like_iff] at he'
        exact sections_like he (by simp only [List.map_dropLast, he'.1]) he'.2.1 he'.2.2.1 he'.2.2.2.1

theorem addCaptures_like (cfg : Cfg) (fl : Bool) : ∀ (l : List Text) {s t : TS}, Like true s t →
    LikeO true (addCaptures cfg fl l s) (addCaptures cfg fl l t)
  | [], _, _, h => .ok h
  | c :: cs, s, t, h => by
    have h' := h
    rw [like_iff] at h'
    have hcap : s.info.captures = t.info.captures := congrArg Prod.fst h'.2.2.2.2.1
    unfold addCaptures
    rw [hcap]
    split
    · rfl
    · refine addCaptures_like cfg fl cs ?_
      have ha : Like true (arrive cfg fl s) (arrive cfg fl t) := ((like_arrive ..).trans h).trans (like_arrive ..).symm
      rw [like_iff] at ha ⊢
      have hcap : (arrive cfg fl s).info.captures = (arrive cfg fl t).info.captures := congrArg Prod.fst ha.2.2.2.2.1
      simp only [pushCapture, ha, hcap, and_self, if_true]

theorem popCaptures_like (n : Nat) (u : Bool) {s t : TS} (h : Like true s t) : LikeO true (popCaptures n u s) (popCaptures n u t) := by
  have hh : Like true (hold u s) (hold u t) := ((like_hold ..).trans h).trans (like_hold ..).symm
  have h' := hh
  rw [like_iff] at h'
  unfold popCaptures
  have hcap : (hold u s).info.captures = (hold u t).info.captures := congrArg Prod.fst h'.2.2.2.2.1
  dsimp only
  rw [hcap]
  split
  · refine .ok ?_
    rw [like_iff]
    simp only [h', and_self, if_true]
  · rfl

/-! ## Code with checks added -/

/-- If the second ends, so does the first, in the same way and in a state that is alike. -/
def Sim {β : Type} (kc : Bool) (x y : Outcome (TS × β)) : Prop := ∀ t b, y = .ok (t, b) → ∃ s, x = .ok (s, b) ∧ Like kc s t

theorem LikeR.sim {β : Type} {x y : Outcome (TS × β)} (h : LikeR kc x y) : Sim kc x y := by
  intro t b hy
  rcases h.elim with ⟨s', t', b', rfl, rfl, hl⟩ | ⟨rfl, rfl⟩ | ⟨rfl, rfl⟩
  · cases hy
    exact ⟨s', rfl, hl⟩
  · cases hy
  · cases hy

theorem Sim.bind {β γ : Type} {x y : Outcome (TS × β)} (h : Sim kc x y) {f g : TS × β → Outcome (TS × γ)}
    (hf : ∀ s t b, Like kc s t → Sim kc (f (s, b)) (g (t, b))) : Sim kc (x >>= f) (y >>= g) := by
  intro t b hy
  obtain ⟨⟨t1, b1⟩, h1, hy⟩ := bind_eq_ok hy
  obtain ⟨s1, rfl, hl⟩ := h t1 b1 h1
  exact hf s1 t1 b1 hl t b hy

theorem LikeO.bindS {β : Type} {x y : Outcome TS} (h : LikeO kc x y) {f g : TS → Outcome (TS × β)}
    (hf : ∀ s t, Like kc s t → Sim kc (f s) (g t)) : Sim kc (x >>= f) (y >>= g) := by
  rcases h.elim with ⟨s, t, rfl, rfl, hl⟩ | ⟨rfl, rfl⟩ | ⟨rfl, rfl⟩
  · exact hf s t hl
  · intro _ _ h; cases h
  · intro _ _ h; cases h

theorem Sim.ok {β : Type} {s t : TS} (b : β) (h : Like kc s t) : Sim kc (.ok (s, b)) (.ok (t, b)) := (LikeR.ok b h).sim

variable [MessageLimit]

theorem exec_adds (cfg : Cfg) {p q : Prog} (h : Adds p q) : ∀ (fl : Bool) {s t : TS}, Like true s t →
    Sim true (exec cfg fl p s) (exec cfg fl q t) := by
  induction h with
  | done => intro fl s t h; exact .ok _ h
  | @more m p q hm _ ih =>
    intro fl s t h t' b hy
    rw [exec] at hy
    obtain ⟨⟨t1, r1⟩, h1, hy⟩ := bind_eq_ok hy
    obtain ⟨g1, g2⟩ := passes_like hm h1
    cases g2
    exact ih fl (h.trans g1.symm) t' b hy
  | @stmt m p q _ ih =>
    intro fl s t h
    rw [exec, exec]
    refine (execStmt_like cfg fl m h).sim.bind fun s t r h => ?_
    cases r with
    | normal => exact ih fl h
    | raised e => exact .ok _ h
  | @sec id loc b c p q _ _ ihb ihk =>
    intro fl s t h
    rw [exec, exec]
    refine (enterSection_like cfg fl id loc h).sim.bind fun s t en h => ?_
    cases en with
    | false => exact (leaveSection_like cfg false fl h).bindS fun s t h => ihk fl h
    | true =>
      refine (ihb fl h).bind fun s t r h => ?_
      refine (leaveSection_like cfg true _ h).bindS fun s t h => ?_
      cases r with
      | normal => exact ihk fl h
      | raised e => exact .ok _ h
  | @capture caps p q _ ih =>
    intro fl s t h
    rw [exec, exec]
    refine (addCaptures_like cfg fl caps h).bindS fun s t h => ?_
    refine (ih fl h).bind fun s t r h => ?_
    exact (popCaptures_like _ _ h).bindS fun s t h => .ok _ h
  | @block b c p q _ _ ihb ihk =>
    intro fl s t h
    rw [exec, exec]
    refine (ihb fl h).bind fun s t r h => ?_
    cases r with
    | normal => exact ihk fl h
    | raised e => exact .ok _ h
  | @tryCatch type b c g d p q _ _ _ ihb ihh ihk =>
    intro fl s t h
    rw [exec, exec]
    refine (ihb fl h).bind fun s t r h => ?_
    cases r with
    | normal => exact ihk fl h
    | raised e =>
      dsimp only
      split
      · refine (ihh fl h).bind fun s t r h => ?_
        cases r with
        | normal => exact ihk fl h
        | raised e => exact .ok _ h
      · exact .ok _ h
  | @nested loc b c ask p q _ _ ihb ihk =>
    intro fl s t h
    rw [exec, exec]
    refine (checkEnter_like cfg fl loc h).bindS fun s t h => ?_
    refine (ihb fl h).bind fun s t r h => ?_
    refine (answer_like cfg fl ask r.thrown h).sim.bind fun s t r h => ?_
    cases r with
    | normal => exact ihk fl h
    | raised e => exact .ok _ h
  | @guard b c p q _ _ ihb ihk =>
    intro fl s t h
    rw [exec, exec]
    refine (ihk fl h).bind fun s t r h => ?_
    refine (ihb _ h).bind fun s t r' h => ?_
    cases r' with
    | normal => exact .ok _ h
    | raised e => intro _ _ h; cases h

/-- What an execution of the second does, one of the first does too (from states that are alike, the first with no more captures). -/
def Steps (kc : Bool) (p q : Prog) : Prop := ∀ (cfg : Cfg) {s t : TS}, Like kc s t →
  s.info.captures.length ≤ t.info.captures.length → Sim kc (exec cfg false p s) (exec cfg false q t)

theorem runLoop_sim (cfg : Cfg) {bs cs : Nat → Prog} (hb : ∀ n, Steps kc (bs n) (cs n)) : ∀ (fuel n : Nat) {s t : TS}, Like kc s t →
    s.info.captures.length ≤ t.info.captures.length → ∀ {t' : TS} {r : Res}, runLoop cfg cs fuel n t = some (.ok (t', r)) →
      ∃ s', runLoop cfg bs fuel n s = some (.ok (s', r)) ∧ Like kc s' t'
  | 0, _, _, _, _, _, _, _, h => by cases h
  | fuel + 1, n, s, t, hl, hcap, t', r, h => by
    have hr : Like kc (resetPass s) (resetPass t) := by
      have h' := hl
      rw [like_iff] at h'
      exact sections_like hl h'.1 (by rw [h'.2.1]) h'.2.2.1 rfl
    have he := hb n cfg hr hcap
    rw [runLoop] at h ⊢
    cases hx : exec cfg false (cs n) (resetPass t) with
    | abort => rw [hx] at h; cases h
    | ub => rw [hx] at h; cases h
    | ok y =>
      obtain ⟨t1, r1⟩ := y
      obtain ⟨s1, e1, l1⟩ := he t1 r1 hx
      have c1 : s1.info.captures = s.info.captures := congrArg Prod.fst (exec_scope _ e1)
      have c2 : t1.info.captures = t.info.captures := congrArg Prod.fst (exec_scope _ hx)
      rw [hx] at h
      rw [e1]
      cases r1 with
      | raised e =>
        cases h
        exact ⟨s1, rfl, l1⟩
      | normal =>
        dsimp only at h ⊢
        have hc : Like kc (clearFinished s1) (clearFinished t1) := by
          have h' := l1
          rw [like_iff] at h'
          unfold clearFinished
          rw [h'.2.1]
          split
          · split
            · exact sections_like l1 rfl rfl h'.2.2.1 h'.2.2.2.1
            · exact l1
          · exact l1
        have hc' := hc
        rw [like_iff] at hc'
        rw [hc'.2.1, hc'.2.2.2.2.2.2.2.2.2.2.2.1]
        split at h
        · rename_i hcond
          rw [if_pos hcond]
          refine runLoop_sim cfg hb fuel (n + 1) hc ?_ h
          have hk : ∀ u : TS, (clearFinished u).info.captures = u.info.captures := by
            intro u
            unfold clearFinished
            split
            · split <;> rfl
            · rfl
          rw [hk, hk, c1, c2]
          exact hcap
        · rename_i hcond
          rw [if_neg hcond]
          cases h
          exact ⟨_, rfl, hc⟩

/-- What follows the loop. -/
theorem finish_like (cfg : Cfg) {t u : TestCase} (hid : u.id = t.id) {x1 y1 : TS} (l1 : Like kc x1 y1) (r : Res) :
    Like kc (endCase cfg t (checkShouldFail cfg (afterLoop cfg x1 r))) (endCase cfg u (checkShouldFail cfg (afterLoop cfg y1 r))) := by
  have unh : ∀ (b : Bool) {s t : TS}, Like kc s t → Like kc (setUnhandled b s) (setUnhandled b t) := by
    intro b s t h
    rw [like_iff] at h ⊢
    simp only [setUnhandled, h, and_self]
  have sf : ∀ (b : Bool) {s t : TS}, Like kc s t → Like kc (setShouldFail b s) (setShouldFail b t) := by
    intro b s t h
    rw [like_iff] at h ⊢
    simp only [setShouldFail, h, and_self]
  have ic : ∀ (b : Bool) {s t : TS}, Like kc s t → Like kc (setInCheck b s) (setInCheck b t) := by
    intro b s t h
    exact ((like_inCheck b s).trans h).trans (like_inCheck b t).symm
  have hend : Like kc (reportEnd cfg x1 r) (reportEnd cfg y1 r) := by
    cases r with
    | normal => exact ic _ (assertion_like _ _ _ _ (ic _ l1))
    | raised e =>
      simp only [reportEnd]
      split
      · exact unh _ l1
      · exact assertion_like _ _ _ _ (unh _ l1)
  have hset : Like kc (afterLoop cfg x1 r) (afterLoop cfg y1 r) := by
    unfold afterLoop settle
    have h' := hend
    rw [like_iff] at h'
    rw [h'.2.2.2.2.2.2.2.2.2.2.1]
    split
    · exact unh _ (notify_like _ hend)
    · exact unh _ hend
  have hsf : Like kc (checkShouldFail cfg (afterLoop cfg x1 r)) (checkShouldFail cfg (afterLoop cfg y1 r)) := by
    unfold checkShouldFail
    have h' := hset
    rw [like_iff] at h'
    rw [h'.2.2.2.2.2.2.2.2.2.1, h'.2.2.2.2.2.2.2.2.2.2.2.1]
    split
    · exact sf _ (ic _ (assertion_like _ _ _ _ (ic _ (sf _ hset))))
    · exact hset
  have h' := hsf
  rw [like_iff] at h'
  refine emit_like ?_ hsf
  simp only [ess, essence, hid, h'.2.2.2.2.2.2.1, h'.2.2.2.2.2.2.2.1, h'.2.2.2.2.2.2.2.2.2.2.2.1]

theorem run_sim {cfg : Cfg} {fuel : Nat} {t u : TestCase} (hid : u.id = t.id) (hloc : u.loc = t.loc)
    (hb : ∀ n, Steps kc (t.body.no n) (u.body.no n)) {y : TS} (hy : run cfg fuel u = some (.ok y)) :
    ∃ x, run cfg fuel t = some (.ok x) ∧ Like kc x y := by
  unfold run at hy ⊢
  rw [hid] at hy
  split at hy
  · cases hy
  · cases hy
  · rename_i tags _
    have hi : initState cfg u tags = initState cfg t tags := by simp only [initState, freshState, hid, hloc]
    rw [hi] at hy
    split at hy
    · cases hy
    · cases hy
    · cases hy
    · rename_i y1 r hl
      obtain ⟨x1, e1, l1⟩ := runLoop_sim cfg hb fuel 0 Like.rfl (Nat.le_refl _) hl
      cases hy
      rw [e1]
      exact ⟨_, rfl, finish_like cfg hid l1 r⟩

theorem run_adds {cfg : Cfg} {fuel : Nat} {t u : TestCase} (h : AddsTest t u) {y : TS} (hy : run cfg fuel u = some (.ok y)) :
    ∃ x, run cfg fuel t = some (.ok x) ∧ Like true x y :=
  run_sim h.id h.loc (fun n cfg _ _ hl _ => exec_adds cfg (h.body n) false hl) hy

end Verif.Run.Neutral

namespace Verif.Reg.Neutral
open Verif.Reg Verif.Reg.Spec Verif.Run.Spec Verif.Run.Neutral
variable [Run.MessageLimit]

variable {kc : Bool}

/-- If a run of the second test ends, so does one of the first, in a state that is alike. -/
structure SimCase (kc : Bool) (fuel : Nat) (c d : Case) : Prop where
  id : d.test.id = c.test.id
  run : ∀ {cfg : Run.Cfg} {y : Run.TS}, Run.run cfg fuel d.test = some (.ok y) → ∃ x, Run.run cfg fuel c.test = some (.ok x) ∧ Like kc x y

/-- Lists of such tests. -/
abbrev SimCases (kc : Bool) (fuel : Nat) (cs ds : List Case) : Prop := List.Forall₂ (SimCase kc fuel) cs ds

/-- What matters of the output, with or without the captures. -/
def essOut (kc : Bool) : Out → Option (Essence ⊕ Out)
  | .event e => (ess kc e).map .inl
  | o => some (.inr o)

omit [Run.MessageLimit] in
theorem essOut_true : essOut true = essenceOut := by
  funext o
  cases o <;> simp only [essOut, essenceOut, ess_true]

/-- Totals that differ in the number of assertions only. -/
def SameTotals (a b : Totals) : Prop := { a with asserts := 0 } = { b with asserts := 0 }

omit [Run.MessageLimit] in
private theorem add_same {a b : Totals} (h : SameTotals a b) {x y : Run.TS} (hl : Like kc x y) : SameTotals (a.add x) (b.add y) := by
  rw [like_iff] at hl
  obtain ⟨_, _, _, _, _, _, h7, h8, _, _, _, h12, _⟩ := hl
  simp only [SameTotals, Totals.mk.injEq] at h
  obtain ⟨a1, a2, a3, a4, a5, _, a7, a8⟩ := h
  unfold SameTotals Totals.add
  rw [h12]
  cases y.state <;> simp only [Totals.addState, h7, h8, a1, a2, a3, a4, a5, a7, a8]

private theorem runEach_sim {lim : Limits} {fuel : Nat} {pred : Filter.TestId → Outcome Bool} {cs ds : List Case}
    (h : SimCases kc fuel cs ds) : ∀ {a b : Acc}, SameTotals a.totals b.totals → a.log.filterMap (ess kc) = b.log.filterMap (ess kc) →
    ∀ {b' : Acc}, runEach lim fuel pred ds b = some (.ok b') → ∃ a', runEach lim fuel pred cs a = some (.ok a') ∧
      SameTotals a'.totals b'.totals ∧ a'.log.filterMap (ess kc) = b'.log.filterMap (ess kc) := by
  induction h with
  | nil =>
    intro a b h1 h2 b' hb
    cases hb
    exact ⟨a, rfl, h1, h2⟩
  | @cons c d cs ds hcd _ ih =>
    intro a b h1 h2 b' hb
    rw [runEach] at hb ⊢
    rw [hcd.id] at hb
    cases hp : pred c.test.id with
    | abort => rw [hp] at hb; cases hb
    | ub => rw [hp] at hb; cases hb
    | ok v =>
      rw [hp] at hb
      cases v with
      | false => exact ih (a := { a with cases := a.cases ++ [c] }) (b := { b with cases := b.cases ++ [d] }) h1 h2 hb
      | true =>
        dsimp only at hb ⊢
        cases hr : Run.run lim.cfg fuel d.test with
        | none => rw [hr] at hb; cases hb
        | some o =>
          rw [hr] at hb
          cases o with
          | abort => cases hb
          | ub => cases hb
          | ok y =>
            obtain ⟨x, hx, hl⟩ := hcd.run hr
            rw [hx]
            have hlog := (like_iff.mp hl).2.2.2.2.2.2.2.2.2.2.2.2
            refine ih (add_same h1 hl) ?_ hb
            simp only [List.filterMap_append, h2, hlog]

private theorem runSelected_sim {lim : Limits} {fuel : Nat} {pred : Filter.TestId → Outcome Bool} {cs ds : List Case}
    (h : SimCases kc fuel cs ds) {ds' : List Case} {log : List Run.Event} {b : Bool}
    (hr : runSelected lim fuel pred ds = some (.ok (ds', log, b))) :
    ∃ cs' log', runSelected lim fuel pred cs = some (.ok (cs', log', b)) ∧ log'.filterMap (ess kc) = log.filterMap (ess kc) := by
  unfold runSelected at hr ⊢
  split at hr
  · cases hr
  · cases hr
  · cases hr
  · rename_i acc he
    obtain ⟨acc', e1, e2, e3⟩ := runEach_sim h (a := { log := shown lim 1 .runStarted }) (b := { log := shown lim 1 .runStarted })
      rfl rfl he
    rw [e1]
    cases hr
    simp only [SameTotals, Totals.mk.injEq] at e2
    obtain ⟨a1, a2, a3, a4, a5, _, a7, a8⟩ := e2
    refine ⟨acc'.cases, _, by dsimp only; rw [a1], ?_⟩
    rw [List.filterMap_append, List.filterMap_append, e3]
    congr 1
    unfold shown
    split
    · simp only [List.filterMap_cons, List.filterMap_nil, Totals.event, ess, essence, a1, a2, a3, a4, a5, a7, a8]
    · rfl

omit [Run.MessageLimit] in
private theorem afterRun_sim {o o' : Option (Outcome (List Case × List Run.Event × Bool))}
    (h : ∀ ds log b, o' = some (.ok (ds, log, b)) →
      ∃ cs log', o = some (.ok (cs, log', b)) ∧ log'.filterMap (ess kc) = log.filterMap (ess kc))
    {ds : List Case} {out : List Out} {b : Bool} (hr : afterRun o' = some (.ok (ds, out, b))) :
    ∃ cs out', afterRun o = some (.ok (cs, out', b)) ∧ out'.filterMap (essOut kc) = out.filterMap (essOut kc) := by
  cases o' with
  | none => cases hr
  | some x =>
    cases x with
    | abort => cases hr
    | ub => cases hr
    | ok x =>
      obtain ⟨ds', log, b'⟩ := x
      cases hr
      obtain ⟨cs, log', rfl, hl⟩ := h _ _ _ rfl
      refine ⟨cs, _, rfl, ?_⟩
      have key : ∀ l : List Run.Event, (l.map Out.event).filterMap (essOut kc) = (l.filterMap (ess kc)).map .inl := by
        intro l
        rw [List.filterMap_map, List.map_filterMap]
        rfl
      rw [key, key, hl]

private theorem listLoop_sim {fuel : Nat} {pred : Filter.TestId → Outcome Bool} {cs ds : List Case} (h : SimCases kc fuel cs ds) :
    listLoop pred ds = listLoop pred cs := by
  induction h with
  | nil => rfl
  | cons hcd _ ih => simp only [listLoop, ih, hcd.id]

private theorem collectTags_sim {lim : Limits} {fuel : Nat} {cs ds : List Case} (h : SimCases kc fuel cs ds) : ∀ tags : List Text,
    collectTags lim ds tags = collectTags lim cs tags := by
  induction h with
  | nil => intro _; rfl
  | cons hcd _ ih => intro tags; simp only [collectTags, ih, hcd.id]

omit [Run.MessageLimit] in
private theorem afterListing_sim (cs : List Case) {ds ds' : List Case} {o : Outcome (List Out)} {out : List Out} {b : Bool}
    (hr : afterListing ds o = some (.ok (ds', out, b))) :
    ∃ cs' out', afterListing cs o = some (.ok (cs', out', b)) ∧ out'.filterMap (essOut kc) = out.filterMap (essOut kc) := by
  cases o with
  | abort => cases hr
  | ub => cases hr
  | ok l => cases hr; exact ⟨cs, _, rfl, rfl⟩

private theorem runTests_sim {lim : Limits} {fuel : Nat} {reporters : List Text} {args : Cli.Input} {cs ds : List Case}
    (h : SimCases kc fuel cs ds) {ds' : List Case} {out : List Out} {b : Bool}
    (hr : runTests lim fuel reporters args ds = some (.ok (ds', out, b))) :
    ∃ cs' out', runTests lim fuel reporters args cs = some (.ok (cs', out', b)) ∧
      out'.filterMap (essOut kc) = out.filterMap (essOut kc) := by
  have hlist : ∀ pred, listTests pred ds = listTests pred cs := fun pred => by simp only [listTests, listLoop_sim h]
  unfold runTests at hr ⊢
  split at hr
  · rename_i hc
    rw [if_pos hc]
    cases hr
    exact ⟨cs, _, rfl, rfl⟩
  · rename_i hc
    rw [if_neg hc]
    split at hr
    · split at hr
      · cases hr
      · rw [listTestsWithTag, hlist] at hr
        exact afterListing_sim cs hr
    · split at hr
      · rename_i hc
        rw [if_pos hc]
        rw [listAllTags, collectTags_sim h] at hr
        exact afterListing_sim cs hr
      · rename_i hc
        rw [if_neg hc]
        split at hr
        · rename_i hc
          rw [if_pos hc]
          cases hr
          exact ⟨cs, _, rfl, rfl⟩
        · rename_i hc
          rw [if_neg hc]
          split at hr
          · cases hr
          · cases hr
          · unfold runOrList at hr ⊢
            dsimp only at hr ⊢
            split at hr
            · rename_i hc
              rw [if_pos hc]
              split at hr
              · rename_i hc
                rw [if_pos hc]
                rw [listAllTests, hlist] at hr
                exact afterListing_sim cs hr
              · rename_i hc
                rw [if_neg hc]
                exact afterRun_sim (fun _ _ _ he => runSelected_sim h he) hr
            · rename_i hc
              rw [if_neg hc]
              split at hr
              · rename_i hc
                rw [if_pos hc]
                rw [hlist] at hr
                exact afterListing_sim cs hr
              · rename_i hc
                rw [if_neg hc]
                exact afterRun_sim (fun _ _ _ he => runSelected_sim h he) hr

theorem main_sim {lim : Limits} {fuel maxArgs : Nat} {reporters : List Text} {init : Nat → Nat → Nat} {config : Cli.Config}
    {argv0 : Text} {argv : List Text} {cs ds : List Case} (h : SimCases kc fuel cs ds) {code : Nat} {out : List Out}
    (hr : main lim fuel maxArgs reporters init config argv0 argv ds = some (.ok (code, out))) :
    ∃ out', main lim fuel maxArgs reporters init config argv0 argv cs = some (.ok (code, out')) ∧
      out'.filterMap (essOut kc) = out.filterMap (essOut kc) := by
  unfold main at hr ⊢
  split at hr
  · cases hr
  · cases hr
  · cases hr
    exact ⟨_, rfl, rfl⟩
  · split at hr
    · cases hr
    · cases hr
    · rename_i config' _
      cases hx : runTests { lim with cfg := { lim.cfg with verbosity := verbosityFor init config' } } fuel reporters _ ds with
      | none => rw [hx] at hr; cases hr
      | some o =>
        rw [hx] at hr
        cases o with
        | abort => cases hr
        | ub => cases hr
        | ok x =>
          obtain ⟨ds', out', b⟩ := x
          obtain ⟨cs', o', e1, e2⟩ := runTests_sim h hx
          cases hr
          rw [e1]
          exact ⟨o', rfl, e2⟩

theorem main_adds {lim : Limits} {fuel maxArgs : Nat} {reporters : List Text} {init : Nat → Nat → Nat} {config : Cli.Config}
    {argv0 : Text} {argv : List Text} {cs ds : List Case} (h : List.Forall₂ (fun c d : Case => AddsTest c.test d.test) cs ds)
    {code : Nat} {out : List Out} (hr : main lim fuel maxArgs reporters init config argv0 argv ds = some (.ok (code, out))) :
    ∃ out', main lim fuel maxArgs reporters init config argv0 argv cs = some (.ok (code, out')) ∧
      out'.filterMap essenceOut = out.filterMap essenceOut := by
  rw [← essOut_true]
  exact main_sim (kc := true) (h.imp fun _ _ hcd => ⟨hcd.id, run_adds hcd⟩) hr

end Verif.Reg.Neutral
