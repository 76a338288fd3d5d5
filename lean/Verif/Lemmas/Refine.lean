import Verif.Lemmas.Progress
/-! # Executing a tidy test body does what its meaning says -/
namespace Verif.Run
open Spec

/-- The report so far: open sections with their counts, the accounting core with the log, and whether the
innermost check that is being evaluated has not seen another one. -/
structure Rep where
  opened : List Section
  core : Core
  inCheck : Bool

def Rep.add (R : Rep) : Item → Rep
  | .act a => { R with core := R.core.step (.neutral (.user a) ⟨rfl, rfl, rfl⟩) }
  | .enter id first =>
    { R with
      opened := R.opened ++ [{ id := id }]
      core := if first then R.core.step (.neutral (.sectionStarted id) ⟨rfl, rfl, rfl⟩) else R.core }
  | .leave _ last =>
    { R with
      opened := R.opened.dropLast
      core := match last, R.opened.getLast? with
        | true, some x => R.core.step (.neutral (.sectionEnded x.id
            (decide (R.core.state = .skipped)) x.asserts x.failures x.allowed) ⟨rfl, rfl, rfl⟩)
        | _, _ => R.core }
  | .assertion ok ctx d =>
    { opened := if R.core.state = .skipped then R.opened
        else R.opened.map (Section.count ok (R.core.mayFail || R.core.shouldFail))
      core := R.core.step (.assertion ok ctx d)
      inCheck := false }
  | .skip ctx msg => { R with core := R.core.step (.skip ctx msg), inCheck := false }
  | .interrupted _ => { R with inCheck := false }

def Rep.adds (R : Rep) (l : List Item) : Rep := l.foldl Rep.add R

theorem Rep.adds_append (R : Rep) (a b : List Item) : R.adds (a ++ b) = (R.adds a).adds b := by
  simp [Rep.adds]

/-- Set the flag. -/
def Rep.flag (R : Rep) (b : Bool) : Rep := { R with inCheck := b }

theorem Rep.flag_add (R : Rep) (b : Bool) (x : Item) :
    (R.flag b).add x = (R.add x).flag (b && !x.isMacro) := by
  cases x <;> simp only [Item.isMacro, Bool.not_false, Bool.not_true, Bool.and_true, Bool.and_false] <;> rfl

theorem Rep.flag_adds (R : Rep) (b : Bool) (l : List Item) :
    (R.flag b).adds l = (R.adds l).flag (b && !l.any Item.isMacro) := by
  induction l generalizing R b with
  | nil => simp [Rep.adds]
  | cons x l ih =>
    have := ih (R.add x) (b && !x.isMacro)
    simp only [Rep.adds, List.foldl_cons, Rep.flag_add] at this ⊢
    rw [this]
    simp [Bool.and_assoc]

theorem Rep.flag_self (R : Rep) : R.flag R.inCheck = R := rfl

theorem Rep.adds_inCheck {R : Rep} (h : R.inCheck = false) (l : List Item) : (R.adds l).inCheck = false := by
  have := Rep.flag_adds R false l
  rw [← h, Rep.flag_self, h, Bool.false_and] at this
  rw [this]
  rfl

/-- The state when execution is at a place with context `c`. -/
structure At (s : TS) (R : Rep) (c : Ctx) : Prop where
  core : core s = R.core
  cur : s.info.sections.current = R.opened
  ids : R.opened.map (·.id) = c.path
  caps : s.info.captures = c.caps
  last : s.info.locations.getLastD (0, .exact) = (c.loc, c.locType)
  room : c.path.length + 1 ≤ s.info.locations.length
  held : s.held = none
  inCheck : s.inCheck = R.inCheck
  unhandled : s.unhandled = false
  depth : s.info.sections.depth = c.path.length

/-- The state after an exception thrown at a place with context `a` has left code at a place with
context `c`, entered in state `s`. -/
structure Thrown (s s' : TS) (R' : Rep) (c a : Ctx) : Prop where
  core : core s' = R'.core
  inCheck : s'.inCheck = R'.inCheck
  unhandled : s'.unhandled = false
  caps : s'.info.captures = s.info.captures
  locs : s'.info.locations = s.info.locations
  cur : s'.info.sections.current = R'.opened.take c.path.length
  ids : R'.opened.map (·.id) = a.path
  deeper : c.path.length ≤ a.path.length
  hcur : (s'.held.getD s'.info).sections.current = R'.opened
  hcaps : (s'.held.getD s'.info).captures = a.caps
  hlast : (s'.held.getD s'.info).locations.getLastD (0, .exact) = (a.loc, a.locType)

/-- Nothing changed in how far the sections have been executed. -/
structure SameLevels (s s' : TS) : Prop where
  levels : s'.info.sections.levels = s.info.sections.levels
  depth : s'.info.sections.depth = s.info.sections.depth
  leaf : s'.info.sections.leaf = s.info.sections.leaf

theorem SameLevels.refl (s : TS) : SameLevels s s := ⟨rfl, rfl, rfl⟩

theorem SameLevels.trans {a b c : TS} (h : SameLevels a b) (h' : SameLevels b c) :
    SameLevels a c :=
  ⟨h'.levels.trans h.levels, h'.depth.trans h.depth, h'.leaf.trans h.leaf⟩

/-- The outcome `o` of code started in `s` at context `c` is what `x` says. -/
def Good (s : TS) (R : Rep) (c : Ctx) (x : List Item × Exit) (P : TS → Prop) (Q : TS → Ctx → Prop)
    (o : Outcome (TS × Res)) : Prop :=
  match x.2 with
  | .normal => ∃ s', o = .ok (s', .normal) ∧ At s' (R.adds x.1) c ∧
      s'.info.locations = s.info.locations ∧ P s'
  | .raised e a => ∃ s', o = .ok (s', .raised e) ∧ Thrown s s' (R.adds x.1) c a ∧ Q s' a

theorem Thrown.start {s s₁ s' : TS} {R : Rep} {c a : Ctx} (h : Thrown s₁ s' R c a)
    (hc : s₁.info.captures = s.info.captures) (hl : s₁.info.locations = s.info.locations) :
    Thrown s s' R c a :=
  { h with caps := h.caps.trans hc, locs := h.locs.trans hl }

/-- Continue after code that ended normally. -/
theorem Good.seq {s s₁ : TS} {R : Rep} {c : Ctx} {l : List Item} {y : List Item × Exit}
    {P P' : TS → Prop} {Q Q' : TS → Ctx → Prop} {o : Outcome (TS × Res)}
    (h : Good s₁ (R.adds l) c y P Q o) (hc : s₁.info.captures = s.info.captures)
    (hl : s₁.info.locations = s.info.locations) (hP : ∀ t, P t → P' t)
    (hQ : ∀ t a, Q t a → Q' t a) :
    Good s R c (l ++ y.1, y.2) P' Q' o := by
  unfold Good at h ⊢
  dsimp only
  cases hy : y.2 with
  | normal =>
    rw [hy] at h
    obtain ⟨s', h1, h2, h3, h4⟩ := h
    exact ⟨s', h1, by rwa [Rep.adds_append], h3.trans hl, hP _ h4⟩
  | raised e a =>
    rw [hy] at h
    obtain ⟨s', h1, h2, h3⟩ := h
    exact ⟨s', h1, by rw [Rep.adds_append]; exact h2.start hc hl, hQ _ _ h3⟩

theorem getLastD_append_singleton {α : Type} (l : List α) (x d : α) :
    (l ++ [x]).getLastD d = x := by
  simp [List.getLastD_eq_getLast?]

/-! ## Statements -/

/-- Forget what is held for an exception being handled. -/
def unhold (s : TS) : TS := { s with held := none }

theorem notify_unhold (cfg : Cfg) {s : TS}
    (h : ∀ i, s.held = some i → i.sections.current.length ≤ s.info.sections.current.length) :
    notify cfg s = unhold s ∧ notify cfg (unhold s) = unhold s := by
  constructor
  · unfold notify
    cases hs : s.held with
    | none => simp only [unhold]; cases s; simp_all
    | some i =>
      simp only [List.drop_eq_nil_of_le (h i hs), List.reverse_nil, closeHeld]
      rfl
  · exact notify_none cfg rfl

theorem unhold_self {s : TS} (h : s.held = none) : unhold s = s := by
  cases s; simp_all [unhold]

theorem registerAssertion_unhold (ok : Bool) (s : TS) :
    registerAssertion ok (unhold s) = unhold (registerAssertion ok s) := by
  unfold registerAssertion unhold
  dsimp only
  cases ok
  · simp only [Bool.false_eq_true, if_false]
    split <;> (unfold setState; split <;> rfl)
  · rfl

/-- What is held does not matter for a report, unless an exception is being reported. -/
theorem reportAssertion_unhold (cfg : Cfg) (ok : Bool) (data : Text) {s : TS} (h : s.unhandled = false) :
    reportAssertion cfg false ok data (unhold s) = unhold (reportAssertion cfg false ok data s) := by
  unfold reportAssertion
  have e : (unhold s).state = s.state := rfl
  rw [e]
  split
  · rfl
  · have hu := (registerAssertion_fields ok s).2.2.2
    rw [h] at hu
    have hc : assertionCtx false (unhold (registerAssertion ok s)) = assertionCtx false (registerAssertion ok s) := by
      have e : (unhold (registerAssertion ok s)).unhandled = false := hu
      unfold assertionCtx
      rw [e, hu]
      rfl
    simp only [registerAssertion_unhold, hc]
    cases ok
    · simp only [Bool.false_eq_true, if_false]
      unfold emit
      simp only [ge_iff_le, Nat.zero_le, if_true]
      rfl
    · simp only [if_true]
      unfold emit
      split <;> rfl

/-- Reporting an assertion about an exception that was caught, and forgetting it. -/
theorem report_caught (cfg : Cfg) (ok : Bool) (data : Text) {s : TS} (h : s.unhandled = false)
    (hh : ∀ i, s.held = some i → i.sections.current.length ≤ s.info.sections.current.length) :
    notify cfg (reportAssertion cfg false ok data s) = reportAssertion cfg false ok data (unhold s) := by
  obtain ⟨f1, f2, _, _⟩ := reportAssertion_fields (fl := false) cfg ok data s
  have hlen : ∀ i : Info, (countUnless ok s i).sections.current.length = i.sections.current.length := by
    intro i
    unfold countUnless
    split
    · rfl
    · simp [Info.count]
  rw [reportAssertion_unhold cfg ok data h]
  refine (notify_unhold cfg ?_).1
  intro i hi
  rw [f2] at hi
  obtain ⟨j, hj, rfl⟩ := Option.map_eq_some_iff.mp hi
  rw [f1, hlen, hlen]
  exact hh j hj

/-- A state in the check at `loc`, which was started in the state `s`. -/
structure Inside (s u : TS) (R : Rep) (c : Ctx) (loc : Nat) : Prop where
  at_ : At u R (Ctx.inside c loc)
  locs : u.info.locations = s.info.locations ++ [(loc, .inCheck)]
  caps : u.info.captures = s.info.captures
  same : SameLevels s u

/-- The place reported by a check. -/
def Rep.place (R : Rep) (c : Ctx) (loc : Nat) : Ctx :=
  if R.inCheck then Ctx.exactly c loc else Ctx.inside c loc

theorem Inside.ctx {s u : TS} {R : Rep} {c : Ctx} {loc : Nat} (h : Inside s u R c loc) :
    assertionCtx false u = R.place c loc := by
  unfold assertionCtx Rep.place
  simp only [h.at_.unhandled, Bool.false_or, Bool.false_eq_true, if_false, h.at_.last, h.at_.cur, h.at_.ids, h.at_.caps,
    h.at_.inCheck]
  split <;> rfl

/-- Ending a check, after a report that keeps the given fields. -/
theorem end_check {s : TS} {R R' : Rep} {c : Ctx} (h : At s R c) (loc : Nat) (i : Info)
    (u : TS) (hu : u.info = i.addLoc (loc, .inCheck)) (huh : u.held = none)
    (huu : u.unhandled = false)
    (hi : i.captures = s.info.captures ∧ i.locations = s.info.locations ∧
      i.sections.levels = s.info.sections.levels ∧ i.sections.depth = s.info.sections.depth ∧
      i.sections.leaf = s.info.sections.leaf)
    (hcore : core u = R'.core) (hcur : i.sections.current = R'.opened) (hin : R'.inCheck = false)
    (hids : R'.opened.map (·.id) = c.path) (r : Res) :
    (r = .normal → ∃ s', endCheck false r u = .ok (s', .normal) ∧ At s' R' c ∧
      s'.info.locations = s.info.locations ∧ SameLevels s s') ∧
    (∀ e, r = .raised e → ∃ s', endCheck false r u = .ok (s', .raised e) ∧
      Thrown s s' R' c (Ctx.inside c loc) ∧ SameLevels s s') := by
  have hlen : R'.opened.length = c.path.length := by rw [← hids]; simp
  constructor
  · rintro rfl
    rw [endCheck_ok .normal (loc, .inCheck) i hu huh]
    refine ⟨_, rfl, ?_, hi.2.1, ⟨hi.2.2.1, hi.2.2.2.1, hi.2.2.2.2⟩⟩
    constructor
    · exact hcore
    · exact hcur
    · exact hids
    · exact hi.1.trans h.caps
    · simp only [hi.2.1]; exact h.last
    · simp only [hi.2.1]; exact h.room
    · rfl
    · exact hin.symm
    · exact huu
    · exact hi.2.2.2.1.trans h.depth
  · rintro e rfl
    rw [endCheck_ok (.raised e) (loc, .inCheck) i hu huh]
    refine ⟨_, rfl, ?_, ⟨hi.2.2.1, hi.2.2.2.1, hi.2.2.2.2⟩⟩
    constructor
    · exact hcore
    · exact hin.symm
    · exact huu
    · exact hi.1
    · exact hi.2.1
    · simp only [hcur, ← hlen, List.take_length]
    · exact hids
    · exact Nat.le_refl _
    · simp only [reduceCtorEq, if_false, Option.getD_some, hu]; exact hcur
    · simp only [reduceCtorEq, if_false, Option.getD_some, hu]; exact hi.1.trans h.caps
    · simp only [reduceCtorEq, if_false, Option.getD_some, hu, Info.addLoc,
        getLastD_append_singleton]
      rfl

/-- What `Good` amounts to for a statement. -/
def GoodStmt (s : TS) (R : Rep) (c : Ctx) (x : List Item × Exit) (o : Outcome (TS × Res)) : Prop :=
  Good s R c x (fun s' => SameLevels s s') (fun s' a => SameLevels s s' ∧ a.path = c.path) o

theorem addLoc_self {i : Info} {lo : List (Nat × LocType)} {l : Nat × LocType} (h : i.locations = lo ++ [l]) :
    i = ({ i with locations := lo } : Info).addLoc l := by
  cases i; simp_all [Info.addLoc]

/-- Reporting an assertion in a check and ending the check. -/
theorem good_assert {cfg : Cfg} (hv : cfg.verbosity = 3) {s u : TS} {R₀ R : Rep} {c : Ctx} (h : At s R₀ c)
    {loc : Nat} (hu : Inside s u R c loc) (ok abort : Bool) (data : Text) (r : Res)
    (hr : r = if !ok && abort then .raised abortExn else .normal) :
    GoodStmt s R c (assertedAt (R.place c loc) c loc ok abort data)
      (endCheck false r (reportAssertion cfg false ok data u)) := by
  obtain ⟨f1, f2, f3, f4⟩ := reportAssertion_fields (fl := false) cfg ok data u
  have hcore := core_reportAssertion (fl := false) cfg ok data u
  rw [full_full hv, assertionCtx_registered, hu.ctx] at hcore
  have hcu : core u = R.core := hu.at_.core
  have hst : u.state = R.core.state := congrArg Core.state hcu
  have hmay : u.mayFail = R.core.mayFail := congrArg Core.mayFail hcu
  have hsh : u.shouldFail = R.core.shouldFail := congrArg Core.shouldFail hcu
  obtain ⟨j, hj⟩ : ∃ j : Info, j = { u.info with locations := s.info.locations } := ⟨_, rfl⟩
  have huj : u.info = j.addLoc (loc, .inCheck) := by rw [hj]; exact addLoc_self hu.locs
  obtain ⟨i, hi⟩ : ∃ i, i = countUnless ok u j := ⟨_, rfl⟩
  have hinfo : countUnless ok u u.info = i.addLoc (loc, .inCheck) := by
    rw [hi, huj]
    unfold countUnless
    split <;> rfl
  have hi' : i.captures = s.info.captures ∧ i.locations = s.info.locations ∧
      i.sections.levels = s.info.sections.levels ∧ i.sections.depth = s.info.sections.depth ∧
      i.sections.leaf = s.info.sections.leaf := by
    rw [hi, hj]
    unfold countUnless
    split <;> exact ⟨hu.caps, rfl, hu.same.levels, hu.same.depth, hu.same.leaf⟩
  have hjc : j.sections.current = R.opened := by rw [hj]; exact hu.at_.cur
  have hcur : i.sections.current = (R.add (.assertion ok (R.place c loc) data)).opened := by
    rw [hi]
    unfold countUnless Rep.add
    dsimp only
    rw [hst, hmay, hsh]
    split
    · exact hjc
    · simp only [Info.count, hjc]
  have hids : (R.add (.assertion ok (R.place c loc) data)).opened.map (·.id) = c.path := by
    have e : c.path = R.opened.map (·.id) := hu.at_.ids.symm
    rw [← hcur, hi, e, ← hjc]
    unfold countUnless
    split
    · rfl
    · exact count_ids ..
  have hend := end_check (R' := R.add (.assertion ok (R.place c loc) data)) h loc i
    (reportAssertion cfg false ok data u) (f1.trans hinfo) (by rw [f2, hu.at_.held]; rfl)
    (by rw [f4]; exact hu.at_.unhandled) hi' (by rw [hcore, hcu]; rfl) hcur rfl hids r
  unfold GoodStmt Good assertedAt
  dsimp only
  cases hb : (!ok && abort) with
  | true =>
    simp only [hb, if_true] at hr ⊢
    obtain ⟨s', h1, h2, h3⟩ := hend.2 _ hr
    exact ⟨s', h1, h2, h3, rfl⟩
  | false =>
    simp only [hb, Bool.false_eq_true, if_false] at hr ⊢
    obtain ⟨s', h1, h2, h3, h4⟩ := hend.1 hr
    exact ⟨s', h1, h2, h3, h4⟩

/-- Answering a check whose operand ended normally. -/
theorem answer_normal [MessageLimit] {cfg : Cfg} (hv : cfg.verbosity = 3) {s u : TS} {R₀ R : Rep} {c : Ctx} (h : At s R₀ c)
    {loc : Nat} (hu : Inside s u R c loc) (ask : Ask) :
    GoodStmt s R c (answered (R.place c loc) c loc ask .normal) (answer cfg false ask none u) := by
  cases ask with
  | check ok abort data =>
    refine good_assert hv h hu ok abort data _ ?_
    cases ok <;> cases abort <;> rfl
  | throwsAs type name abort => exact good_assert hv h hu false abort _ _ (by cases abort <;> rfl)
  | throwsMatches type name matched desc abort =>
    exact good_assert hv h hu false abort _ _ (by cases abort <;> rfl)
  | nothrow text abort => exact good_assert hv h hu true abort _ _ (by cases abort <;> rfl)

theorem joined_eq [MessageLimit] (a b : Text) : joined a b = shortened a b := by
  unfold joined shortened Verif.Spec.cut Verif.Spec.marker
  rw [List.length_append]

/-- Answering a check whose operand threw. -/
theorem answer_raised [MessageLimit] {cfg : Cfg} (hv : cfg.verbosity = 3) {s s₁ u : TS} {R₀ R : Rep} {c a : Ctx} (h : At s R₀ c)
    {loc : Nat} (hl : s₁.info.locations = s.info.locations ++ [(loc, .inCheck)])
    (hc : s₁.info.captures = s.info.captures) (hs : SameLevels s u)
    (ht : Thrown s₁ u R (Ctx.inside c loc) a) (ha : a.path = c.path) (ask : Ask) (e : Exn) :
    GoodStmt s R c (answered (R.place c loc) c loc ask (.raised e a)) (answer cfg false ask (some e) u) := by
  have hlen : R.opened.length = c.path.length := by rw [← ha, ← ht.ids]; simp
  have hcur : u.info.sections.current = R.opened := by
    rw [ht.cur]
    show R.opened.take c.path.length = _
    rw [← hlen, List.take_length]
  have hheld : ∀ i, u.held = some i → i.sections.current.length ≤ u.info.sections.current.length := by
    intro i hi
    have := ht.hcur
    rw [hi] at this
    simp only [Option.getD_some] at this
    rw [this, hcur]
    exact Nat.le_refl _
  have hin : Inside s (unhold u) R c loc :=
    { at_ :=
        { core := ht.core, cur := hcur, ids := ht.ids.trans ha
          caps := ht.caps.trans (hc.trans h.caps)
          last := by
            show u.info.locations.getLastD _ = _
            rw [ht.locs, hl, getLastD_append_singleton]
            rfl
          room := by
            show _ ≤ u.info.locations.length
            rw [ht.locs, hl, List.length_append]
            exact Nat.le_trans h.room (Nat.le_add_right _ _)
          held := rfl, inCheck := ht.inCheck, unhandled := ht.unhandled
          depth := hs.depth.trans h.depth }
      locs := ht.locs.trans hl
      caps := ht.caps.trans hc
      same := ⟨hs.levels, hs.depth, hs.leaf⟩ }
  have caught : ∀ ok d, notify cfg (reportAssertion cfg false ok d u) = reportAssertion cfg false ok d (unhold u) :=
    fun ok d => report_caught cfg ok d ht.unhandled hheld
  cases ask with
  | check ok abort data =>
    unfold GoodStmt Good answered
    dsimp only
    obtain ⟨v, hv'⟩ : ∃ v : TS, v = { u with
      inCheck := false
      held := some (u.held.getD u.info)
      info := { u.info with locations := s.info.locations } } := ⟨_, rfl⟩
    have hhold : hold true { u with inCheck := false } =
        { u with inCheck := false, held := some (u.held.getD u.info) } := by
      unfold hold
      cases hh : u.held with
      | none => simp
      | some i => simp [hh]
    have hend : endCheck false (.raised e) u = .ok (v, .raised e) := by
      unfold endCheck checkLeave popLocation
      simp [hhold, ht.locs, hl, hv']
    rw [hv'] at hend
    refine ⟨_, hend, ?_, ⟨hs.levels, hs.depth, hs.leaf⟩, ha⟩
    constructor
    · exact ht.core
    · rfl
    · exact ht.unhandled
    · exact ht.caps.trans hc
    · rfl
    · exact ht.cur
    · exact ht.ids
    · exact ht.deeper
    · simp only [Option.getD_some]; exact ht.hcur
    · simp only [Option.getD_some]; exact ht.hcaps
    · simp only [Option.getD_some]; exact ht.hlast
  | throwsAs type name abort =>
    simp only [answer, answered, Exit.thrown, throwsType, throwsAsMessage]
    cases hty : e.types.contains type with
    | true =>
      simp only [if_true]
      rw [caught]
      exact good_assert hv h hin true abort _ _ (by cases abort <;> rfl)
    | false =>
      simp only [Bool.false_eq_true, if_false]
      rw [caught]
      cases hw : e.what <;>
      · simp only [otherMessage, hw, joined_eq]
        exact good_assert hv h hin false abort _ _ (by cases abort <;> rfl)
  | throwsMatches type name matched desc abort =>
    simp only [answer, answered, Exit.thrown, throwsType, throwsMatchesMessage, joined_eq]
    cases hty : e.types.contains type with
    | true =>
      cases matched with
      | true =>
        simp only [if_true, Bool.not_true, Bool.false_eq_true, if_false, Bool.and_self]
        rw [caught]
        exact good_assert hv h hin true abort _ _ (by cases abort <;> rfl)
      | false =>
        simp only [if_true, Bool.not_false, Bool.false_eq_true, if_false, Bool.and_false]
        rw [caught]
        exact good_assert hv h hin false abort _ _ (by cases abort <;> rfl)
    | false =>
      simp only [Bool.false_eq_true, if_false, Bool.false_and]
      rw [caught]
      cases hw : e.what <;>
      · simp only [otherMessage, hw, joined_eq]
        exact good_assert hv h hin false abort _ _ (by cases abort <;> rfl)
  | nothrow text abort =>
    simp only [answer, answered, Exit.thrown, nothrowMessage]
    rw [caught]
    cases hw : e.what <;>
    · simp only [otherMessage, hw, joined_eq]
      exact good_assert hv h hin false abort _ _ (by cases abort <;> rfl)

/-- The start of a check. -/
theorem check_started {s : TS} {R : Rep} {c : Ctx} (h : At s R c) (loc : Nat) :
    Inside s { s with info := s.info.addLoc (loc, .inCheck), inCheck := true } (R.flag true) c loc where
  at_ :=
    { core := h.core, cur := h.cur, ids := h.ids, caps := h.caps
      last := by simp only [Info.addLoc, getLastD_append_singleton]; rfl
      room := by
        simp only [Info.addLoc, List.length_append]
        exact Nat.le_trans h.room (Nat.le_add_right _ _)
      held := h.held, inCheck := rfl, unhandled := h.unhandled, depth := h.depth }
  locs := rfl
  caps := rfl
  same := ⟨rfl, rfl, rfl⟩

/-- An exception thrown at a place, outside everything. -/
theorem thrown_here {s : TS} {R : Rep} {c : Ctx} (h : At s R c) : Thrown s s R c c := by
  have hlen : R.opened.length = c.path.length := by rw [← h.ids]; simp
  constructor
  · exact h.core
  · exact h.inCheck
  · exact h.unhandled
  · rfl
  · rfl
  · rw [← hlen, List.take_length]; exact h.cur
  · exact h.ids
  · exact Nat.le_refl _
  · rw [h.held]; exact h.cur
  · rw [h.held]; exact h.caps
  · rw [h.held]; exact h.last

theorem passStmt_asks [MessageLimit] {m : Stmt} {loc : Nat} {a : Ask} {ev : Option Exn} (h : m.asks = some (loc, a, ev))
    (c : Ctx) : passStmt c m = check c loc a ([], match ev with
      | none => .normal
      | some e => .raised e (Ctx.inside c loc)) := by
  cases m with
  | act | throw | notify | skip => simp [Stmt.asks] at h
  | check l e ab d =>
    cases e <;>
    · simp only [Stmt.asks, Option.some.injEq, Prod.mk.injEq] at h
      obtain ⟨rfl, rfl, rfl⟩ := h
      rfl
  | throwsAs l e =>
    simp only [Stmt.asks, Option.some.injEq, Prod.mk.injEq] at h
    obtain ⟨rfl, rfl, rfl⟩ := h
    cases e <;> rfl
  | throwsMatches l e =>
    simp only [Stmt.asks, Option.some.injEq, Prod.mk.injEq] at h
    obtain ⟨rfl, rfl, rfl⟩ := h
    cases e <;> rfl
  | nothrow l e =>
    simp only [Stmt.asks, Option.some.injEq, Prod.mk.injEq] at h
    obtain ⟨rfl, rfl, rfl⟩ := h
    cases e <;> rfl

/-- The items of an answer are those of a macro, so the flag before does not matter. -/
theorem adds_answered [MessageLimit] (R : Rep) (b : Bool) (p c : Ctx) (loc : Nat) (ask : Ask) (x : Exit) :
    (R.flag b).adds (answered p c loc ask x).1 = R.adds (answered p c loc ask x).1 := by
  cases ask with
  | check ok abort data => cases x <;> rfl
  | _ => rfl

theorem GoodStmt.unflag [MessageLimit] {s : TS} {R : Rep} {b : Bool} {c p : Ctx} {loc : Nat} {ask : Ask} {x : Exit}
    {o : Outcome (TS × Res)} (h : GoodStmt s (R.flag b) c (answered p c loc ask x) o) :
    GoodStmt s R c (answered p c loc ask x) o := by
  unfold GoodStmt Good at h ⊢
  rw [adds_answered] at h
  exact h

theorem exec_stmt_good [MessageLimit] {cfg : Cfg} (hv : cfg.verbosity = 3) {s : TS} {R : Rep} {c : Ctx}
    (h : At s R c) (hd : s.info.locations.length ≤ cfg.maxNested + 1) (m : Stmt) :
    GoodStmt s R c (passStmt c m) (execStmt cfg false m s) := by
  have hroom : s.info.locations.length < cfg.maxNested + 2 := by omega
  rcases m.kinds with ⟨a, rfl⟩ | ⟨e, rfl⟩ | rfl | ⟨loc, abort, msg, rfl⟩ | ⟨loc, a, ev, hm⟩
  · refine ⟨_, rfl, ?_, rfl, ⟨rfl, rfl, rfl⟩⟩
    exact { h with core := by simp [core, passStmt, Rep.adds, Rep.add, ← h.core, Core.step] }
  · exact ⟨s, rfl, thrown_here h, SameLevels.refl _, rfl⟩
  · refine ⟨s, ?_, h, rfl, SameLevels.refl _⟩
    simp only [execStmt, notify_none cfg h.held]
  · simp only [execStmt, checkEnter_ok loc h.held hroom, Outcome.bind_ok]
    obtain ⟨u, hu⟩ : ∃ u : TS, u = { s with info := s.info.addLoc (loc, .inCheck), inCheck := true } :=
      ⟨_, rfl⟩
    rw [← hu]
    obtain ⟨f1, f2, f3, f4⟩ := reportSkipped_fields cfg msg u
    have hcu : core u = R.core := by rw [hu]; exact h.core
    have hcore : core (reportSkipped cfg msg u) =
        (R.add (.skip (Ctx.exactly c loc) msg)).core := by
      have e3 := core_setState .skipped u
      obtain ⟨g1, g2, g3, g4⟩ := setState_fields .skipped u
      have hlog : (setState .skipped u).log = u.log := by unfold setState; split <;> rfl
      have hctx : ({ path := (setState .skipped u).info.sections.current.map (·.id)
                     caps := (setState .skipped u).info.captures
                     loc := ((setState .skipped u).info.locations.getLastD (0, .exact)).1
                     locType := .exact } : Ctx) = Ctx.exactly c loc := by
        rw [g1, hu]
        simp only [Info.addLoc, getLastD_append_singleton, Ctx.exactly, h.cur, h.ids, h.caps]
      simp only [reportSkipped, emit, hv, ge_iff_le, Nat.zero_le, if_true, hctx]
      simp only [Rep.add, Core.step, ← hcu]
      simp only [core, Core.mk.injEq] at e3 ⊢
      exact ⟨e3.1, e3.2.1, e3.2.2.1, e3.2.2.2.1, e3.2.2.2.2.1, e3.2.2.2.2.2.1, by rw [hlog]⟩
    have hend := end_check (R' := R.add (.skip (Ctx.exactly c loc) msg)) h loc s.info
      (reportSkipped cfg msg u) (by rw [f1, hu]) (by rw [f2, hu]; exact h.held)
      (by rw [f4, hu]; exact h.unhandled) ⟨rfl, rfl, rfl, rfl, rfl⟩ hcore h.cur rfl h.ids
      (maybeAbort abort)
    cases abort with
    | true =>
      obtain ⟨s', h1, h2, h3⟩ := hend.2 abortExn rfl
      exact ⟨s', h1, h2, h3, rfl⟩
    | false =>
      obtain ⟨s', h1, h2, h3, h4⟩ := hend.1 rfl
      exact ⟨s', h1, h2, h3, h4⟩
  · rw [execStmt_asks hm, passStmt_asks hm]
    simp only [checkEnter_ok loc h.held hroom, Outcome.bind_ok]
    have hin := check_started h loc
    cases ev with
    | none => exact (answer_normal hv h hin a).unflag
    | some e =>
      exact (answer_raised (s₁ := { s with info := s.info.addLoc (loc, .inCheck), inCheck := true }) hv h rfl rfl
        hin.same (thrown_here hin.at_) rfl a e).unflag

end Verif.Run
