import Verif.Props.Accounting
import Verif.Props.Sections
/-!
# C68: checks made by destructors of local objects
-/
namespace Verif.Props
open Verif.Run Verif.Run.Spec

/-! ## What holds -/

private theorem pass_guarded [Run.MessageLimit] {b : Prog} (hl : leaves b = 0) (d k : Prog) (c : Ctx) (w : Option Nat) :
    pass (.block (.guard d b) k) c w = andThen (anyway (pass b c none) (pass d c none)) (pass k c w) := by
  rw [pass_block]
  have h1 : wantedIn (.guard d b) w = none := by
    cases w <;> simp [wantedIn, leaves, hl]
  have h2 : wantedAfter (.guard d b) w = w := by
    cases w <;> simp [wantedAfter, leaves, hl]
  rw [h1, h2]
  rfl

/-- **C68** (missing: blocks left by an exception, see `C68_misplaced`). When a block that is not interrupted has
been executed, the destructor of its local object runs, and its checks are reported with the sections and captures
around the block and with their own locations: `pass d` is told the context of the block and nothing else. -/
theorem C68_left_normally_partial [Run.MessageLimit] {cfg : Cfg} {t : TestCase} {tags : List Filter.ParsedTag} (hf : Fits cfg t tags)
    (ht : Always Tidy t.body) {fs : List Frame} {d b k : Prog} (hb : t.body.first = plug fs (.block (.guard d b) k))
    (hd : Calm d) (hc : Calm b) (hl : leaves b = 0) {fuel : Nat} (hfuel : passCount t.body.first ≤ fuel) :
    ∃ s rest, run cfg fuel t = some (.ok s) ∧
      s.log.filterMap observed = (itemsBefore fs ++ (pass b (contextOf t.loc fs) none).1 ++
        (pass d (contextOf t.loc fs) none).1).filter (Item.visible cfg.verbosity) ++ rest := by
  obtain ⟨s, h1, h2⟩ := C19_meaning hf ht hfuel
  obtain ⟨post, h3, _⟩ := passNo_place (pass_guarded hl d k) fs (hb ▸ ht 0) t.loc
  obtain ⟨rest, h4⟩ := story_first t.body.no (topCtx t.loc)
  rw [no_zero, hb] at h4
  rw [h3] at h4
  obtain ⟨q1, _⟩ := itemsBefore_quiet fs
  have hone : (itemsBefore fs ++ (anyway (pass b (contextOf t.loc fs) none)
      (pass d (contextOf t.loc fs) none)).1).any Item.isSkip = false := by
    simp only [anyway, List.any_append, q1, (calm_pass hc _ none).noSkip, (calm_pass hd _ none).noSkip]
    rfl
  obtain ⟨y, hy⟩ := caseStory_eq t (tags.contains .shouldFail)
  obtain ⟨r, hr, _⟩ := effective_append (l' := post ++ rest ++ y) hone
  refine ⟨s, r.filter (Item.visible cfg.verbosity), h1, ?_⟩
  rw [h2, hy, hb, h4]
  have e : itemsBefore fs ++ (anyway (pass b (contextOf t.loc fs) none) (pass d (contextOf t.loc fs) none)).1 ++
      post ++ rest ++ y = itemsBefore fs ++ (anyway (pass b (contextOf t.loc fs) none)
        (pass d (contextOf t.loc fs) none)).1 ++ (post ++ rest ++ y) := by
    simp only [List.append_assoc]
  rw [e, hr, List.filter_append]
  simp only [anyway, List.append_assoc]

/-- **C68** (missing: destructors that use the framework, see `C68_blamed`). When a block is left by an exception
that nobody catches, the destructor of its local object runs, and the exception is reported with the place where it
was thrown, though code has been executed since. -/
theorem C68_unwound_partial [Run.MessageLimit] {cfg : Cfg} {t : TestCase} {tags : List Filter.ParsedTag} (hf : Fits cfg t tags)
    (ht : Always Tidy t.body) (hsf : tags.contains .shouldFail = false) {fs : List Frame} {d b k : Prog}
    (hb : t.body.first = plug fs (.block (.guard d b) k)) (hd : Bare d) (hcd : Calm d) (hl : leaves b = 0) {e : Exn} {a : Ctx}
    (hr : (pass b (contextOf t.loc fs) none).2 = .raised e a) (he : e.isAbort = false)
    (hq : (pass b (contextOf t.loc fs) none).1.any Item.isSkip = false) {fuel : Nat} (hfuel : 1 ≤ fuel) :
    ∃ s, run cfg fuel t = some (.ok s) ∧
      s.log.filterMap observed = (itemsBefore fs ++ (pass b (contextOf t.loc fs) none).1 ++
        (outside d).map Item.act ++ [Item.assertion false a (unexpectedMessage e)] ++
        a.path.reverse.map fun id => Item.leave id true).filter (Item.visible cfg.verbosity) := by
  obtain ⟨s, h1, h2⟩ := thrown_log hf ht hsf (pass_guarded hl d k) hb (e := e) (a := a) hr (by
    simp only [anyway, List.any_append, hq, (calm_pass hcd _ none).noSkip]; rfl) he hfuel
  refine ⟨s, h1, ?_⟩
  have key : ∀ {d : Prog}, Bare d → Calm d → ∀ c, (pass d c none).1 = (outside d).map Item.act := by
    intro d
    induction d with
    | done => intros; rfl
    | stmt m k ih =>
      intro hb hc c
      cases m with
      | act a => simp [pass, passStmt, andThen, outside, ih hb hc.2 c]
      | throw e => cases hc.1
      | notify => cases hb
      | check => cases hb
      | skip => cases hb
      | throwsAs => cases hb
      | throwsMatches => cases hb
      | nothrow => cases hb
    | sec => intro hb; cases hb
    | capture => intro hb; cases hb
    | nested => intro hb; cases hb
    | tryCatch => intro _ hc; cases hc
    | block b k ih1 ih2 =>
      intro hb hc c
      simp only [pass]
      rw [andThen_normal (calm_pass hc.1 c none).exit]
      simp [ih1 hb.1 hc.1 c, ih2 hb.2 hc.2 c, outside]
    | guard g k ih1 ih2 =>
      intro hb hc c
      simp [pass, anyway, outside, ih1 hb.1 hc.1.1 c, ih2 hb.2 hc.2 c]
  rw [h2]
  simp only [anyway, key hd hcd, List.append_assoc]

private theorem endCheck_ub (fl : Bool) (r : Res) (s : TS) : endCheck fl r s ≠ .ub := by
  unfold endCheck checkLeave popLocation
  split <;> (intro h; cases h)

private theorem answer_ub [Run.MessageLimit] (cfg : Cfg) (fl : Bool) (ask : Ask) (ev : Option Exn) (s : TS) :
    answer cfg fl ask ev s ≠ .ub := by
  unfold answer
  split <;> split <;> try exact endCheck_ub _ _ _
  · split <;> exact endCheck_ub _ _ _
  · split
    · split <;> exact endCheck_ub _ _ _
    · exact endCheck_ub _ _ _

private theorem enter_ub {cfg : Cfg} {fl : Bool} {loc : Nat} {s : TS} {f : TS → Outcome (TS × Res)}
    (hf : ∀ s, f s ≠ .ub) : (checkEnter cfg fl loc s >>= f) ≠ .ub := by
  unfold checkEnter pushLocation
  split
  · exact hf _
  · intro h; cases h

private theorem execStmt_ub [Run.MessageLimit] (cfg : Cfg) (fl : Bool) (m : Stmt) (s : TS) : execStmt cfg fl m s ≠ .ub := by
  cases m with
  | act => intro h; cases h
  | throw => intro h; cases h
  | notify => intro h; cases h
  | check loc ev =>
    cases ev with
    | val => exact enter_ub fun s => answer_ub _ _ _ _ s
    | exc => exact enter_ub fun s => answer_ub _ _ _ _ s
  | skip => exact enter_ub fun s => endCheck_ub _ _ _
  | throwsAs => exact enter_ub fun s => answer_ub _ _ _ _ s
  | throwsMatches => exact enter_ub fun s => answer_ub _ _ _ _ s
  | nothrow => exact enter_ub fun s => answer_ub _ _ _ _ s

/-- **C68**. A statement that always ends a test (a `REQUIRE` that fails, `SKIP`, an exception that is not caught) ends
the whole program if it is executed by a destructor, however the block is left: destructors are `noexcept`. -/
theorem C68_ends_program [Run.MessageLimit] {cfg : Cfg} {fl : Bool} {m : Stmt} (hm : endsTest m = true) (k b : Prog) {s u : TS} {r : Res}
    (hb : exec cfg fl b s = .ok (u, r)) : exec cfg fl (.guard (.stmt m k) b) s = .abort := by
  simp only [exec, hb, Outcome.bind_ok]
  cases hx : execStmt cfg (fl || decide (r ≠ .normal)) m u with
  | abort => rfl
  | ub => exact absurd hx (execStmt_ub _ _ _ _)
  | ok x =>
    obtain ⟨v, y⟩ := x
    obtain ⟨e, rfl⟩ := raise_execStmt hm hx
    rfl

open Defaults in
example : exec (defaults 3) false (.guard (.stmt (.check 5 (.val false) true []) .done) (.stmt (.act 1) .done))
    { info := { locations := [(1, .testCaseScope)] } } = .abort :=
  C68_ends_program rfl .done (.stmt (.act 1) .done) rfl

/-! ## What does not hold: destructors run by an exception -/

/-- **C68** does not hold when the block is left by an exception that has already passed a section, a capture or a
check: then a check of a destructor is reported with the sections, captures and location of *that* place (with the
claim that the location is exact); its own location appears nowhere. -/
theorem C68_misplaced [Run.MessageLimit] {cfg : Cfg} {loc : Nat} {ok : Bool} (data : Text) {b : Prog} {s u : TS} {e : Exn} {h : Info}
    (hb : exec cfg false b s = .ok (u, .raised e)) (hheld : u.held = some h) (hskip : u.state ≠ .skipped)
    (hv : ok = true → 3 ≤ cfg.verbosity) (hroom : u.info.locations.length < cfg.maxNested + 2) :
    ∃ s', exec cfg false (.guard (.stmt (.check loc (.val ok) false data) .done) b) s = .ok (s', .raised e) ∧
      s'.log.filterMap observed = u.log.filterMap observed ++
        [.assertion ok ⟨h.sections.current.map (·.id), h.captures, (h.locations.getLastD (0, .exact)).1, .exact⟩ data] := by
  obtain ⟨w, hw⟩ : ∃ w : TS, w = { u with info := u.info.addLoc (loc, .inCheck), inCheck := true } := ⟨_, rfl⟩
  have he : checkEnter cfg true loc u = .ok w := by
    unfold checkEnter pushLocation arrive
    rw [if_pos hroom, hw]
    rfl
  have hlog : (reportAssertion cfg true ok data w).log.filterMap observed = u.log.filterMap observed ++
      [.assertion ok ⟨h.sections.current.map (·.id), h.captures, (h.locations.getLastD (0, .exact)).1, .exact⟩ data] := by
    have hws : w.state ≠ .skipped := by rw [hw]; exact hskip
    have hc : assertionCtx true w = ⟨h.sections.current.map (·.id), h.captures, (h.locations.getLastD (0, .exact)).1, .exact⟩ := by
      rw [hw]; simp [assertionCtx, hheld]
    have hl : (registerAssertion ok w).log = u.log := by
      unfold registerAssertion setState
      rw [hw]
      cases ok <;> (dsimp only; repeat' split) <;> first | rfl | contradiction
    unfold reportAssertion
    simp only [hws, if_false, assertionCtx_registered, hc]
    cases ok with
    | true => simp [emit, hv rfl, hl, observed]
    | false => simp [emit, hl, observed]
  obtain ⟨h1, -, -, -⟩ := reportAssertion_fields (fl := true) cfg ok data w
  have hne : (reportAssertion cfg true ok data w).info.locations ≠ [] := by
    rw [h1, hw]; unfold countUnless; split <;> simp [Info.addLoc]
  have hend : ∃ s', endCheck true .normal (reportAssertion cfg true ok data w) = .ok (s', .normal) ∧
      s'.log = (reportAssertion cfg true ok data w).log := by
    unfold endCheck checkLeave popLocation
    rw [hold_info, if_neg (by simpa using hne)]
    refine ⟨_, rfl, ?_⟩
    simp only [hold]
    split <;> rfl
  obtain ⟨s', e1, e2⟩ := hend
  refine ⟨s', ?_, by rw [e2, hlog]⟩
  simp only [exec, hb, Outcome.bind_ok, Bool.false_or]
  have hx : execStmt cfg (decide (Res.raised e ≠ .normal)) (.check loc (.val ok) false data) u =
      .ok (s', .normal) := by
    simp only [ne_eq, reduceCtorEq, not_false_eq_true, decide_true, execStmt, he, Outcome.bind_ok, answer]
    rw [← e1]
    cases ok <;> rfl
  rw [hx]
  rfl

/-- **C68** does not hold when the exception has not yet passed any section, capture or check: then the destructor's
check is reported as it should, but the exception is taken for one thrown by the operand of that check. The state is
the same as if the block had been left normally, its check been made, and the exception then been thrown in the operand
of a second check at the same place. -/
theorem C68_blamed [Run.MessageLimit] {cfg : Cfg} {loc : Nat} {ok : Bool} (data any : Text) (abort : Bool) (k : Prog) {b : Prog} {s u : TS}
    {e : Exn} (hb : exec cfg false b s = .ok (u, .raised e)) (hheld : u.held = none) :
    exec cfg false (.guard (.stmt (.check loc (.val ok) false data) .done) b) s =
      exec cfg false (.stmt (.check loc (.val ok) false data) (.stmt (.check loc (.exc e) abort any) k)) u := by
  by_cases hroom : ¬ u.info.locations.length < cfg.maxNested + 2
  · have hx : ∀ fl, checkEnter cfg fl loc u = .abort := by
      intro fl
      unfold checkEnter pushLocation
      rw [arrive_none cfg hheld, if_neg hroom]
      rfl
    simp only [exec, hb, Outcome.bind_ok, execStmt, hx]
    rfl
  · have hroom := Classical.not_not.mp hroom
    obtain ⟨w, hw⟩ : ∃ w : TS, w = { u with info := u.info.addLoc (loc, .inCheck), inCheck := true } := ⟨_, rfl⟩
    have he : ∀ fl, checkEnter cfg fl loc u = .ok w := by
      intro fl; rw [hw]; exact checkEnter_ok loc hheld hroom
    have hsame : reportAssertion cfg true ok data w = reportAssertion cfg false ok data w := by
      have hc : assertionCtx true w = assertionCtx false w := by
        rw [hw]; simp [assertionCtx, hheld]
      unfold reportAssertion
      simp only [assertionCtx_registered, hc]
    obtain ⟨h1, h2, h3, -⟩ := reportAssertion_fields (fl := false) cfg ok data w
    have hwh : (reportAssertion cfg false ok data w).held = none := by rw [h2, hw]; simp [hheld]
    have hwi : (reportAssertion cfg false ok data w).inCheck = true := by rw [h3, hw]
    have hinf : (reportAssertion cfg false ok data w).info = (countUnless ok w u.info).addLoc (loc, .inCheck) := by
      rw [h1, hw]; unfold countUnless; split <;> rfl
    have hroom' : (countUnless ok w u.info).locations.length < cfg.maxNested + 2 := by
      unfold countUnless; split <;> exact hroom
    simp only [exec, hb, Outcome.bind_ok, Bool.false_or, execStmt, he, answer, ne_eq, reduceCtorEq, not_false_eq_true,
      decide_true, hsame, maybeAbort, Bool.false_eq_true, if_false, ite_self]
    generalize reportAssertion cfg false ok data w = v at *
    rw [endCheck_ok .normal _ _ hinf hwh]
    simp only [Outcome.bind_ok, if_true]
    rw [checkEnter_ok loc rfl hroom']
    simp only [Outcome.bind_ok]
    rw [endCheck_ok (.raised e) (loc, .inCheck) (countUnless ok w u.info) rfl rfl]
    unfold endCheck checkLeave popLocation hold
    simp only [hwh, hinf, Info.addLoc]
    simp

/-- `CAPTURE(x); Guard g; { CAPTURE(y); throw; }` where the destructor of `g` makes a successful check at 7. -/
def throwPast : Prog :=
  .capture [['x']] (.guard (.stmt (.check 7 (.val true) false ['g']) .done)
    (.block (.capture [['y']] (.stmt (.throw ⟨[], none, false⟩) .done)) .done))

/-- `Guard g; throw;` in a section. -/
def throwBare : Prog :=
  .sec 10 5 (.guard (.stmt (.check 7 (.val true) false ['g']) .done) (.stmt (.throw ⟨[], none, false⟩) .done)) .done

open Defaults in
/-- **C68** fails: the check at 7, in the scope of one capture, is reported at 1, with two captures. -/
theorem C68_misplaced_check : ∃ s, run (defaults 3) 1 (plain throwPast) = some (.ok s) ∧
    s.log.filterMap observed =
      [.assertion true ⟨[], [['x'], ['y']], 1, .exact⟩ ['g'],
       .assertion false ⟨[], [['x'], ['y']], 1, .testCaseScope⟩ "unexpected unknown exception caught".toList] := by
  refine ⟨_, rfl, ?_⟩; decide

open Defaults in
/-- **C68** fails: the exception thrown in the section at 5 is reported as thrown in the check at 7, which has
succeeded before. -/
theorem C68_blamed_check : ∃ s, run (defaults 3) 1 (plain throwBare) = some (.ok s) ∧
    s.log.filterMap observed =
      [.enter 10 true, .assertion true ⟨[10], [], 7, .exact⟩ ['g'],
       .assertion false ⟨[10], [], 7, .inCheck⟩ "unexpected unknown exception caught".toList, .leave 10 true] := by
  refine ⟨_, rfl, ?_⟩; decide

open Defaults in
/-- **C68** fails: a destructor with `CHECK_THROWS_AS`, outside of the section in which an exception is thrown. The
section is reported to end before the failure that happened in it, and that failure is reported outside of it, in the
destructor's check. -/
theorem C68_forgotten : ∃ s, run (defaults 3) 1 (plain (.guard
      (.stmt (.throwsAs 7 (some ⟨[2], none, false⟩) 2 ['E'] false) .done)
      (.sec 10 5 (.stmt (.throw ⟨[], none, false⟩) .done) .done))) = some (.ok s) ∧
    s.log.filterMap observed =
      [.enter 10 true, .assertion true ⟨[10], [], 5, .exact⟩ "E was thrown as expected".toList, .leave 10 true,
       .assertion false ⟨[], [], 7, .inCheck⟩ "unexpected unknown exception caught".toList] := by
  refine ⟨_, rfl, ?_⟩; decide

/-! ## Examples -/

/-- A test with a destructor's check inside two sections and a capture. -/
def exampleDestructor : List Frame :=
  [.after 1, .inSection 10 1 (.stmt (.act 5) .done), .capture [['x']], .inSection 20 2 .done]

open Defaults in
example : ∃ s rest, run (defaults 3) 2 (plain (plug exampleDestructor
      (.block (.guard (.stmt (.check 9 (.val false) false ['d']) .done) (.stmt (.act 2) .done)) .done))) = some (.ok s) ∧
    s.log.filterMap observed = [.act 1, .enter 10 true, .enter 20 true, .act 2] ++
      [.assertion false ⟨[10, 20], [['x']], 9, .exact⟩ ['d']] ++ rest := by
  have h := C68_left_normally_partial (cfg := defaults 3) (t := plain (plug exampleDestructor
      (.block (.guard (.stmt (.check 9 (.val false) false ['d']) .done) (.stmt (.act 2) .done)) .done))) (fuel := 2)
    (plain_fits (by decide) (by decide)) (plain_always (by simp [plug, exampleDestructor, Tidy, Calm, leaves, calmStmt])) rfl
    (by simp [Calm, calmStmt]) (by simp [Calm, calmStmt]) rfl (by decide)
  exact h

open Defaults in
example : ∃ s, run (defaults 3) 1 (plain (plug exampleDestructor
      (.block (.guard (.stmt (.act 3) .done) (.stmt (.act 2) (.stmt (.throw ⟨[], none, false⟩) .done))) .done))) =
        some (.ok s) ∧
    s.log.filterMap observed = [.act 1, .enter 10 true, .enter 20 true, .act 2, .act 3,
      .assertion false ⟨[10, 20], [['x']], 2, .sectionScope⟩ "unexpected unknown exception caught".toList,
      .leave 20 true, .leave 10 true] := by
  have h := C68_unwound_partial (cfg := defaults 3) (t := plain (plug exampleDestructor
      (.block (.guard (.stmt (.act 3) .done) (.stmt (.act 2) (.stmt (.throw ⟨[], none, false⟩) .done))) .done)))
    (fuel := 1) (e := ⟨[], none, false⟩) (plain_fits (by decide) (by decide))
    (plain_always (by simp [plug, exampleDestructor, Tidy, Calm, leaves, calmStmt, Bare])) rfl rfl
    (by simp [Bare]) (by simp [Calm, calmStmt]) rfl rfl rfl (by decide) (by decide)
  exact h

open Defaults in
/-- Where `C68_misplaced` and `C68_blamed` apply: right after the blocks of `throwPast` and `throwBare`. -/
example : ∃ u, exec (defaults 3) false (.capture [['y']] (.stmt (.throw ⟨[], none, false⟩) .done))
      { info := { locations := [(1, .testCaseScope)] } } = .ok (u, .raised ⟨[], none, false⟩) ∧
    u.held = some { captures := [['y']], locations := [(1, .testCaseScope)] } ∧ u.state ≠ .skipped ∧
    u.info.locations.length < (defaults 3).maxNested + 2 := ⟨_, rfl, rfl, by decide, by decide⟩
open Defaults in
example : ∃ u, exec (defaults 3) false (.stmt (.act 1) (.stmt (.throw ⟨[], none, false⟩) .done))
      { info := { locations := [(1, .testCaseScope)] } } = .ok (u, .raised ⟨[], none, false⟩) ∧
    u.held = none := ⟨_, rfl, rfl⟩

end Verif.Props
