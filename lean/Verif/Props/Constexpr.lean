import Verif.Model.Constexpr
import Verif.Props.Decompose
import Verif.Props.Accounting
/-!
# C60: checks at compile time and at run time
-/
namespace Verif.Props
open Verif.Run Verif.Run.Spec

private theorem notify_held (cfg : Cfg) (s : TS) : (notify cfg s).held = none := by
  unfold notify
  split
  · assumption
  · rfl

private theorem leave_enter {cfg : Cfg} {loc : Nat} {s u : TS} (hu : checkEnter cfg false loc s = .ok u) (ok : Bool)
    (d : Text) :
    ∃ v, checkLeave false (reportAssertion cfg false ok d u) = .ok v ∧
      checkEnter cfg false loc v = .ok (reportAssertion cfg false ok d u) := by
  have hheld := notify_held cfg s
  obtain ⟨h1, h2, h3, -⟩ := reportAssertion_fields (fl := false) cfg ok d u
  rw [show checkEnter cfg false loc s = (do
    let s ← pushLocation cfg (loc, .inCheck) (notify cfg s)
    return { s with inCheck := true }) from rfl] at hu
  unfold pushLocation at hu
  split at hu
  case isFalse => cases hu
  case isTrue hlt =>
    simp only [Outcome.bind_ok, Outcome.pure_eq, Outcome.ok.injEq] at hu
    have hl : u.info.locations = (notify cfg s).info.locations ++ [(loc, .inCheck)] := by rw [← hu]
    have hi : u.inCheck = true := by rw [← hu]
    have hh : u.held = none := by rw [← hu]; exact hheld
    have hl' : (reportAssertion cfg false ok d u).info.locations = (notify cfg s).info.locations ++ [(loc, .inCheck)] := by
      rw [h1, ← hl]; unfold countUnless; split <;> rfl
    rw [hh] at h2
    rw [hi] at h3
    generalize reportAssertion cfg false ok d u = r at *
    refine ⟨{ r with inCheck := false, info := { r.info with locations := r.info.locations.dropLast } }, ?_, ?_⟩
    · simp [checkLeave, popLocation, hold, hl']
    · unfold checkEnter
      rw [arrive_none cfg (by exact h2)]
      simp only [pushLocation, hl', List.dropLast_concat]
      rw [if_pos hlt]
      simp only [Outcome.bind_ok, Outcome.pure_eq, Outcome.ok.injEq]
      rw [← hl', ← h3]

/-- **C60**: `CONSTEXPR_CHECK` (and `_REQUIRE`, `_FALSE`, `_THAT`) is a check of what was found at compile time, followed
by the same check at run time. In particular all that is proved of test bodies holds for bodies with these
macros. -/
theorem C60_two_checks [Run.MessageLimit] (cfg : Cfg) (loc : Nat) (abort compile : Bool) (compileData : Text) (run : Eval) (runData : Text)
    (s : TS) :
    constexprCheck cfg false loc abort compile compileData run runData s =
      exec cfg false (.stmt (.check loc (.val compile) abort compileData) (.stmt (.check loc run abort runData) .done)) s := by
  simp only [constexprCheck, exec, reportExpression, execStmt]
  simp only [answer]
  cases hu : checkEnter cfg false loc s with
  | abort => rfl
  | ub => rfl
  | ok u =>
    simp only [Outcome.bind_ok]
    obtain ⟨v, hv, hw⟩ := leave_enter hu compile compileData
    cases hr : (if compile = true then Res.normal else maybeAbort abort) with
    | raised e =>
      simp only [Bool.false_or, endCheck]
      cases checkLeave (decide (Res.raised e ≠ .normal)) (reportAssertion cfg false compile compileData u) <;> rfl
    | normal =>
      have : endCheck false .normal (reportAssertion cfg false compile compileData u) = .ok (v, .normal) := by
        simp [endCheck, hv]
      rw [this]
      simp only [Outcome.bind_ok, hw]
      cases run with
      | exc e =>
        simp only [Bool.false_or, endCheck, hw, Outcome.bind_ok]
        cases checkLeave (decide (Res.raised e ≠ .normal)) (reportAssertion cfg false compile compileData u) <;> rfl
      | val ok =>
        simp only [Bool.false_or, endCheck, hw, Outcome.bind_ok]
        generalize (if ok = true then Res.normal else maybeAbort abort) = r
        cases checkLeave (decide (r ≠ .normal)) (reportAssertion cfg false ok runData (reportAssertion cfg false compile compileData u))
          <;> cases r <;> rfl

/-- **C60**: `CONSTEVAL_CHECK` is a check of what was found at compile time. -/
theorem C60_one_check [Run.MessageLimit] (cfg : Cfg) (loc : Nat) (abort compile : Bool) (data : Text) (s : TS) :
    constevalCheck cfg false loc abort compile data s = exec cfg false (.stmt (.check loc (.val compile) abort data) .done) s := by
  simp only [constevalCheck, exec, execStmt, answer, reportExpression]
  cases hu : checkEnter cfg false loc s with
  | abort => rfl
  | ub => rfl
  | ok u =>
    simp only [Outcome.bind_ok, Bool.false_or, endCheck]
    generalize (if compile = true then Res.normal else maybeAbort abort) = r
    cases checkLeave (decide (r ≠ .normal)) (reportAssertion cfg false compile data u) <;> cases r <;> rfl

private theorem check_reported [Run.MessageLimit] {cfg : Cfg} (hv : cfg.verbosity = 3) {loc : Nat} {ok abort : Bool} {d : Text} {s s' : TS}
    {r : Res} (hheld : s.held = none) (hskip : s.state ≠ .skipped)
    (h : execStmt cfg false (.check loc (.val ok) abort d) s = .ok (s', r)) :
    ∃ e, s'.log = s.log ++ [e] ∧ isAssertion e = true ∧ isFailure e = !ok ∧ s'.asserts = s.asserts + 1 ∧
      r = (if !ok && abort then .raised abortExn else .normal) ∧ (r = .normal → s'.held = none) ∧
      s'.state ≠ .skipped := by
  simp only [execStmt] at h
  obtain ⟨u, hu, h⟩ := bind_eq_ok h
  unfold checkEnter pushLocation at hu
  rw [arrive_none cfg hheld] at hu
  split at hu
  case isFalse => cases hu
  case isTrue =>
    simp only [Outcome.bind_ok, Outcome.pure_eq, Outcome.ok.injEq] at hu
    have hus : u.state = s.state := by rw [← hu]
    have hul : u.log = s.log := by rw [← hu]
    have hua : u.asserts = s.asserts := by rw [← hu]
    have huh : u.held = none := by rw [← hu]; exact hheld
    have hrep : ∃ e, (reportAssertion cfg false ok d u).log = u.log ++ [e] ∧ isAssertion e = true ∧ isFailure e = !ok ∧
        (reportAssertion cfg false ok d u).asserts = u.asserts + 1 ∧ (reportAssertion cfg false ok d u).state ≠ .skipped := by
      have hu' : u.state ≠ .skipped := by rw [hus]; exact hskip
      have hc := core_reportAssertion (fl := false) cfg ok d u
      rw [full_full hv] at hc
      simp only [Core.steps, List.foldl_cons, List.foldl_nil, Core.step, core, hu', if_false] at hc
      cases ok with
      | true =>
        simp only [if_true, Core.mk.injEq] at hc
        refine ⟨_, hc.2.2.2.2.2.2, rfl, rfl, hc.1, ?_⟩
        simp [reportAssertion, registerAssertion, emit, hu', hv]
      | false =>
        have hst : (reportAssertion cfg false false d u).state ≠ .skipped := by
          simp only [reportAssertion, registerAssertion, emit, hu', setState, hv]
          revert hu'
          rcases u with ⟨_, _, _, _, _, mf, sf, _, _, st, _⟩
          cases st <;> cases mf <;> cases sf <;> simp [CaseState.toNat]
        simp only [Bool.false_eq_true, if_false] at hc
        split at hc <;> (simp only [Core.mk.injEq] at hc; exact ⟨_, hc.2.2.2.2.2.2, rfl, rfl, hc.1, hst⟩)
    have hh : (reportAssertion cfg false ok d u).held = none := by
      rw [(reportAssertion_fields (fl := false) cfg ok d u).2.1, huh]; rfl
    obtain ⟨e, h1, h2, h3, h4, h5⟩ := hrep
    simp only [answer] at h
    generalize reportAssertion cfg false ok d u = w at *
    have hr : (if ok = true then Res.normal else maybeAbort abort) =
        if (!ok && abort) = true then .raised abortExn else .normal := by
      cases ok <;> cases abort <;> rfl
    rw [hr] at h
    generalize (if (!ok && abort) = true then Res.raised abortExn else .normal) = r' at *
    unfold endCheck checkLeave popLocation at h
    obtain ⟨x, hx, h⟩ := bind_eq_ok h
    cases h
    split at hx
    · cases hx
    · cases hx
      refine ⟨e, ?_, h2, h3, ?_, rfl, ?_, ?_⟩
      · rw [← hul, ← h1]; simp only [hold]; split <;> rfl
      · rw [← hua, ← h4]; simp only [hold]; split <;> rfl
      · rintro rfl
        simpa [hold] using hh
      · simp only [hold]; split <;> exact h5

/-- **C60**: in a test that is not skipped, both verdicts are reported, that of the compile time first, and the two count
as two assertions; but if the first one fails, `CONSTEXPR_REQUIRE` ends the test at once. -/
theorem C60_reported [Run.MessageLimit] {cfg : Cfg} (hv : cfg.verbosity = 3) {loc : Nat} {abort compile run : Bool}
    {compileData runData : Text} {s s' : TS} {r : Res} (hheld : s.held = none) (hskip : s.state ≠ .skipped)
    (h : constexprCheck cfg false loc abort compile compileData (.val run) runData s = .ok (s', r)) :
    if (!compile && abort) = true then
      ∃ e, s'.log = s.log ++ [e] ∧ isAssertion e = true ∧ isFailure e = true ∧ s'.asserts = s.asserts + 1 ∧
        r = .raised abortExn
    else
      ∃ e e', s'.log = s.log ++ [e, e'] ∧ isAssertion e = true ∧ isAssertion e' = true ∧ isFailure e = !compile ∧
        isFailure e' = !run ∧ s'.asserts = s.asserts + 2 ∧
        r = if (!run && abort) = true then .raised abortExn else .normal := by
  rw [C60_two_checks] at h
  simp only [exec] at h
  obtain ⟨⟨u, ru⟩, hu, h⟩ := bind_eq_ok h
  obtain ⟨e, h1, h2, h3, h4, h5, h6, h7⟩ := check_reported hv hheld hskip hu
  split
  · rename_i hf
    rw [if_pos hf] at h5
    subst h5
    cases h
    refine ⟨e, h1, h2, ?_, h4, rfl⟩
    rw [h3]
    revert hf
    cases compile <;> simp
  · rename_i hf
    rw [if_neg hf] at h5
    subst h5
    dsimp only at h
    obtain ⟨⟨w, rw'⟩, hw, h⟩ := bind_eq_ok h
    obtain ⟨e', g1, g2, g3, g4, g5, -, -⟩ := check_reported hv (h6 rfl) h7 hw
    have : s' = w ∧ r = rw' := by
      cases rw' <;> (cases h; exact ⟨rfl, rfl⟩)
    obtain ⟨rfl, rfl⟩ := this
    exact ⟨e, e', by rw [g1, h1]; simp, h2, g2, h3, g3, by rw [g4, h4], g5⟩

/-- A test with a successful and a failing check at compile time. -/
def startOfTest : TS := { info := { locations := [(1, .testCaseScope)] } }

example : ∃ s', constexprCheck (defaults 3) false 7 true true "c".toList (.val false) "r".toList startOfTest =
    .ok (s', .raised abortExn) ∧ s'.asserts = 2 ∧ s'.log.length = 2 := ⟨_, rfl, by decide, by decide⟩
example : ∃ s', constexprCheck (defaults 3) false 7 true false "c".toList (.val true) "r".toList startOfTest =
    .ok (s', .raised abortExn) ∧ s'.asserts = 1 := ⟨_, rfl, by decide⟩
example : ∃ s', constexprCheck (defaults 3) false 7 false false "c".toList (.val true) "r".toList startOfTest =
    .ok (s', .normal) ∧ s'.asserts = 2 ∧ s'.failures = 1 := ⟨_, rfl, by decide, by decide⟩
example : startOfTest.held = none ∧ startOfTest.state ≠ .skipped ∧ (defaults 3).verbosity = 3 := by decide

/-- **C60**: a condition that means the same at compile time and at run time has the same verdict and the same values
displayed in both. -/
theorem C60_same_expression {α V : Type} (m : Decompose.Meaning α V) (always : Bool) (cap : Nat) (hcap : cap < 2 ^ 64)
    (expected : Bool) (condition : Cpp.Expr α) (spliced : Cpp.Expr (Option α)) :
    Decompose.requireImpl m always true cap expected condition spliced =
      Decompose.requireImpl m always false cap expected condition spliced := by
  unfold Decompose.requireImpl Expr.unary Expr.binary
  split <;> simp only [describe_eq always _ hcap]

/-- **C60**: likewise for a matcher. `n` is the capacity of an expression, `m` that of the description. -/
theorem C60_same_match {α : Type} (n m : Nat) (hn : n + 3 < 2 ^ 64) (mt : Expr.Matcher α) (v : α) :
    Expr.constexprThat n m mt v = Expr.checkThat n m mt v := by
  have hr : ∀ s : Text, Expr.resizeOrTruncate true n m s = Expr.resizeOrTruncate false n m s := by
    intro s
    unfold Expr.resizeOrTruncate
    split
    · rfl
    · split
      · obtain ⟨w, e, hw⟩ := Append.text_holds true (SV.holds_empty n ' ') (show n < sizeT by
          simp only [sizeT]; omega) s
        obtain ⟨w', e', hw'⟩ := Append.text_holds false (SV.holds_empty n ' ') (show n < sizeT by
          simp only [sizeT]; omega) s
        rw [e, e', Outcome.bind_ok, Outcome.bind_ok]
        dsimp only
        rw [hw.contents, hw'.contents]
      · obtain ⟨w, e, hw⟩ := Util.appendOrTruncate_holds true (SV.holds_empty n ' ') hn [s]
        obtain ⟨w', e', hw'⟩ := Util.appendOrTruncate_holds false (SV.holds_empty n ' ') hn [s]
        rw [e, e', Outcome.bind_ok, Outcome.bind_ok]
        dsimp only
        rw [hw.contents, hw'.contents]
  unfold Expr.constexprThat Expr.checkThat
  simp only [hr]

example : Decompose.requireImpl arithmetic false true 20 true sumCondition.1 sumCondition.2 =
    some (.ok { actual := "7 != 9".toList, success := false }) := by decide
example : Expr.constexprThat 20 40 (Expr.containsSubstring 40 "elk".toList) "hello".toList =
    .ok { actual := "could not find 'e...".toList, success := false } := by decide

end Verif.Props
