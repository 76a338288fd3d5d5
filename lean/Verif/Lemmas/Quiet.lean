import Verif.Spec.Quiet
import Verif.Model.Registry
import Verif.Lemmas.Accounting
/-! # Lemmas for C96 -/
namespace Verif.Run
open Verif.Run.Spec

private theorem endCheck_res {flight : Bool} {r : Res} {s : TS} {x : TS × Res} (h : endCheck flight r s = .ok x) : x.2 = r := by
  obtain ⟨a, _, h⟩ := bind_eq_ok h
  cases h
  rfl

variable [MessageLimit]

private theorem calmAsk_normal {cfg : Cfg} {flight : Bool} {ask : Ask} (ha : calmAsk ask = true) {s : TS} {x : TS × Res}
    (h : answer cfg flight ask none s = .ok x) : x.2 = .normal := by
  cases ask with
  | check ok abort data =>
    have := endCheck_res h
    cases ok <;> cases abort <;> simp_all [calmAsk, maybeAbort]
  | throwsAs type name abort =>
    have := endCheck_res h
    cases abort <;> simp_all [calmAsk, maybeAbort]
  | throwsMatches type name matched desc abort =>
    have := endCheck_res h
    cases abort <;> simp_all [calmAsk, maybeAbort]
  | nothrow text abort => exact endCheck_res h

theorem calmStmt_normal {cfg : Cfg} {flight : Bool} {m : Stmt} (hm : calmStmt m = true) {s : TS} {x : TS × Res}
    (h : execStmt cfg flight m s = .ok x) : x.2 = .normal := by
  cases m with
  | act a => cases h; rfl
  | throw e => cases hm
  | notify => cases h; rfl
  | skip => cases hm
  | check loc ev abort data =>
    cases ev with
    | exc e => cases hm
    | val ok =>
      obtain ⟨a, _, h⟩ := bind_eq_ok h
      exact calmAsk_normal (ask := .check ok abort data) hm h
  | throwsAs loc ev type name abort =>
    obtain ⟨a, _, h⟩ := bind_eq_ok h
    cases ev with
    | none => exact calmAsk_normal (ask := .throwsAs type name abort) (by simpa [calmStmt, throwsType, calmAsk] using hm) h
    | some e =>
      simp only [answer] at h
      simp only [calmStmt, throwsType] at hm
      split at h
      · exact endCheck_res h
      · have := endCheck_res h
        cases abort <;> simp_all [maybeAbort]
  | throwsMatches loc ev type name matched desc abort =>
    obtain ⟨a, _, h⟩ := bind_eq_ok h
    cases ev with
    | none => exact calmAsk_normal (ask := .throwsMatches type name matched desc abort) (by simpa [calmStmt, throwsType, calmAsk] using hm) h
    | some e =>
      simp only [answer] at h
      simp only [calmStmt, throwsType] at hm
      split at h
      · split at h
        · have := endCheck_res h
          cases abort <;> simp_all [maybeAbort]
        · exact endCheck_res h
      · have := endCheck_res h
        cases abort <;> simp_all [maybeAbort]
  | nothrow loc ev text abort =>
    obtain ⟨a, _, h⟩ := bind_eq_ok h
    cases ev with
    | none => exact endCheck_res h
    | some e =>
      have := endCheck_res h
      cases abort <;> simp_all [maybeAbort, calmStmt]

/-- Quiet code raises nothing. -/
theorem quiet_normal {cfg : Cfg} : ∀ {p : Prog} {flight : Bool} {s : TS} {x : TS × Res}, quiet p = true →
    exec cfg flight p s = .ok x → x.2 = .normal
  | .done, _, _, _, _, h => by cases h; rfl
  | .stmt m k, _, s, x, hq, h => by
    simp only [quiet, Bool.and_eq_true] at hq
    obtain ⟨⟨s1, r1⟩, h1, h⟩ := bind_eq_ok h
    have e := calmStmt_normal hq.1 h1
    cases e
    exact quiet_normal hq.2 h
  | .sec id loc b k, _, s, x, hq, h => by
    simp only [quiet, Bool.and_eq_true] at hq
    obtain ⟨⟨s1, en⟩, h1, h⟩ := bind_eq_ok h
    cases en with
    | false =>
      obtain ⟨s2, _, h⟩ := bind_eq_ok h
      exact quiet_normal hq.2 h
    | true =>
      obtain ⟨⟨s2, r2⟩, h2, h⟩ := bind_eq_ok h
      have e := quiet_normal hq.1 h2
      cases e
      obtain ⟨s3, _, h⟩ := bind_eq_ok h
      exact quiet_normal hq.2 h
  | .capture caps k, _, s, x, hq, h => by
    obtain ⟨s1, _, h⟩ := bind_eq_ok h
    obtain ⟨⟨s2, r2⟩, h2, h⟩ := bind_eq_ok h
    have e := quiet_normal (p := k) hq h2
    cases e
    obtain ⟨s3, _, h⟩ := bind_eq_ok h
    cases h
    rfl
  | .block b k, _, s, x, hq, h => by
    simp only [quiet, Bool.and_eq_true] at hq
    obtain ⟨⟨s1, r1⟩, h1, h⟩ := bind_eq_ok h
    have e := quiet_normal hq.1 h1
    cases e
    exact quiet_normal hq.2 h
  | .tryCatch ty b hd k, _, s, x, hq, h => by
    simp only [quiet, Bool.and_eq_true] at hq
    obtain ⟨⟨s1, r1⟩, h1, h⟩ := bind_eq_ok h
    have e := quiet_normal hq.1 h1
    cases e
    exact quiet_normal hq.2 h
  | .nested loc o ask k, _, s, x, hq, h => by
    simp only [quiet, Bool.and_eq_true] at hq
    obtain ⟨s0, _, h⟩ := bind_eq_ok h
    obtain ⟨⟨s1, r1⟩, h1, h⟩ := bind_eq_ok h
    have e := quiet_normal hq.1.2 h1
    cases e
    obtain ⟨⟨s2, r2⟩, h2, h⟩ := bind_eq_ok h
    have e := calmAsk_normal hq.1.1 h2
    cases e
    exact quiet_normal hq.2 h
  | .guard c k, _, s, x, hq, h => by
    simp only [quiet, Bool.and_eq_true] at hq
    obtain ⟨⟨s1, r1⟩, h1, h⟩ := bind_eq_ok h
    have e := quiet_normal hq.2 h1
    cases e
    obtain ⟨⟨s2, r2⟩, h2, h⟩ := bind_eq_ok h
    have e := quiet_normal hq.1 h2
    cases e
    cases h
    rfl

/-- Try blocks in which nothing is thrown make no difference. -/
theorem exec_unTry (cfg : Cfg) : ∀ (p : Prog) (flight : Bool) (s : TS), exec cfg flight (unTry p) s = exec cfg flight p s
  | .done, _, _ => rfl
  | .stmt m k, _, _ => by simp only [unTry, exec, exec_unTry cfg k]
  | .sec id loc b k, _, _ => by simp only [unTry, exec, exec_unTry cfg k, exec_unTry cfg b]
  | .capture caps k, _, _ => by simp only [unTry, exec, exec_unTry cfg k]
  | .block b k, _, _ => by simp only [unTry, exec, exec_unTry cfg k, exec_unTry cfg b]
  | .nested loc o ask k, _, _ => by simp only [unTry, exec, exec_unTry cfg k, exec_unTry cfg o]
  | .guard c k, _, _ => by simp only [unTry, exec, exec_unTry cfg k, exec_unTry cfg c]
  | .tryCatch ty b hd k, flight, s => by
    rw [unTry]
    split
    · rename_i hq
      simp only [exec, exec_unTry cfg k, exec_unTry cfg b]
      cases hb : exec cfg flight b s with
      | abort => rfl
      | ub => rfl
      | ok x =>
        obtain ⟨s1, r1⟩ := x
        have e := quiet_normal hq hb
        cases e
        rfl
    · simp only [exec, exec_unTry cfg k, exec_unTry cfg b, exec_unTry cfg hd]

omit [MessageLimit] in
theorem unTry_no (b : Body) (n : Nat) :
    ({ first := unTry b.first, later := b.later.map unTry } : Body).no n = unTry (b.no n) := by
  have hl : ∀ (l : List Prog) (d : Prog), (l.map unTry).getLastD (unTry d) = unTry (l.getLastD d) := by
    intro l
    induction l with
    | nil => intro d; rfl
    | cons a l ih => intro d; simpa only [List.map_cons, List.getLastD_cons] using ih a
  unfold Body.no
  dsimp only
  rw [hl, ← List.map_cons, List.getElem?_map]
  cases (b.first :: b.later)[n]? <;> rfl

theorem runLoop_congr {cfg : Cfg} {p q : Nat → Prog} (h : ∀ n s, exec cfg false (p n) s = exec cfg false (q n) s) :
    ∀ (fuel n : Nat) (s : TS), runLoop cfg p fuel n s = runLoop cfg q fuel n s
  | 0, _, _ => rfl
  | fuel + 1, n, s => by simp only [runLoop, h, runLoop_congr h fuel]

/-- A test does the same without the try blocks in which nothing is thrown. -/
theorem run_unTry (cfg : Cfg) (fuel : Nat) (t : TestCase) : run cfg fuel (unTryTest t) = run cfg fuel t := by
  have h : ∀ n s, exec cfg false ((unTryTest t).body.no n) s = exec cfg false (t.body.no n) s := by
    intro n s
    show exec cfg false (({ first := unTry t.body.first, later := t.body.later.map unTry } : Body).no n) s = _
    rw [unTry_no, exec_unTry]
  unfold run
  rw [show runLoop cfg (unTryTest t).body.no = runLoop cfg t.body.no from by funext a b c; exact runLoop_congr h a b c]
  rfl

end Verif.Run

namespace Verif.Reg
open Verif.Run.Spec
variable [Run.MessageLimit]

/-- A case whose test lost its quiet try blocks. -/
def unTryCase (c : Case) : Case := { c with test := unTryTest c.test }

/-- The cases, as they are after a run, without the quiet try blocks. -/
private def unTryAcc (a : Acc) : Acc := { a with cases := a.cases.map unTryCase }

private theorem runEach_unTry (lim : Limits) (fuel : Nat) (pred : Filter.TestId → Outcome Bool) : ∀ (cs : List Case) (acc : Acc),
    runEach lim fuel pred (cs.map unTryCase) (unTryAcc acc) = (runEach lim fuel pred cs acc).map (· >>= fun a => .ok (unTryAcc a))
  | [], _ => rfl
  | c :: cs, acc => by
    have ih := runEach_unTry lim fuel pred cs
    simp only [List.map_cons, runEach]
    have hr : Run.run lim.cfg fuel (unTryCase c).test = Run.run lim.cfg fuel c.test := Run.run_unTry ..
    rw [hr, show (unTryCase c).test.id = c.test.id from rfl]
    cases pred c.test.id with
    | abort => rfl
    | ub => rfl
    | ok b =>
      cases b with
      | false =>
        have e := ih { acc with cases := acc.cases ++ [c] }
        simp only [unTryAcc, List.map_append, List.map_cons, List.map_nil] at e
        exact e
      | true =>
        dsimp only
        cases Run.run lim.cfg fuel c.test with
        | none => rfl
        | some o =>
          cases o with
          | abort => rfl
          | ub => rfl
          | ok s =>
            have e := ih { cases := acc.cases ++ [{ c with state := s.state }], totals := acc.totals.add s, log := acc.log ++ s.log }
            simp only [unTryAcc, List.map_append, List.map_cons, List.map_nil] at e
            exact e

private def unTryOut {α : Type} (o : Option (Outcome (List Case × α × Bool))) : Option (Outcome (List Case × α × Bool)) :=
  o.map (· >>= fun x => .ok (x.1.map unTryCase, x.2.1, x.2.2))

private theorem runSelected_unTry (lim : Limits) (fuel : Nat) (pred : Filter.TestId → Outcome Bool) (cs : List Case) :
    runSelected lim fuel pred (cs.map unTryCase) = unTryOut (runSelected lim fuel pred cs) := by
  have e := runEach_unTry lim fuel pred cs { log := shown lim 1 .runStarted }
  unfold runSelected
  rw [show ({ log := shown lim 1 .runStarted } : Acc) = unTryAcc { log := shown lim 1 .runStarted } from rfl, e]
  show _ = unTryOut (match runEach lim fuel pred cs { log := shown lim 1 .runStarted } with
    | none => none
    | some .abort => some .abort
    | some .ub => some .ub
    | some (.ok acc) => _)
  cases runEach lim fuel pred cs { log := shown lim 1 .runStarted } with
  | none => rfl
  | some o => cases o <;> rfl

omit [Run.MessageLimit] in
private theorem listLoop_unTry (pred : Filter.TestId → Outcome Bool) : ∀ cs : List Case,
    listLoop pred (cs.map unTryCase) = listLoop pred cs
  | [] => rfl
  | c :: cs => by
    simp only [List.map_cons, listLoop, listLoop_unTry pred cs]
    rfl

omit [Run.MessageLimit] in
private theorem listTests_unTry (pred : Filter.TestId → Outcome Bool) (cs : List Case) :
    listTests pred (cs.map unTryCase) = listTests pred cs := by
  unfold listTests
  rw [listLoop_unTry]

omit [Run.MessageLimit] in
private theorem collectTags_unTry (lim : Limits) : ∀ (cs : List Case) (tags : List Text),
    collectTags lim (cs.map unTryCase) tags = collectTags lim cs tags
  | [], _ => rfl
  | c :: cs, tags => by
    simp only [List.map_cons, collectTags, collectTags_unTry lim cs]
    rfl

omit [Run.MessageLimit] in
private theorem afterListing_unTry (cs : List Case) (o : Outcome (List Out)) :
    afterListing (cs.map unTryCase) o = unTryOut (afterListing cs o) := by
  cases o <;> rfl

omit [Run.MessageLimit] in
private theorem afterRun_unTry (o : Option (Outcome (List Case × List Run.Event × Bool))) :
    afterRun (unTryOut o) = unTryOut (afterRun o) := by
  cases o with
  | none => rfl
  | some o => cases o <;> rfl

private theorem runTests_unTry (lim : Limits) (fuel : Nat) (reporters : List Text) (args : Cli.Input) (cs : List Case) :
    runTests lim fuel reporters args (cs.map unTryCase) = unTryOut (runTests lim fuel reporters args cs) := by
  unfold runTests
  split
  · rfl
  · split
    · split
      · rfl
      · rw [listTestsWithTag, listTests_unTry, afterListing_unTry]
        rfl
    · split
      · rw [listAllTags, collectTags_unTry, afterListing_unTry]
        rfl
      · split
        · rfl
        · split
          · rfl
          · rfl
          · unfold runOrList
            split
            · split
              · rw [listAllTests, listTests_unTry, afterListing_unTry]
                rfl
              · rw [runSelected_unTry, afterRun_unTry]
            · dsimp only
              split
              · rw [listTests_unTry, afterListing_unTry]
              · rw [runSelected_unTry, afterRun_unTry]

/-- A program does the same without the try blocks in which nothing is thrown. -/
theorem main_unTry (lim : Limits) (fuel maxArgs : Nat) (reporters : List Text) (init : Nat → Nat → Nat) (config : Cli.Config)
    (argv0 : Text) (argv : List Text) (cs : List Case) :
    main lim fuel maxArgs reporters init config argv0 argv (cs.map unTryCase) =
      main lim fuel maxArgs reporters init config argv0 argv cs := by
  unfold main
  simp only [runTests_unTry]
  split <;> try rfl
  split <;> try rfl
  generalize runTests _ _ _ _ _ = o
  cases o with
  | none => rfl
  | some o => cases o <;> rfl

end Verif.Reg
