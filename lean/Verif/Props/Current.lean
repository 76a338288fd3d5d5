import Verif.Spec.Current
/-!
# C47: nested runs
-/
namespace Verif.Props
open Verif.Current Verif.Current.Spec

/-- **C47**, attribution: code executed while test `t` is running never terminates the program; after
it, `t` is again the current test; and every use went to the innermost test around it: nested runs, at
any depth, whether they complete or raise, do not disturb the test that runs them. -/
theorem C47_attribution : ∀ (c : Code) (t next : Nat) (log : List (Nat × Use)),
    exec c ⟨some t, next, log⟩ =
      .ok (⟨some t, next + (uses t next c).2.1, log ++ (uses t next c).1⟩, (uses t next c).2.2) := by
  intro c
  induction c with
  | done => intro t next log; simp [exec, uses]
  | use here k ih =>
    intro t next log
    rw [exec, touch]
    dsimp only
    rw [Outcome.bind_ok, ih]
    simp [uses]
  | raise => intro t next log; simp [exec, uses]
  | handle body k ihb ihk =>
    intro t next log
    rw [exec, ihb, Outcome.bind_ok]
    dsimp only
    rw [ihk]
    simp [uses, Nat.add_assoc]
  | runTest body k ihb ihk =>
    intro t next log
    rw [exec]
    dsimp only
    rw [ihb, Outcome.bind_ok, touch]
    dsimp only
    rw [Outcome.bind_ok, ihk]
    simp [uses, Nat.add_assoc]

/-- **C47**, restoration: whatever was running before (possibly nothing) is the current test again
after any piece of code that returns or raises. -/
theorem C47_restored : ∀ (c : Code) (s s' : Thread) (raised : Bool), exec c s = .ok (s', raised) →
    s'.current = s.current := by
  intro c
  induction c with
  | done => intro s s' r h; simp only [exec, Outcome.ok.injEq, Prod.mk.injEq] at h; rw [h.1]
  | use here k ih =>
    intro s s' r h
    rw [exec, touch] at h
    split at h
    · cases h
    · rename_i t ht
      rw [Outcome.bind_ok] at h
      exact (ih _ _ _ h :)
  | raise => intro s s' r h; simp only [exec, Outcome.ok.injEq, Prod.mk.injEq] at h; rw [h.1]
  | handle body k ihb ihk =>
    intro s s' r h
    rw [exec] at h
    cases e : exec body s with
    | abort => rw [e] at h; cases h
    | ub => rw [e] at h; cases h
    | ok x =>
      rw [e, Outcome.bind_ok] at h
      exact (ihk _ _ _ h).trans (ihb _ _ _ e)
  | runTest body k ihb ihk =>
    intro s s' r h
    rw [exec] at h
    dsimp only at h
    rw [C47_attribution, Outcome.bind_ok, touch] at h
    dsimp only at h
    rw [Outcome.bind_ok] at h
    exact (ihk _ _ _ h :)

/-- **C47**, no test running: the program terminates exactly if a use outside every test is reached. -/
theorem C47_no_test : ∀ (c : Code) (next : Nat) (log : List (Nat × Use)),
    ((stray c).1 = true → exec c ⟨none, next, log⟩ = .abort) ∧
    ((stray c).1 = false → ∃ n l, exec c ⟨none, next, log⟩ = .ok (⟨none, n, l⟩, (stray c).2)) := by
  intro c
  induction c with
  | done => intro next log; exact ⟨fun h => by simp [stray] at h, fun _ => ⟨_, _, rfl⟩⟩
  | use here k ih => intro next log; exact ⟨fun _ => rfl, fun h => by simp [stray] at h⟩
  | raise => intro next log; exact ⟨fun h => by simp [stray] at h, fun _ => ⟨_, _, rfl⟩⟩
  | handle body k ihb ihk =>
    intro next log
    rw [exec]
    by_cases hb : (stray body).1 = true
    · rw [(ihb next log).1 hb]
      exact ⟨fun _ => rfl, fun h => by simp [stray, hb] at h⟩
    · obtain ⟨n, l, e⟩ := (ihb next log).2 (by simpa using hb)
      rw [e, Outcome.bind_ok]
      simp only [stray, hb, Bool.false_or]
      exact ihk n l
  | runTest body k ihb ihk =>
    intro next log
    rw [exec]
    dsimp only
    rw [C47_attribution, Outcome.bind_ok, touch]
    dsimp only
    rw [Outcome.bind_ok]
    simp only [stray]
    exact ihk _ _

/-- A test whose body runs another test, which aborts, between two checks, and then raises itself. -/
def nestedRuns : Code :=
  .runTest (.use 1 (.runTest (.use 2 .raise) (.use 3 .raise))) .done

example : exec nestedRuns ⟨none, 0, []⟩ =
    .ok (⟨none, 2, [(0, .at 1), (1, .at 2), (1, .closing), (0, .at 3), (0, .closing)]⟩, false) := by
  decide
example : exec (.runTest (.use 1 .done) (.use 2 .done)) ⟨none, 0, []⟩ = .abort := by decide
example : (stray nestedRuns).1 = false ∧ (stray (.runTest (.use 1 .done) (.use 2 .done))).1 = true := by
  decide

end Verif.Props
