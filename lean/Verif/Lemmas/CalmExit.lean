import Verif.Spec.TestCase
/-! # Uninterrupted bodies are tidy and end normally -/
namespace Verif.Run
open Spec

theorem calm_tidy {K : Prog} (h : Calm K) : Tidy K := by
  induction K with
  | done => trivial
  | stmt m k ih => exact ih h.2
  | sec id loc b k ihb ihk => exact ⟨ihb h.1, ihk h.2⟩
  | capture caps k ih => exact ih h
  | block b k ihb ihk => exact ⟨ihb h.1, ihk h.2⟩
  | tryCatch => exact absurd h (by simp [Calm])
  | nested loc o ask k iho ihk => exact ⟨⟨iho h.2.1.1, h.2.1.2⟩, ihk h.2.2⟩
  | guard cl k _ ihk => exact ⟨h.1, Or.inr h.2, ihk h.2⟩

theorem calm_assertedAt_exit (p c : Ctx) (loc : Nat) {ok abort : Bool} (data : Text)
    (h : (ok || !abort) = true) : (assertedAt p c loc ok abort data).2 = .normal := by
  cases ok <;> cases abort <;> simp at h <;> rfl

theorem calm_stmt_exit [MessageLimit] {m : Stmt} (h : calmStmt m = true) (c : Ctx) : (passStmt c m).2 = .normal := by
  cases m with
  | act a => rfl
  | notify => rfl
  | throw e => cases h
  | skip => cases h
  | check loc ev abort data =>
    cases ev with
    | exc e => cases h
    | val ok => exact calm_assertedAt_exit _ c loc _ h
  | throwsAs => exact calm_assertedAt_exit _ c _ _ h
  | throwsMatches => exact calm_assertedAt_exit _ c _ _ h
  | nothrow => exact calm_assertedAt_exit _ c _ _ h

theorem calm_check_exit [MessageLimit] {ask : Ask} (h : calmAsk ask = true) (c : Ctx) (loc : Nat) {x : List Item × Exit}
    (hx : x.2 = .normal) : (check c loc ask x).2 = .normal := by
  simp only [check, hx]
  cases ask with
  | check ok abort data => exact calm_assertedAt_exit _ c loc _ h
  | throwsAs ty n abort => exact calm_assertedAt_exit _ c loc _ (by simpa [Exit.thrown, throwsType, calmAsk] using h)
  | throwsMatches ty n m d abort =>
    exact calm_assertedAt_exit _ c loc _ (by simpa [Exit.thrown, throwsType, calmAsk] using h)
  | nothrow t abort => exact calm_assertedAt_exit _ c loc _ (by simp [Exit.thrown])

theorem andThen_exit {x y : List Item × Exit} (hx : x.2 = .normal) (hy : y.2 = .normal) :
    (andThen x y).2 = .normal := by
  unfold andThen; rw [hx]; exact hy

theorem calm_exit [MessageLimit] {K : Prog} (h : Calm K) : ∀ c w, (pass K c w).2 = .normal := by
  induction K with
  | done => exact fun c w => rfl
  | stmt m k ih => exact fun c w => andThen_exit (calm_stmt_exit h.1 c) (ih h.2 c w)
  | sec id loc b k ihb ihk =>
    intro c w
    cases w with
    | none => exact ihk h.2 c none
    | some n =>
      simp only [pass]
      split
      · exact andThen_exit rfl (andThen_exit (ihb h.1 _ _) (andThen_exit rfl (ihk h.2 _ _)))
      · exact ihk h.2 _ _
  | capture caps k ih => exact fun c w => ih h _ _
  | block b k ihb ihk =>
    intro c w
    cases w with
    | none => exact andThen_exit (ihb h.1 _ _) (ihk h.2 _ _)
    | some n =>
      simp only [pass]
      split
      · exact andThen_exit (ihb h.1 _ _) (ihk h.2 _ _)
      · exact andThen_exit (ihb h.1 _ _) (ihk h.2 _ _)
  | tryCatch => exact absurd h (by simp [Calm])
  | nested loc o ask k iho ihk =>
    exact fun c w => andThen_exit (calm_check_exit h.1 c loc (iho h.2.1.1 _ _)) (ihk h.2.2 _ _)
  | guard cl k _ ihk => exact fun c w => ihk h.2 c w

end Verif.Run
