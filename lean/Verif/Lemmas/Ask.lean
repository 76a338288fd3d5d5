import Verif.Model.TestCase
/-! # Statements that evaluate an operand -/
namespace Verif.Run

/-- The macro, its place and what its operand throws. -/
def Stmt.asks : Stmt → Option (Nat × Ask × Option Exn)
  | .act _ => none
  | .throw _ => none
  | .notify => none
  | .skip .. => none
  | .check loc (.val ok) abort data => some (loc, .check ok abort data, none)
  | .check loc (.exc e) abort data => some (loc, .check false abort data, some e)
  | .throwsAs loc ev type name abort => some (loc, .throwsAs type name abort, ev)
  | .throwsMatches loc ev type name matched desc abort =>
    some (loc, .throwsMatches type name matched desc abort, ev)
  | .nothrow loc ev text abort => some (loc, .nothrow text abort, ev)

theorem execStmt_asks [MessageLimit] {m : Stmt} {loc : Nat} {a : Ask} {ev : Option Exn} (h : m.asks = some (loc, a, ev))
    (cfg : Cfg) (fl : Bool) (s : TS) :
    execStmt cfg fl m s = (do let s ← checkEnter cfg fl loc s; answer cfg fl a ev s) := by
  cases m with
  | act | throw | notify | skip => simp [Stmt.asks] at h
  | check l e ab d => cases e <;> (simp only [Stmt.asks, Option.some.injEq, Prod.mk.injEq] at h; obtain ⟨rfl, rfl, rfl⟩ := h; rfl)
  | throwsAs | throwsMatches | nothrow =>
    simp only [Stmt.asks, Option.some.injEq, Prod.mk.injEq] at h
    obtain ⟨rfl, rfl, rfl⟩ := h
    rfl

/-- The kinds of statements. -/
theorem Stmt.kinds (m : Stmt) : (∃ a, m = .act a) ∨ (∃ e, m = .throw e) ∨ m = .notify ∨
    (∃ loc abort msg, m = .skip loc abort msg) ∨ ∃ loc a ev, m.asks = some (loc, a, ev) := by
  cases m with
  | act a => exact .inl ⟨a, rfl⟩
  | throw e => exact .inr (.inl ⟨e, rfl⟩)
  | notify => exact .inr (.inr (.inl rfl))
  | skip loc abort msg => exact .inr (.inr (.inr (.inl ⟨loc, abort, msg, rfl⟩)))
  | check l e ab d => cases e <;> exact .inr (.inr (.inr (.inr ⟨_, _, _, rfl⟩)))
  | throwsAs | throwsMatches | nothrow => exact .inr (.inr (.inr (.inr ⟨_, _, _, rfl⟩)))

end Verif.Run
