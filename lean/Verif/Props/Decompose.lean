import Verif.Lemmas.Decompose
import Verif.Props.Expression
/-!
# C59: what the checking macros make of a condition
-/
namespace Verif.Props
open Verif.Cpp Verif.Decompose Verif.Expr.Spec

/-- **C59**: whatever is written, made of operands and binary operators, the C++ grammar groups in exactly one
way. -/
theorem C59_grouping {α : Type} (first : α) (rest : List (Op × α)) :
    ∃ e : Cpp.Expr α, e.Grouped ∧ e.written = (first, rest) ∧
      ∀ e' : Cpp.Expr α, e'.Grouped → e'.written = (first, rest) → e' = e := by
  obtain ⟨h1, h2⟩ := parse_grouped first rest
  exact ⟨_, h1, h2, fun e' h3 h4 => grouped_unique h3 h1 (h4.trans h2.symm)⟩

private theorem comparison_eq {α V : Type} (m : Meaning α V) {o : Op} (h : o.isComparison = true) :
    ∃ o', comparison o = some o' ∧ ∀ l r, meaning o' m.comparisons l r = m.truth (m.operator o l r) := by
  cases o <;> first | exact ⟨_, rfl, fun _ _ => rfl⟩ | exact absurd h (by decide)

/-- **C59**: a condition, with `expression_extractor <=` written in front, which may group it differently, is judged by
its own value: `CHECK` passes exactly if the condition, as C++ groups it, is true, `CHECK_FALSE` exactly if it is
false. The exception is a condition with a comma behind something that could not be displayed anyway: the compiler
refuses it. -/
theorem C59_meaning {α V : Type} (m : Meaning α V) (always ce : Bool) (cap : Nat) (hcap : cap < 2 ^ 64) (expected : Bool)
    (condition : Cpp.Expr α) (spliced : Cpp.Expr (Option α)) (h : condition.Grouped) (h' : spliced.Grouped)
    (hw : spliced.written =
      (none, (.le, some condition.written.1) :: condition.written.2.map fun w => (w.1, some w.2))) :
    ((∃ l r, condition = .node l .comma r ∧ ¬Simple l) ∧
      requireImpl m always ce cap expected condition spliced = none) ∨
    ((¬∃ l r, condition = .node l .comma r ∧ ¬Simple l) ∧
      ∃ e, requireImpl m always ce cap expected condition spliced = some (.ok e) ∧
        (e.success = true ↔ m.truth (condition.value m.operand m.operator) = expected)) := by
  unfold requireImpl
  rw [form_spliced h h' hw]
  by_cases ht : 8 < condition.level
  · rw [outcome_tight ht]
    refine .inr ⟨?_, ?_⟩
    · rintro ⟨l, r, rfl, _⟩
      exact absurd ht (by show ¬8 < 0; omega)
    · obtain ⟨e, h1, h2⟩ := (C36_verdict always ce cap hcap expected m.comparisons .less m.display m.display
        (condition.value m.operand m.operator) (condition.value m.operand m.operator) m.truth).2.1
      exact ⟨e, by simp only [h1], h2⟩
  · obtain ⟨l, o, r, rfl, ho, h1 | h1 | h1⟩ := outcome_spec condition h ht
    · obtain ⟨h2, h3, h4⟩ := h1
      rw [h4]
      refine .inr ⟨?_, ?_⟩
      · rintro ⟨l, r, hc, _⟩
        cases hc
        cases h2
      · obtain ⟨o', h5, h6⟩ := comparison_eq m h2
        obtain ⟨e, h7, h8⟩ := (C36_verdict always ce cap hcap expected m.comparisons o' m.display
          m.display (l.value m.operand m.operator) (r.value m.operand m.operator) m.truth).1
        refine ⟨e, ?_, ?_⟩
        · simp only [h5, Option.map_some, h7]
        · rw [h8, h6]; rfl
    · obtain ⟨h2, h3, h4⟩ := h1
      rw [h4]
      exact .inl ⟨⟨l, r, by rw [h2], h3⟩, rfl⟩
    · obtain ⟨h2, h3, h4⟩ := h1
      rw [h4]
      refine .inr ⟨?_, _, rfl, ?_⟩
      · rintro ⟨l', r', hc, hs⟩
        cases hc
        exact h3 ⟨rfl, hs⟩
      · simp [Expr.undecomposed]

/-- **C59**: what is displayed for a condition that fails (or for all, if successful ones are displayed too): for a
comparison whose left side binds more tightly, the values of its sides with a symbol between them whose relation holds;
for anything that binds more tightly than a comparison, its value; for everything else nothing but the condition
itself. -/
theorem C59_display {α V : Type} (m : Meaning α V) (hm : Total m.comparisons) (always ce : Bool) (cap : Nat)
    (hcap : cap < 2 ^ 64) (expected : Bool) (condition : Cpp.Expr α) (spliced : Cpp.Expr (Option α))
    (h : condition.Grouped) (h' : spliced.Grouped)
    (hw : spliced.written =
      (none, (.le, some condition.written.1) :: condition.written.2.map fun w => (w.1, some w.2)))
    (e : Expr.Expression) (he : requireImpl m always ce cap expected condition spliced = some (.ok e)) :
    (e.success = true ∧ always = false → e.actual = []) ∧
    (e.success = false ∨ always = true →
      (∀ l o r, condition = .node l o r → o.isComparison = true → 8 < l.level →
        ∃ symbol relation, (symbol, relation) ∈ symbols ∧
          relation m.comparisons (l.value m.operand m.operator) (r.value m.operand m.operator) = true ∧
          e.actual = allOrNothing cap (display (m.display (l.value m.operand m.operator)) ++ [' '] ++ symbol ++ [' '] ++
            display (m.display (r.value m.operand m.operator)))) ∧
      (8 < condition.level →
        e.actual = allOrNothing cap (display (m.display (condition.value m.operand m.operator)))) ∧
      (¬Simple condition → e.actual = [])) := by
  unfold requireImpl at he
  rw [form_spliced h h' hw] at he
  by_cases ht : 8 < condition.level
  · rw [outcome_tight ht] at he
    obtain ⟨e', h1, h2, h3⟩ := C36_single always ce cap hcap expected m.truth m.display
        (condition.value m.operand m.operator)
    simp only [h1, Option.some.injEq, Outcome.ok.injEq] at he
    subst he
    refine ⟨h2, fun h4 => ⟨?_, fun _ => h3 h4, fun h5 => absurd (.inl ht) h5⟩⟩
    rintro l o r rfl ho _
    revert ho ht
    cases o <;> simp [Op.isComparison, Cpp.Expr.level, Op.level]
  · obtain ⟨l, o, r, rfl, ho, h1 | h1 | h1⟩ := outcome_spec condition h ht
    · obtain ⟨h2, h3, h4⟩ := h1
      rw [h4] at he
      obtain ⟨o', h5, h6⟩ := comparison_eq m h2
      obtain ⟨e', h7, h8, h9⟩ := C36_comparison always ce cap hcap expected m.comparisons hm o' m.display
          m.display (l.value m.operand m.operator) (r.value m.operand m.operator)
      simp only [h5, Option.map_some, h7, Option.some.injEq, Outcome.ok.injEq] at he
      subst he
      refine ⟨h8, fun h10 => ⟨?_, fun h11 => absurd h11 ht, fun h11 => absurd (.inr ⟨l, o, r, rfl, h2, h3⟩) h11⟩⟩
      rintro l' o' r' hc _ _
      cases hc
      exact h9 h10
    · obtain ⟨h2, h3, h4⟩ := h1
      rw [h4] at he
      cases he
    · obtain ⟨h2, h3, h4⟩ := h1
      rw [h4] at he
      simp only [Option.some.injEq, Outcome.ok.injEq] at he
      subst he
      refine ⟨fun _ => rfl, fun _ => ⟨?_, fun h11 => absurd h11 ht, fun _ => rfl⟩⟩
      rintro l' o' r' hc h5 h6
      cases hc
      exact absurd ⟨h5, h6⟩ h2

/-- Naturals as C++ would compute with them. -/
def arithmetic : Meaning Nat Nat where
  operand := id
  operator
    | .add, a, b => a + b
    | .mul, a, b => a * b
    | .lt, a, b => if a < b then 1 else 0
    | .gt, a, b => if a > b then 1 else 0
    | .le, a, b => if a ≤ b then 1 else 0
    | .ge, a, b => if a ≥ b then 1 else 0
    | .eq, a, b => if a = b then 1 else 0
    | .ne, a, b => if a ≠ b then 1 else 0
    | .and, a, b => if a ≠ 0 ∧ b ≠ 0 then 1 else 0
    | .or, a, b => if a ≠ 0 ∨ b ≠ 0 then 1 else 0
    | .comma, _, b => b
    | _, _, _ => 0
  truth v := v != 0
  display v := some (toString v).toList

example : Total arithmetic.comparisons := by
  intro l r
  refine ⟨?_, ?_, ?_⟩ <;> (rw [Bool.eq_iff_iff]; simp [Meaning.comparisons, arithmetic] <;> split <;> simp_all <;> omega)

/-- `1 + 2 * 3 == 8 + 1`, and with the extractor in front. -/
def sumCondition : Cpp.Expr Nat × Cpp.Expr (Option Nat) :=
  let sum : Cpp.Expr Nat := .node (.operand 1) .add (.node (.operand 2) .mul (.operand 3))
  (.node sum .eq (.node (.operand 8) .add (.operand 1)),
    .node (.node (.operand none) .le
      (.node (.operand (some 1)) .add (.node (.operand (some 2)) .mul (.operand (some 3))))) .eq
      (.node (.operand (some 8)) .add (.operand (some 1))))

example : sumCondition.1.Grouped := by simp [sumCondition, Cpp.Expr.Grouped, Op.fromRight, Op.level, Cpp.Expr.level]
example : sumCondition.2.Grouped := by simp [sumCondition, Cpp.Expr.Grouped, Op.fromRight, Op.level, Cpp.Expr.level]
example : sumCondition.2.written = (none, (.le, some sumCondition.1.written.1) ::
    sumCondition.1.written.2.map fun w => (w.1, some w.2)) := by decide
example : requireImpl arithmetic false false 20 true sumCondition.1 sumCondition.2 =
    some (.ok { actual := "7 != 9".toList, success := false }) := by decide

/-- `1 < 2 == 0`: the extractor changes the grouping, and nothing is displayed; but the verdict is right. -/
def chainCondition : Cpp.Expr Nat × Cpp.Expr (Option Nat) :=
  (.node (.node (.operand 1) .lt (.operand 2)) .eq (.operand 0),
    .node (.node (.node (.operand none) .le (.operand (some 1))) .lt (.operand (some 2))) .eq (.operand (some 0)))

example : chainCondition.1.Grouped := by
  simp [chainCondition, Cpp.Expr.Grouped, Op.fromRight, Op.level, Cpp.Expr.level]
example : chainCondition.2.Grouped := by
  simp [chainCondition, Cpp.Expr.Grouped, Op.fromRight, Op.level, Cpp.Expr.level]
example : chainCondition.2.written = (none, (.le, some chainCondition.1.written.1) ::
    chainCondition.1.written.2.map fun w => (w.1, some w.2)) := by decide
example : requireImpl arithmetic false false 20 true chainCondition.1 chainCondition.2 =
    some (.ok { actual := [], success := false }) := by decide

/-- **C59**, the exception is real: `1 < 2 && 3, 1` is a valid condition for `if`, but not for `CHECK`. -/
theorem C59_comma_refused : ∃ (condition : Cpp.Expr Nat) (spliced : Cpp.Expr (Option Nat)),
    condition.Grouped ∧ spliced.Grouped ∧
    condition.written = (1, [(.lt, 2), (.and, 3), (.comma, 1)]) ∧
    spliced.written = (none, [(.le, some 1), (.lt, some 2), (.and, some 3), (.comma, some 1)]) ∧
    arithmetic.truth (condition.value arithmetic.operand arithmetic.operator) = true ∧
    requireImpl arithmetic false false 20 true condition spliced = none :=
  ⟨.node (.node (.node (.operand 1) .lt (.operand 2)) .and (.operand 3)) .comma (.operand 1),
    .node (.node (.node (.node (.operand none) .le (.operand (some 1))) .lt (.operand (some 2))) .and
      (.operand (some 3))) .comma (.operand (some 1)),
    by simp [Cpp.Expr.Grouped, Op.fromRight, Op.level, Cpp.Expr.level],
    by simp [Cpp.Expr.Grouped, Op.fromRight, Op.level, Cpp.Expr.level],
    by decide, by decide, by decide, by decide⟩

end Verif.Props
