import Verif.Model.Decompose
/-!
# The grammar determines the grouping; where the extractor ends up
-/
namespace Verif.Cpp
variable {α : Type}

theorem Op.level_lt (o : Op) : o.level < 14 := by cases o <;> decide

/-- Whether `o`, written behind an expression whose operator is of level `n`, takes only its right side. -/
def Op.Takes (o : Op) (n : Nat) : Prop := n < o.level ∨ (n = o.level ∧ o.fromRight = true)

instance (o : Op) (n : Nat) : Decidable (o.Takes n) := inferInstanceAs (Decidable (_ ∨ _))

/-- One more operator and operand. -/
def Expr.push : Expr α → Op → α → Expr α
  | .operand a, o, x => .node (.operand a) o (.operand x)
  | .node l p r, o, x => if o.Takes p.level then .node l p (r.push o x) else .node (.node l p r) o (.operand x)

/-- Reading from left to right. -/
def parse (first : α) (rest : List (Op × α)) : Expr α := rest.foldl (fun e w => e.push w.1 w.2) (.operand first)

theorem push_top {e : Expr α} {o : Op} (x : α) (h : ¬o.Takes e.level) : e.push o x = .node e o (.operand x) := by
  cases e with
  | operand a => rfl
  | node l p r => rw [Expr.push, if_neg (show ¬o.Takes p.level from h)]

theorem level_of_fromRight {o : Op} (h : o.fromRight = true) : o.level = 1 := by simpa [Op.fromRight] using h

theorem fromRight_of_level {o : Op} (h : o.level = 1) : o.fromRight = true := by simpa [Op.fromRight] using h

theorem written_level {e : Expr α} (h : e.Grouped) : ∀ w ∈ e.written.2, e.level ≤ w.1.level := by
  induction e with
  | operand a => simp [Expr.written]
  | node l o r ihl ihr =>
    obtain ⟨hl, hr, hg⟩ := h
    intro w hw
    have hlr : o.level ≤ l.level ∧ o.level ≤ r.level := by split at hg <;> omega
    simp only [Expr.written, List.mem_append, List.mem_cons] at hw
    show o.level ≤ _
    rcases hw with hw | rfl | hw
    · exact Nat.le_trans hlr.1 (ihl hl w hw)
    · exact Nat.le_refl _
    · exact Nat.le_trans hlr.2 (ihr hr w hw)

theorem foldl_push_right (l : Expr α) (o : Op) : ∀ (ws : List (Op × α)) (e : Expr α),
    (∀ w ∈ ws, w.1.Takes o.level) →
    ws.foldl (fun (e : Expr α) w => e.push w.1 w.2) (.node l o e) =
      .node l o (ws.foldl (fun (e : Expr α) w => e.push w.1 w.2) e) := by
  intro ws
  induction ws with
  | nil => intro e _; rfl
  | cons w ws ih =>
    intro e h
    rw [List.foldl_cons, Expr.push, if_pos (h w (by simp)), ih _ (fun v hv => h v (by simp [hv]))]
    rfl

/-- The grouping follows from what is written. -/
theorem parse_written {e : Expr α} (h : e.Grouped) : parse e.written.1 e.written.2 = e := by
  induction e with
  | operand a => rfl
  | node l o r ihl ihr =>
    obtain ⟨hl, hr, hg⟩ := h
    have h1 : parse (Expr.node l o r).written.1 (Expr.node l o r).written.2 =
        r.written.2.foldl (fun e w => e.push w.1 w.2) (l.push o r.written.1) := by
      have := ihl hl
      unfold parse at this ⊢
      simp only [Expr.written, List.foldl_append, List.foldl_cons]
      rw [this]
    rw [h1, push_top, foldl_push_right]
    · have := ihr hr
      unfold parse at this
      rw [this]
    · intro w hw
      have := written_level hr w hw
      unfold Op.Takes
      split at hg
      · rename_i hf
        rcases Nat.lt_or_ge o.level w.1.level with h2 | h2
        · exact .inl h2
        · exact .inr ⟨by omega, fromRight_of_level (by have := level_of_fromRight hf; omega)⟩
      · exact .inl (by omega)
    · unfold Op.Takes
      split at hg
      · omega
      · rename_i hf
        rintro (h2 | ⟨_, h2⟩)
        · omega
        · exact hf h2

theorem push_written (o : Op) (x : α) : ∀ e : Expr α,
    (e.push o x).written = (e.written.1, e.written.2 ++ [(o, x)]) := by
  intro e
  induction e with
  | operand a => rfl
  | node l p r ihl ihr =>
    rw [Expr.push]
    split
    · simp [Expr.written, ihr]
    · simp [Expr.written]

theorem push_grouped (o : Op) (x : α) : ∀ e : Expr α, e.Grouped →
    (e.push o x).Grouped ∧ min e.level o.level ≤ (e.push o x).level := by
  intro e
  have ho := o.level_lt
  induction e with
  | operand a =>
    intro _
    refine ⟨⟨trivial, trivial, ?_⟩, Nat.min_le_right _ _⟩
    show if _ then o.level < 14 ∧ o.level ≤ 14 else o.level ≤ 14 ∧ o.level < 14
    split <;> omega
  | node l p r ihl ihr =>
    intro h
    obtain ⟨hl, hr, hg⟩ := h
    rw [Expr.push]
    split
    · rename_i ht
      obtain ⟨h1, h2⟩ := ihr hr
      refine ⟨⟨hl, h1, ?_⟩, Nat.min_le_left _ _⟩
      unfold Op.Takes at ht
      split at hg
      · rename_i hf
        rw [if_pos hf]
        omega
      · rename_i hf
        rw [if_neg hf]
        refine ⟨hg.1, ?_⟩
        rcases ht with ht | ⟨ht, hf'⟩
        · omega
        · exact absurd (fromRight_of_level (by have := level_of_fromRight hf'; omega)) hf
    · rename_i ht
      refine ⟨⟨⟨hl, hr, hg⟩, trivial, ?_⟩, Nat.min_le_right _ _⟩
      show if _ then o.level < p.level ∧ o.level ≤ 14 else o.level ≤ p.level ∧ o.level < 14
      unfold Op.Takes at ht
      split
      · rename_i hf
        constructor
        · rcases Nat.lt_trichotomy p.level o.level with h3 | h3 | h3
          · exact absurd (.inl h3) ht
          · exact absurd (.inr ⟨h3, hf⟩) ht
          · exact h3
        · omega
      · constructor
        · rcases Nat.lt_or_ge p.level o.level with h3 | h3
          · exact absurd (.inl h3) ht
          · exact h3
        · omega

theorem foldl_push (ws : List (Op × α)) : ∀ e : Expr α, e.Grouped →
    (ws.foldl (fun e w => e.push w.1 w.2) e).Grouped ∧
      (ws.foldl (fun e w => e.push w.1 w.2) e).written = (e.written.1, e.written.2 ++ ws) := by
  induction ws with
  | nil => intro e h; exact ⟨h, by simp⟩
  | cons w ws ih =>
    intro e h
    obtain ⟨h1, h2⟩ := ih _ (push_grouped w.1 w.2 e h).1
    refine ⟨h1, h2.trans ?_⟩
    rw [push_written]
    simp

/-- Everything that can be written can be grouped. -/
theorem parse_grouped (first : α) (rest : List (Op × α)) :
    (parse first rest).Grouped ∧ (parse first rest).written = (first, rest) := by
  obtain ⟨h1, h2⟩ := foldl_push rest (.operand first) trivial
  exact ⟨h1, h2⟩

/-- Only in one way. -/
theorem grouped_unique {e e' : Expr α} (h : e.Grouped) (h' : e'.Grouped) (hw : e.written = e'.written) : e = e' := by
  rw [← parse_written h, ← parse_written h', hw]

end Verif.Cpp

namespace Verif.Decompose
open Verif.Cpp
variable {α : Type}

/-- An expression of the condition. -/
def lift : Expr α → Expr (Option α)
  | .operand a => .operand (some a)
  | .node l o r => .node (lift l) o (lift r)

theorem lift_level (e : Expr α) : (lift e).level = e.level := by cases e <;> rfl

theorem lift_grouped {e : Expr α} (h : e.Grouped) : (lift e).Grouped := by
  induction e with
  | operand a => trivial
  | node l o r ihl ihr =>
    obtain ⟨hl, hr, hg⟩ := h
    refine ⟨ihl hl, ihr hr, ?_⟩
    rw [lift_level, lift_level]
    exact hg

theorem lift_written (e : Expr α) :
    (lift e).written = (some e.written.1, e.written.2.map fun w => (w.1, some w.2)) := by
  induction e with
  | operand a => rfl
  | node l o r ihl ihr => simp [lift, Expr.written, ihl, ihr]

theorem plain_lift (e : Expr α) : plain (lift e) = some e := by
  induction e with
  | operand a => rfl
  | node l o r ihl ihr => rw [lift, plain, ihl, ihr]; rfl

/-- The condition with the extractor in front. -/
def graft : Expr α → Expr (Option α)
  | .operand a => .node (.operand none) .le (.operand (some a))
  | .node l o r =>
    if 8 < o.level then .node (.operand none) .le (lift (.node l o r)) else .node (graft l) o (lift r)

theorem graft_tight {e : Expr α} (h : 8 < e.level) : graft e = .node (.operand none) .le (lift e) := by
  cases e with
  | operand a => rfl
  | node l o r => rw [graft, if_pos (show 8 < o.level from h)]

theorem graft_written (e : Expr α) :
    (graft e).written = (none, (.le, some e.written.1) :: e.written.2.map fun w => (w.1, some w.2)) := by
  induction e with
  | operand a => rfl
  | node l o r ihl ihr =>
    rw [graft]
    split
    · simp only [Expr.written, lift_written, List.nil_append]
    · simp only [Expr.written, ihl, lift_written, List.cons_append, List.map_append, List.map_cons]

theorem graft_grouped {e : Expr α} (h : e.Grouped) : (graft e).Grouped ∧ (graft e).level = min 8 e.level := by
  have tight : ∀ e : Expr α, e.Grouped → 8 < e.level → (graft e).Grouped ∧ (graft e).level = min 8 e.level := by
    intro e h ht
    rw [graft_tight ht]
    refine ⟨⟨trivial, lift_grouped h, ?_⟩, ?_⟩
    · rw [lift_level]
      show 8 ≤ 14 ∧ 8 < e.level
      omega
    · show 8 = _
      omega
  induction e with
  | operand a => exact tight _ h (by show 8 < 14; omega)
  | node l o r ihl ihr =>
    by_cases ht : 8 < o.level
    · exact tight _ h ht
    · obtain ⟨hl, hr, hg⟩ := h
      obtain ⟨h1, h2⟩ := ihl hl
      rw [graft, if_neg ht]
      refine ⟨⟨h1, lift_grouped hr, ?_⟩, ?_⟩
      · rw [h2, lift_level]
        split at hg <;> rename_i hf
        · rw [if_pos hf]
          have := level_of_fromRight hf
          omega
        · rw [if_neg hf]
          omega
      · show o.level = min 8 o.level
        omega

/-- What comes out, from the condition alone. -/
def outcome : Expr α → Option (Form α)
  | .operand a => some (.unary (.operand a))
  | .node l o r =>
    if 8 < o.level then some (.unary (.node l o r))
    else (outcome l).bind fun f => f.apply o r

theorem form_graft (e : Expr α) : form (graft e) = outcome e := by
  have tight : ∀ e : Expr α, form (.node (.operand none) .le (lift e)) = some (.unary e) := by
    intro e
    rw [form, form, plain_lift]
    rfl
  induction e with
  | operand a => exact tight (.operand a)
  | node l o r ihl ihr =>
    rw [graft, outcome]
    split
    · exact tight _
    · rw [form, ihl, plain_lift]
      rfl

/-- The result for the text, however it is grouped. -/
theorem form_spliced {condition : Expr α} {spliced : Expr (Option α)} (h : condition.Grouped) (h' : spliced.Grouped)
    (hw : spliced.written =
      (none, (.le, some condition.written.1) :: condition.written.2.map fun w => (w.1, some w.2))) :
    form spliced = outcome condition := by
  have : spliced = graft condition := grouped_unique h' (graft_grouped h).1 (by rw [hw, graft_written])
  rw [this, form_graft]

theorem outcome_tight {e : Expr α} (h : 8 < e.level) : outcome e = some (.unary e) := by
  cases e with
  | operand a => rfl
  | node l o r => rw [outcome, if_pos (show 8 < o.level from h)]

/-- An operator that binds as the comparisons or less tightly. -/
theorem op_cases (o : Op) (h : ¬8 < o.level) : o.isComparison = true ∧ o ∈ decomposedOps ∧ o ∈ binaryOps ∧ o ∈ invalidOps ∨
    o.isComparison = false ∧ o ∉ decomposedOps ∧ o ∈ unaryOps ∧ o ∈ binaryOps ∧ (o ∈ invalidOps ∨ o = .comma) := by
  cases o <;> first | (exact absurd (by decide) h) | decide

/-- Everything the result can be. -/
theorem outcome_spec (e : Expr α) (h : e.Grouped) (ht : ¬8 < e.level) :
    ∃ l o r, e = .node l o r ∧ ¬8 < o.level ∧
      ((o.isComparison = true ∧ 8 < l.level ∧ outcome e = some (.binary o l r)) ∨
      (o = .comma ∧ ¬Simple l ∧ outcome e = none) ∨
      (¬(o.isComparison = true ∧ 8 < l.level) ∧ ¬(o = .comma ∧ ¬Simple l) ∧ outcome e = some .invalid)) := by
  induction e with
  | operand a => exact absurd (show 8 < 14 by omega) ht
  | node l o r ihl ihr =>
    have ho : ¬8 < o.level := ht
    refine ⟨l, o, r, rfl, ho, ?_⟩
    obtain ⟨hl, hr, hg⟩ := h
    rw [outcome, if_neg ho]
    have hc := op_cases o ho
    by_cases hlt : 8 < l.level
    · have hs : Simple l := .inl hlt
      rw [outcome_tight hlt]
      simp only [Option.bind_some, Form.apply]
      rcases hc with ⟨h1, h2, h3, h4⟩ | ⟨h1, h2, h3, h4, h5⟩
      · simp [h1, h2, hlt]
      · simp [h1, h2, h3, hs]
    · obtain ⟨l', o', r', rfl, ho', h6⟩ := ihl hl hlt
      rcases h6 with ⟨h7, h8, h9⟩ | ⟨h7, h8, h9⟩ | ⟨h7, h8, h9⟩
      · have hs : Simple (.node l' o' r') := .inr ⟨l', o', r', rfl, h7, h8⟩
        have hb : o ∈ binaryOps := by rcases hc with ⟨_, _, h, _⟩ | ⟨_, _, _, h, _⟩ <;> exact h
        rw [h9]
        simp [Form.apply, hb, hlt, hs]
      · have hs : ¬Simple (.node l' o' r') := by
          rintro (h | ⟨_, _, _, h, h1, h2⟩)
          · exact hlt h
          · cases h; subst h7; cases h1
        have : o = .comma := by
          subst h7
          have : o.level = 0 := by
            have : o.level ≤ 0 := by
              split at hg
              · exact Nat.le_of_lt hg.1
              · exact hg.1
            omega
          revert this
          cases o <;> simp [Op.level]
        rw [h9]
        simp [this, hs]
      · have hs : ¬Simple (.node l' o' r') := by
          rintro (h | ⟨_, _, _, h, h1, h2⟩)
          · exact hlt h
          · cases h; exact h7 ⟨h1, h2⟩
        rw [h9]
        simp only [Option.bind_some, Form.apply]
        by_cases hcm : o = .comma
        · subst hcm
          simp [hs, show Op.comma ∉ invalidOps by decide]
        · have hb : o ∈ invalidOps := by
            rcases hc with ⟨_, _, _, h⟩ | ⟨_, _, _, _, h | h⟩
            · exact h
            · exact h
            · exact absurd h hcm
          simp [hcm, hb, hlt]

end Verif.Decompose
