import Verif.Spec.Expression
import Verif.Lemmas.StringUtil
/-!
# C36, C37: conditions and matchers
-/
namespace Verif.Props
open Verif.Expr Verif.Expr.Spec SV

private theorem appendValue_holds (ce : Bool) {v : Str} {cap : Nat} {l : Text} (h : v.Holds cap l)
    (hcap : cap < sizeT) (t : Option Text) : ∃ v',
      appendValue ce v t = .ok (v', decide (l.length + (display t).length ≤ cap)) ∧
      v'.Holds cap (Verif.Spec.fill cap l (display t)) := by
  cases t with
  | some t => exact Append.text_holds ce h hcap t
  | none => exact Append.text_holds ce h hcap _

private theorem appendValues_eq (ce : Bool) {cap : Nat} (hcap : cap < sizeT) :
    ∀ (vs : List (Option Text)) {v : Str} {l : Text}, v.Holds cap l →
      ∃ v', appendValues ce vs v = .ok v' ∧
        v'.contents = if l.length + (vs.flatMap display).length ≤ cap then l ++ vs.flatMap display
          else [] := by
  intro vs
  induction vs with
  | nil =>
    intro v l h
    have := h.le
    exact ⟨v, rfl, by rw [h.contents]; simp [this]⟩
  | cons t vs ih =>
    intro v l h
    obtain ⟨v1, e1, h1⟩ := appendValue_holds ce h hcap t
    rw [appendValues, e1, Outcome.bind_ok]
    dsimp only
    by_cases hf : l.length + (display t).length ≤ cap
    · have e2 : Verif.Spec.fill cap l (display t) = l ++ display t :=
        List.take_of_length_le (by simpa using hf)
      rw [e2] at h1
      rw [if_pos (by simpa using hf)]
      obtain ⟨v2, e3, h3⟩ := ih h1
      refine ⟨v2, e3, ?_⟩
      rw [h3]
      simp only [List.flatMap_cons, List.length_append, List.append_assoc, Nat.add_assoc]
    · rw [if_neg (by simpa using hf)]
      refine ⟨_, rfl, ?_⟩
      rw [if_neg (by simp only [List.flatMap_cons, List.length_append]; omega)]
      simp [SV.clear, SV.contents]

theorem describe_eq (always ce : Bool) {cap : Nat} (hcap : cap < 2 ^ 64) (success : Bool)
    (vs : List (Option Text)) : describe always ce cap success vs =
      .ok { success := success
            actual := if !success || always then allOrNothing cap (vs.flatMap display) else [] } := by
  unfold describe
  by_cases h : (!success || always) = true
  · obtain ⟨v, e, hv⟩ := appendValues_eq ce hcap vs (holds_empty cap ' ')
    rw [if_pos h, if_pos h, e, Outcome.bind_ok, hv]
    simp [allOrNothing]
  · rw [if_neg h, if_neg h]; rfl

/-- **C36**, verdict: a comparison passes exactly if its value is the expected one (`true` for `CHECK`,
`false` for `CHECK_FALSE`); likewise for a single value, and for a condition that cannot be
decomposed. Evaluating it never fails. -/
theorem C36_verdict {α β : Type} (always ce : Bool) (cap : Nat) (hcap : cap < 2 ^ 64) (expected : Bool)
    (c : Comparison α β) (op : Op) (showL : α → Option Text) (showR : β → Option Text) (l : α) (r : β)
    (toBool : α → Bool) :
    (∃ e, binary always ce cap expected c op showL showR l r = .ok e ∧
      (e.success = true ↔ meaning op c l r = expected)) ∧
    (∃ e, unary always ce cap expected toBool showL l = .ok e ∧
      (e.success = true ↔ toBool l = expected)) ∧
    ∀ value, (undecomposed expected value).success = true ↔ value = expected := by
  refine ⟨⟨_, describe_eq always ce hcap _ _, by cases op <;> simp [meaning, Op.eval]⟩, ⟨_, describe_eq always ce hcap _ _, by simp⟩, ?_⟩
  intro value
  simp [undecomposed]

/-- **C36**, text of a comparison: if it is displayed (it fails, or successful assertions are
displayed too), then either nothing is shown, because the text does not fit, or the two values with a
symbol between them whose relation holds. -/
theorem C36_comparison {α β : Type} (always ce : Bool) (cap : Nat) (hcap : cap < 2 ^ 64) (expected : Bool)
    (c : Comparison α β) (hc : Total c) (op : Op) (showL : α → Option Text) (showR : β → Option Text)
    (l : α) (r : β) : ∃ e, binary always ce cap expected c op showL showR l r = .ok e ∧
      (e.success = true ∧ always = false → e.actual = []) ∧
      (e.success = false ∨ always = true → ∃ symbol relation, (symbol, relation) ∈ symbols ∧
        relation c l r = true ∧
        e.actual = allOrNothing cap (display (showL l) ++ [' '] ++ symbol ++ [' '] ++ display (showR r))) := by
  refine ⟨_, describe_eq always ce hcap _ _, ?_, ?_⟩
  · rintro ⟨h1, h2⟩
    dsimp only at h1 ⊢
    rw [h1, h2]; rfl
  · intro h
    have hif : (!(op.eval c l r == expected) || always) = true := by
      rcases h with h | h
      · dsimp only at h; rw [h]; rfl
      · rw [h]; simp
    dsimp only
    rw [if_pos hif]
    obtain ⟨h1, h2, h3⟩ := hc l r
    have key : ∀ (s : Text) (rel : Comparison α β → α → β → Bool), (s, rel) ∈ symbols →
        rel c l r = true → (if op.eval c l r = true then op.actual else op.inverse) = [' '] ++ s ++ [' '] →
        ∃ symbol relation, (symbol, relation) ∈ symbols ∧ relation c l r = true ∧
          allOrNothing cap ([showL l, some (if op.eval c l r = true then op.actual else op.inverse),
            showR r].flatMap display) =
          allOrNothing cap (display (showL l) ++ [' '] ++ symbol ++ [' '] ++ display (showR r)) := by
      intro s rel hm hr he
      refine ⟨s, rel, hm, hr, ?_⟩
      rw [he]
      simp [display]
    cases op
    · by_cases hv : Op.eval c .less l r = true
      · exact key "<".toList Comparison.lt (by simp [symbols]) hv (by rw [if_pos hv]; rfl)
      · have hv' : ¬c.lt l r = true := hv
        exact key ">=".toList Comparison.ge (by simp [symbols]) (by simpa [h1] using hv')
          (by rw [if_neg hv]; rfl)
    · by_cases hv : Op.eval c .greater l r = true
      · exact key ">".toList Comparison.gt (by simp [symbols]) hv (by rw [if_pos hv]; rfl)
      · have hv' : ¬c.gt l r = true := hv
        exact key "<=".toList Comparison.le (by simp [symbols]) (by simpa [h2] using hv')
          (by rw [if_neg hv]; rfl)
    · by_cases hv : Op.eval c .lessEqual l r = true
      · exact key "<=".toList Comparison.le (by simp [symbols]) hv (by rw [if_pos hv]; rfl)
      · have hv' : ¬c.le l r = true := hv
        exact key ">".toList Comparison.gt (by simp [symbols]) (by simpa [h2] using hv')
          (by rw [if_neg hv]; rfl)
    · by_cases hv : Op.eval c .greaterEqual l r = true
      · exact key ">=".toList Comparison.ge (by simp [symbols]) hv (by rw [if_pos hv]; rfl)
      · have hv' : ¬c.ge l r = true := hv
        exact key "<".toList Comparison.lt (by simp [symbols]) (by simpa [h1] using hv')
          (by rw [if_neg hv]; rfl)
    · by_cases hv : Op.eval c .equal l r = true
      · exact key "==".toList Comparison.eq (by simp [symbols]) hv (by rw [if_pos hv]; rfl)
      · have hv' : ¬c.eq l r = true := hv
        exact key "!=".toList Comparison.ne (by simp [symbols]) (by simpa [h3] using hv')
          (by rw [if_neg hv]; rfl)
    · by_cases hv : Op.eval c .notEqual l r = true
      · exact key "!=".toList Comparison.ne (by simp [symbols]) hv (by rw [if_pos hv]; rfl)
      · have hv' : ¬c.ne l r = true := hv
        exact key "==".toList Comparison.eq (by simp [symbols]) (by simpa [h3] using hv')
          (by rw [if_neg hv]; rfl)

/-- **C36**, text of a single value. -/
theorem C36_single {α : Type} (always ce : Bool) (cap : Nat) (hcap : cap < 2 ^ 64) (expected : Bool)
    (toBool : α → Bool) (showV : α → Option Text) (v : α) :
    ∃ e, unary always ce cap expected toBool showV v = .ok e ∧
      (e.success = true ∧ always = false → e.actual = []) ∧
      (e.success = false ∨ always = true → e.actual = allOrNothing cap (display (showV v))) := by
  refine ⟨_, describe_eq always ce hcap _ _, ?_, ?_⟩
  · rintro ⟨h1, h2⟩
    dsimp only at h1 ⊢
    rw [h1, h2]; rfl
  · intro h
    have hif : (!(toBool v == expected) || always) = true := by
      rcases h with h | h
      · dsimp only at h; rw [h]; rfl
      · rw [h]; simp
    dsimp only
    rw [if_pos hif]
    simp

/-- Comparing naturals. -/
def natComparison : Comparison Nat Nat :=
  ⟨fun a b => a < b, fun a b => a > b, fun a b => a ≤ b, fun a b => a ≥ b, fun a b => a = b, fun a b => a ≠ b⟩

example : Total natComparison := by
  intro l r
  refine ⟨?_, ?_, ?_⟩ <;> (rw [Bool.eq_iff_iff]; simp [natComparison])

/-- Printing naturals. -/
def showNat (n : Nat) : Option Text := some (toString n).toList

example : binary false false 20 true natComparison .less showNat showNat 12 7 =
    .ok { actual := "12 >= 7".toList, success := false } := by decide
example : binary false false 20 false natComparison .less showNat showNat 3 7 =
    .ok { actual := "3 < 7".toList, success := false } := by decide
example : binary false false 6 true natComparison .less showNat showNat 12 7 =
    .ok { actual := [], success := false } := by decide

/-- Numbers with one value, `none`, that is unordered with respect to all (like NaN). -/
def unorderedComparison : Comparison (Option Nat) (Option Nat) :=
  let on (f : Nat → Nat → Bool) : Option Nat → Option Nat → Bool := fun a b =>
    match a, b with
    | some a, some b => f a b
    | _, _ => false
  ⟨on fun a b => a < b, on fun a b => a > b, on fun a b => a ≤ b, on fun a b => a ≥ b,
    on fun a b => a = b, fun a b => !on (fun a b => a = b) a b⟩

/-- **C36** needs a total order: for an unordered value the relation displayed is false. -/
theorem C36_unordered : ∃ e, binary false false 20 true unorderedComparison .less
      (fun v => some (match v with | some n => (toString n).toList | none => "nan".toList))
      (fun v => some (match v with | some n => (toString n).toList | none => "nan".toList)) none (some 1)
        = .ok e ∧ e.actual = "nan >= 1".toList ∧ unorderedComparison.ge none (some 1) = false :=
  ⟨{ actual := "nan >= 1".toList, success := false }, by decide, rfl, rfl⟩

/-! ## Matchers -/

theorem findAt_infix {p : Text} : ∀ (s : Text), (Util.findAt p s).isSome = true ↔ p <:+: s := by
  intro s
  constructor
  · intro h
    cases e : Util.findAt p s with
    | none => rw [e] at h; cases h
    | some i =>
      obtain ⟨x, y, e, _⟩ := Util.findAt_some e
      exact ⟨x, y, e.symm⟩
  · rintro ⟨x, y, e⟩
    induction x generalizing s with
    | nil =>
      rw [List.nil_append] at e
      have hp : p <+: s := ⟨y, e⟩
      cases s with
      | nil =>
        have : p = [] := List.prefix_nil.mp hp
        simp [Util.findAt, this]
      | cons c s =>
        rw [Util.findAt, if_pos (List.isPrefixOf_iff_prefix.mpr hp)]; rfl
    | cons c x ih =>
      cases s with
      | nil => simp at e
      | cons d s =>
        simp only [List.cons_append, List.cons.injEq] at e
        rw [Util.findAt]
        split
        · rfl
        · rw [Option.isSome_map]; exact ih s e.2

/-- **C37**. `contains_substring` matches exactly the texts containing the pattern. -/
theorem C37_contains (cap : Nat) (pattern message : Text) :
    (containsSubstring cap pattern).matches_ message = true ↔
      ∃ before after, message = before ++ pattern ++ after := by
  rw [show (containsSubstring cap pattern).matches_ message = (Util.findAt pattern message).isSome from rfl,
    findAt_infix]
  constructor
  · rintro ⟨x, y, e⟩; exact ⟨x, y, e.symm⟩
  · rintro ⟨x, y, e⟩; exact ⟨x, y, e.symm⟩

/-- **C37**. `with_what_contains` matches exactly the exceptions whose `what()` contains the pattern. -/
theorem C37_what {ε : Type} (cap : Nat) (what : ε → Text) (pattern : Text) (e : ε) :
    (withWhatContains cap what pattern).matches_ e = true ↔
      ∃ before after, what e = before ++ pattern ++ after :=
  C37_contains cap pattern (what e)

/-- **C37**. `is_any_of` matches exactly the values equal to a listed one. -/
theorem C37_any_of {α : Type} (cap : Nat) (eq : α → α → Bool) (showV : α → Text) (list : List α) (value : α) :
    (isAnyOf cap eq showV list).matches_ value = true ↔ ∃ v ∈ list, eq v value = true := by
  show anyOfLoop eq value list = true ↔ _
  induction list with
  | nil => simp [anyOfLoop]
  | cons v vs ih =>
    rw [anyOfLoop]
    by_cases h : eq v value = true
    · simp [h]
    · simp [h, ih]

private theorem appendCut {v : Str} {cap : Nat} {whole : Text} (h : v.Holds cap (Verif.Spec.cut cap whole))
    (hcap : cap + 3 < sizeT) (args : List Text) (hne : args.flatten ≠ []) :
    ∃ v' ok, Util.appendOrTruncate false v args = .ok (v', ok) ∧
      v'.Holds cap (Verif.Spec.cut cap (whole ++ args.flatten)) := by
  obtain ⟨v', e, hv⟩ := Util.appendOrTruncate_holds false h hcap args
  refine ⟨v', _, e, ?_⟩
  have hpos : 0 < args.flatten.length := List.length_pos_iff.mpr hne
  by_cases h1 : whole.length ≤ cap
  · have : Verif.Spec.cut cap whole = whole := if_pos h1
    rw [this] at hv
    simpa [Verif.Spec.cut] using hv
  · have e1 : Verif.Spec.cut cap whole = whole.take (cap - 3) ++ Verif.Spec.marker cap := if_neg h1
    have hl : (Verif.Spec.cut cap whole).length = cap := by
      rw [e1]
      simp only [List.length_append, List.length_take, Verif.Spec.marker, List.length_replicate]; omega
    rw [if_neg (by omega)] at hv
    have e2 : Verif.Spec.cut cap (whole ++ args.flatten) =
        (whole ++ args.flatten).take (cap - 3) ++ Verif.Spec.marker cap := by
      unfold Verif.Spec.cut
      rw [if_neg]
      simp only [List.length_append]; omega
    have e3 : (Verif.Spec.cut cap whole ++ args.flatten).take (cap - 3) = whole.take (cap - 3) := by
      rw [List.take_append_of_le_length (by omega), e1,
        List.take_append_of_le_length (by simp; omega), List.take_take, Nat.min_self]
    rw [e2, List.take_append_of_le_length (by omega), ← e3]
    exact hv

private theorem appendFresh {cap : Nat} (hcap : cap + 3 < sizeT) (args : List Text) :
    ∃ v ok, Util.appendOrTruncate false (SV.empty cap ' ') args = .ok (v, ok) ∧
      v.Holds cap (Verif.Spec.cut cap args.flatten) := by
  obtain ⟨v, e, hv⟩ := Util.appendOrTruncate_holds false (holds_empty cap ' ') hcap args
  refine ⟨v, _, e, ?_⟩
  rw [List.nil_append, List.length_nil, Nat.zero_add] at hv
  exact hv

/-- **C37**. The description given by `contains_substring`. -/
theorem C37_contains_description (cap : Nat) (hcap : cap + 3 < 2 ^ 64) (pattern message : Text) :
    (containsSubstring cap pattern).describe message .matched =
      .ok (Verif.Spec.cut cap ("found '".toList ++ pattern ++ "' in '".toList ++ message ++ "'".toList)) ∧
    (containsSubstring cap pattern).describe message .failed =
      .ok (Verif.Spec.cut cap ("could not find '".toList ++ pattern ++ "' in '".toList ++ message ++ "'".toList)) := by
  have key : ∀ status, (containsSubstring cap pattern).describe message status =
      .ok (Verif.Spec.cut cap ((if status = .matched then "found".toList else "could not find".toList) ++
        " '".toList ++ pattern ++ "' in '".toList ++ message ++ "'".toList)) := by
    intro status
    obtain ⟨v, ok, e, hv⟩ := appendFresh hcap
      [if status = .matched then "found".toList else "could not find".toList, " '".toList, pattern,
        "' in '".toList, message, "'".toList]
    have hf : ∀ a b c d e f : Text, [a, b, c, d, e, f].flatten = a ++ b ++ c ++ d ++ e ++ f := by simp
    simp only [containsSubstring]
    rw [e, Outcome.bind_ok]
    dsimp only
    rw [hv.contents, hf]
    rfl
  exact ⟨key .matched, key .failed⟩

private theorem anyOfList_rest {α : Type} {cap : Nat} (hcap : cap + 3 < sizeT) (showV : α → Text) :
    ∀ (vs : List α) {v : Str} {whole : Text}, v.Holds cap (Verif.Spec.cut cap whole) →
      ∃ v', anyOfList showV vs false v = .ok v' ∧
        v'.Holds cap (Verif.Spec.cut cap
          (whole ++ vs.flatMap fun x => ", '".toList ++ showV x ++ "'".toList)) := by
  intro vs
  induction vs with
  | nil => intro v whole h; exact ⟨v, rfl, by simpa using h⟩
  | cons x vs ih =>
    intro v whole h
    obtain ⟨v1, ok, e1, h1⟩ := appendCut h hcap [if false = true then "'".toList else ", '".toList, showV x, "'".toList]
      (by simp)
    rw [anyOfList, e1, Outcome.bind_ok]
    obtain ⟨v2, e2, h2⟩ := ih h1
    refine ⟨v2, e2, ?_⟩
    simpa using h2

private theorem quotedList_cons {α : Type} (showV : α → Text) : ∀ (vs : List α) (x : α),
    quotedList showV (x :: vs) = "'".toList ++ showV x ++ "'".toList ++
      vs.flatMap fun y => ", '".toList ++ showV y ++ "'".toList := by
  intro vs
  induction vs with
  | nil => intro x; simp [quotedList]
  | cons y vs ih =>
    intro x
    rw [quotedList, ih]
    simp

/-- **C37**. The description given by `is_any_of`. -/
theorem C37_any_of_description {α : Type} (cap : Nat) (hcap : cap + 3 < 2 ^ 64) (eq : α → α → Bool)
    (showV : α → Text) (list : List α) (value : α) (status : Status) :
    (isAnyOf cap eq showV list).describe value status =
      .ok (Verif.Spec.cut cap ("'".toList ++ showV value ++
        (if status = .matched then "' was found in {".toList else "' was not found in {".toList) ++
        quotedList showV list ++ "}".toList)) := by
  simp only [isAnyOf]
  obtain ⟨v1, ok1, e1, h1⟩ := appendFresh hcap
    ["'".toList, showV value, "' was ".toList,
        if status = .failed then "not ".toList else [], "found in {".toList]
  rw [e1, Outcome.bind_ok]
  dsimp only
  have h1' : v1.Holds cap (Verif.Spec.cut cap ("'".toList ++ showV value ++
        (if status = .matched then "' was found in {".toList else "' was not found in {".toList))) := by
    have : ["'".toList, showV value, "' was ".toList,
        if status = .failed then "not ".toList else [], "found in {".toList].flatten =
        "'".toList ++ showV value ++
        (if status = .matched then "' was found in {".toList else "' was not found in {".toList) := by
      cases status <;> simp
    rw [this] at h1
    exact h1
  have h2 : ∃ v2, anyOfList showV list true v1 = .ok v2 ∧ v2.Holds cap (Verif.Spec.cut cap
      ("'".toList ++ showV value ++
        (if status = .matched then "' was found in {".toList else "' was not found in {".toList) ++
        quotedList showV list)) := by
    cases list with
    | nil => exact ⟨v1, rfl, by simpa only [quotedList, List.append_nil] using h1'⟩
    | cons x vs =>
      obtain ⟨v2, ok, e2, h2⟩ := appendCut h1' hcap
        [if true = true then "'".toList else ", '".toList, showV x, "'".toList] (by simp)
      rw [anyOfList, e2, Outcome.bind_ok]
      obtain ⟨v3, e3, h3⟩ := anyOfList_rest hcap showV vs h2
      refine ⟨v3, e3, ?_⟩
      rw [quotedList_cons]
      have hf : ∀ a b c d e f : Text, a ++ b ++ c ++ [d, e, d].flatten ++ f =
          a ++ b ++ c ++ (d ++ e ++ d ++ f) := by simp
      rw [if_pos rfl, hf] at h3
      exact h3
  obtain ⟨v2, e2, h2⟩ := h2
  rw [e2, Outcome.bind_ok]
  obtain ⟨v3, ok, e3, h3⟩ := appendCut h2 hcap ["}".toList] (by simp)
  rw [e3, Outcome.bind_ok]
  dsimp only
  rw [h3.contents]
  rfl

/-- **C37**. A condition `value == matcher` (`!=` for `isEqual = false`) passes exactly if the matcher
matches (does not match), when `true` is expected; and what is shown is the description for the actual
result of the match. -/
theorem C37_expression {α : Type} (always ce : Bool) (cap : Nat) (hcap : cap < 2 ^ 64) (expected : Bool)
    (m : Matcher α) (isEqual : Bool) (v : α) (d : Status → Text) (hd : ∀ s, m.describe v s = .ok (d s)) :
    ∃ e, withMatcher always ce cap expected m isEqual v = .ok e ∧
      (e.success = true ↔ ((m.matches_ v = true ↔ isEqual = true) ↔ expected = true)) ∧
      (e.success = true ∧ always = false → e.actual = []) ∧
      (e.success = false ∨ always = true → e.actual =
        allOrNothing cap (if m.matches_ v = true then d .matched else d .failed)) := by
  have hs : (if (isEqual == matcherEval m isEqual v) = true then Status.matched else Status.failed) =
      if m.matches_ v = true then Status.matched else Status.failed := by
    unfold matcherEval
    cases isEqual <;> cases m.matches_ v <;> rfl
  have hv : ((matcherEval m isEqual v == expected) = true ↔
      ((m.matches_ v = true ↔ isEqual = true) ↔ expected = true)) := by
    unfold matcherEval
    cases isEqual <;> cases m.matches_ v <;> cases expected <;> decide
  unfold withMatcher
  dsimp only
  by_cases h : (!(matcherEval m isEqual v == expected) || always) = true
  · rw [if_pos h, hs, hd, Outcome.bind_ok, describe_eq always ce hcap]
    refine ⟨_, rfl, hv, ?_, ?_⟩
    · rintro ⟨h1, h2⟩
      dsimp only at h1
      rw [h1, h2] at h
      cases h
    · intro _
      dsimp only
      rw [if_pos h]
      cases m.matches_ v <;> simp [display]
  · rw [if_neg h]
    refine ⟨_, rfl, hv, fun _ => rfl, ?_⟩
    intro h'
    exfalso
    apply h
    rcases h' with h' | h'
    · dsimp only at h'; rw [h']; rfl
    · rw [h']; simp

theorem resize_cut (n m : Nat) (hn : n + 3 < 2 ^ 64) (s : Text) (hs : s.length ≤ m) :
    resizeOrTruncate false n m s = .ok (Verif.Spec.cut n s) := by
  unfold resizeOrTruncate
  by_cases h1 : n = m
  · rw [if_pos h1, Verif.Spec.cut, if_pos (by omega)]
  · rw [if_neg h1]
    by_cases h2 : n > m
    · rw [if_pos h2]
      obtain ⟨w, e, hw⟩ := Append.text_holds false (holds_empty n ' ') (show n < sizeT by
        simp only [sizeT]; omega) s
      rw [e, Outcome.bind_ok]
      dsimp only
      rw [hw.contents, Verif.Spec.cut, if_pos (by omega), Verif.Spec.fill, List.nil_append,
        List.take_of_length_le (by omega)]
      rfl
    · rw [if_neg h2]
      obtain ⟨w, e, hw⟩ := Util.appendOrTruncate_holds false (holds_empty n ' ') hn [s]
      rw [e, Outcome.bind_ok]
      dsimp only
      rw [hw.contents]
      simp [Verif.Spec.cut]

/-- **C37**. `CHECK_THAT(value, matcher)` passes exactly if the matcher matches, and shows the
description for the actual result, cut to the capacity of an expression if it is too long. `m` is the
capacity of the description. -/
theorem C37_check_that {α : Type} (n m : Nat) (hn : n + 3 < 2 ^ 64) (mt : Matcher α) (v : α)
    (d : Status → Text) (hd : ∀ s, mt.describe v s = .ok (d s)) (hm : ∀ s, (d s).length ≤ m) :
    ∃ e, checkThat n m mt v = .ok e ∧ e.success = mt.matches_ v ∧
      e.actual = Verif.Spec.cut n (if mt.matches_ v = true then d .matched else d .failed) := by
  have hr := fun s => resize_cut n m hn s
  unfold checkThat runMatch
  cases h : mt.matches_ v with
  | true =>
    simp only [Bool.not_true, Bool.false_eq_true, if_false, if_true, hd, Outcome.bind_ok,
      Outcome.pure_eq, hr _ (hm _)]
    exact ⟨_, rfl, rfl, rfl⟩
  | false =>
    simp only [Bool.not_false, Bool.false_eq_true, if_false, if_true, hd, Outcome.bind_ok,
      Outcome.pure_eq, hr _ (hm _)]
    exact ⟨_, rfl, rfl, rfl⟩

example : (checkThat 40 40 (containsSubstring 40 "ell".toList) "hello".toList) =
    .ok { actual := "found 'ell' in 'hello'".toList, success := true } := by decide
example : (checkThat 20 40 (containsSubstring 40 "elk".toList) "hello".toList) =
    .ok { actual := "could not find 'e...".toList, success := false } := by decide
example : (isAnyOf 40 (fun a b : Nat => a == b) (fun n => (toString n).toList) [1, 2]).describe 3 .failed =
    .ok "'3' was not found in {'1', '2'}".toList := by decide
example : withMatcher false false 40 true (containsSubstring 40 "ell".toList) false "hello".toList =
    .ok { actual := "found 'ell' in 'hello'".toList, success := false } := by decide
example : ∃ d : Status → Text, (∀ s, (containsSubstring 40 "ell".toList).describe "hello".toList s = .ok (d s)) ∧
    ∀ s, (d s).length ≤ 40 :=
  ⟨fun s => match s with
    | .matched => "found 'ell' in 'hello'".toList
    | .failed => "could not find 'ell' in 'hello'".toList,
   fun s => by cases s <;> decide, fun s => by cases s <;> decide⟩

end Verif.Props
