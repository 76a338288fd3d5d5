import Verif.Spec.User
import Verif.Props.Expression
import Verif.Props.Sections
/-!
# C78: exceptions thrown by the functions of the program that checks call
-/
namespace Verif.Props
open Verif.Expr Verif.Expr.Spec Verif.User Verif.User.Spec

/-! ## Plans -/

private theorem play_bind {ε α β : Type} (r : α) (r' : β) (ss ss' : List (Step ε)) (k : α → Act ε β)
    (h : (∀ s ∈ ss, s.thrown = none) → k r = play r' ss') :
    (play r ss >>= k) = play r' (ss ++ ss') := by
  show (play r ss).bind k = _
  induction ss with
  | nil => rw [← List.nil_append (α := Step ε) ss'] at h; simp [play, Act.bind, h]
  | cons s ss ih =>
    unfold play
    rw [List.cons_append]
    cases e : s.thrown with
    | some x => dsimp only; rw [e]; dsimp only; cases s.fatal <;> rfl
    | none =>
      dsimp only
      rw [e]
      dsimp only
      rw [← ih fun hs => h (by simpa [e] using hs)]
      cases play r ss with
      | mk cs en => cases en <;> rfl

private theorem play_last {ε α β : Type} (r : α) (r' : β) (ss : List (Step ε)) (k : α → Act ε β)
    (h : k r = pure r') : (play r ss >>= k) = play r' ss := by
  rw [play_bind r r' ss [] k fun _ => h, List.append_nil]

private theorem play_nil {ε α β : Type} (r : α) (k : α → Act ε β) : (play r [] >>= k) = k r := by
  show Act.bind ⟨[], .ok r⟩ k = k r
  simp [Act.bind]

private theorem call_eq {ε α : Type} (c : Call) (f : Fn ε α) (r : α) (h : ∀ a, value f = some a → a = r) :
    call c f = play r [step c f false] := by
  obtain ⟨d, x⟩ := f
  cases x with
  | returns a => simp [call, play, step, thrown, h a rfl]
  | throws e => simp [call, play, step, thrown]

private theorem noThrow_play {ε α : Type} (b : Bool) (r : α) (ss : List (Step ε)) :
    noThrow b (play r ss) = play r (ss.map fun s => { s with fatal := s.fatal || b }) := by
  induction ss with
  | nil => rfl
  | cons s ss ih =>
    rw [List.map_cons]
    unfold play
    cases e : s.thrown with
    | some x => cases hf : s.fatal <;> cases b <;> simp [noThrow]
    | none =>
      dsimp only
      rw [← ih]
      cases play r ss with
      | mk cs en => cases en <;> cases b <;> rfl

private theorem step_more {ε α : Type} (c : Call) (f : Fn ε α) (x y : Bool) :
    ({ step c f x with fatal := (step c f x).fatal || y } : Step ε) = step c f (x || y) := by
  simp [step, Bool.or_assoc]

private theorem pure_play {ε α : Type} (r : α) : (pure r : Act ε α) = play r [] := rfl

private theorem lift_play {ε α : Type} (r : α) : (lift (.ok r) : Act ε α) = play r [] := rfl

private theorem returned {ε α : Type} [Inhabited α] (f : Fn ε α) (d : α) : ∀ a, value f = some a → a = (value f).getD d := by
  intro a h; simp [h]

/-! ## The checks -/

private theorem text_holds (ce : Bool) {cap : Nat} (hcap : cap < 2 ^ 64) {v : Str} {l : Text} (h : v.Holds cap l)
    (t : Text) : ∃ w, Append.text ce v t = .ok (w, decide ((l ++ t).length ≤ cap)) ∧
      ((l ++ t).length ≤ cap → w.Holds cap (l ++ t)) := by
  obtain ⟨w, e, hw⟩ := Append.text_holds ce h hcap t
  refine ⟨w, by simpa using e, fun hl => ?_⟩
  rwa [show Verif.Spec.fill cap l t = l ++ t from List.take_of_length_le hl] at hw

private theorem map_fatal {ε : Type} (ss : List (Step ε)) (b : Bool) (h : ∀ s ∈ ss, s.fatal = true) :
    (ss.map fun s => ({ s with fatal := s.fatal || b } : Step ε)) = ss := by
  induction ss with
  | nil => rfl
  | cons s ss ih =>
    rw [List.map_cons, ih fun x hx => h x (List.mem_cons_of_mem _ hx)]
    have := h s (List.mem_cons_self ..)
    obtain ⟨c, t, f⟩ := s
    simp_all

private theorem convert_fatal {ε : Type} (i : Nat) (shown : Option (Fn ε Text)) : ∀ s ∈ convert i shown, s.fatal = true := by
  cases shown <;> simp [convert, step]

private theorem ite_fatal {ε : Type} (p : Prop) [Decidable p] (ss : List (Step ε)) (h : ∀ s ∈ ss, s.fatal = true) :
    ∀ s ∈ (if p then ss else []), s.fatal = true := by
  split
  · exact h
  · simp

private theorem append_fatal {ε : Type} {ss ss' : List (Step ε)} (h : ∀ s ∈ ss, s.fatal = true)
    (h' : ∀ s ∈ ss', s.fatal = true) : ∀ s ∈ ss ++ ss', s.fatal = true := by
  intro s hs
  rcases List.mem_append.1 hs with hs | hs
  · exact h s hs
  · exact h' s hs

private theorem noThrow_split {ε α : Type} (b : Bool) (r : α) (ss ss' : List (Step ε)) (h : ∀ s ∈ ss', s.fatal = true) :
    noThrow b (play r (ss ++ ss')) = play r (ss.map (fun s => { s with fatal := s.fatal || b }) ++ ss') := by
  rw [noThrow_play, List.map_append, map_fatal ss' b h]

private theorem appendValue_play {ε : Type} (ce : Bool) {cap : Nat} (hcap : cap < 2 ^ 64) (i : Nat) {v : Str} {l : Text}
    (h : v.Holds cap l) (shown : Option (Fn ε Text)) : ∃ w,
      Verif.User.appendValue ce i v shown =
        play (w, decide ((l ++ operandText shown).length ≤ cap)) (convert i shown) ∧
      ((l ++ operandText shown).length ≤ cap → w.Holds cap (l ++ operandText shown)) := by
  obtain ⟨w, e, hw⟩ := text_holds ce hcap h (operandText shown)
  refine ⟨w, ?_, hw⟩
  unfold Verif.User.appendValue
  cases shown with
  | none =>
    dsimp only [operandText] at e ⊢
    rw [e, lift_play, noThrow_play]; rfl
  | some f =>
    dsimp only
    rw [call_eq _ f _ (returned f []), play_bind (r' := (w, decide ((l ++ operandText (some f)).length ≤ cap))) (ss' := []),
      noThrow_play]
    · simp [convert, step]
    · intro _
      rw [show (value f).getD [] = operandText (some f) from rfl, e, lift_play]

private theorem wanted_eq (always expected actual : Bool) :
    (!(actual == expected) || always) = wanted always expected actual := rfl

/-- **C78**, `CHECK(value)`. -/
theorem C78_value {ε : Type} (always ce : Bool) (cap : Nat) (hcap : cap < 2 ^ 64) (expected : Bool)
    (operands : Fn ε Unit) (truth : Fn ε Bool) (shown : Option (Fn ε Text)) :
    checkValue always ce cap expected operands truth shown =
      play (outcome always cap expected (verdict truth) (operandText shown))
        (valuePlan always expected operands truth shown) := by
  unfold checkValue valuePlan
  rw [call_eq .operands operands () (fun _ _ => rfl), List.cons_append]
  refine play_bind _ _ [_] _ _ fun _ => ?_
  rw [call_eq .truth truth _ (returned truth false)]
  rw [play_bind (r' := outcome always cap expected (verdict truth) (operandText shown))
    (ss' := if wanted always expected (verdict truth) then convert 0 shown else []), noThrow_split]
  · simp [step]
  · exact ite_fatal _ _ (convert_fatal _ _)
  · intro _
    dsimp only
    rw [show (value truth).getD false = verdict truth from rfl, wanted_eq]
    unfold outcome
    split
    · obtain ⟨w, e, hw⟩ := appendValue_play ce hcap 0 (SV.holds_empty cap ' ') shown
      rw [e]
      refine play_last _ _ _ _ ?_
      dsimp only
      congr 2
      unfold allOrNothing
      simp only [List.nil_append] at hw ⊢
      by_cases hl : (operandText shown).length ≤ cap
      · simp [hl, (hw hl).contents]
      · simp [hl]
    · rfl

/-- **C78**, a condition that is not decomposed. -/
theorem C78_condition {ε : Type} (expected : Bool) (operands : Fn ε Unit) (truth : Fn ε Bool) :
    checkCondition expected operands truth =
      play ⟨[], verdict truth == expected⟩ (conditionPlan operands truth) := by
  unfold checkCondition conditionPlan
  rw [call_eq .operands operands () (fun _ _ => rfl)]
  refine play_bind _ _ [_] [_] _ fun _ => ?_
  rw [call_eq .truth truth _ (returned truth false)]
  exact play_bind _ _ [_] [] _ fun _ => rfl

/-- **C78**, `CHECK(lhs OP rhs)`. -/
theorem C78_comparison {ε : Type} (always ce : Bool) (cap : Nat) (hcap : cap < 2 ^ 64) (expected : Bool) (op : Op)
    (u : Comparing ε) :
    checkComparison always ce cap expected op u =
      play (outcome always cap expected (verdict u.truth) (comparisonText op u))
        (comparisonPlan always cap expected op u) := by
  unfold checkComparison comparisonPlan
  rw [call_eq .operands u.operands () (fun _ _ => rfl), List.cons_append]
  refine play_bind _ _ [_] _ _ fun _ => ?_
  unfold comparison
  have ha : applyOperator u = play (verdict u.truth) [step .compare u.compare u.compare.declared,
      step .truth u.truth u.compare.declared] := by
    unfold applyOperator
    rw [call_eq .compare u.compare () (fun _ _ => rfl), play_bind (r' := verdict u.truth) (ss' := [step .truth u.truth false]),
      noThrow_play]
    · simp [step]
    · intro _; exact call_eq _ _ _ (returned _ _)
  rw [ha, play_bind (r' := outcome always cap expected (verdict u.truth) (comparisonText op u))
    (ss' := (if wanted always expected (verdict u.truth) then
    convert 0 u.left ++
      if (operandText u.left ++ symbol op (verdict u.truth)).length ≤ cap then convert 1 u.right else []
  else [])), noThrow_split]
  · simp [step]
  · exact ite_fatal _ _ (append_fatal (convert_fatal _ _) (ite_fatal _ _ (convert_fatal _ _)))
  · intro _
    dsimp only
    rw [wanted_eq]
    unfold outcome
    split
    · obtain ⟨w, e, hw⟩ := appendValue_play ce hcap 0 (SV.holds_empty cap ' ') u.left
      rw [e]
      simp only [List.nil_append] at hw ⊢
      refine play_bind _ _ _ _ _ fun _ => ?_
      dsimp only
      by_cases hl : (operandText u.left).length ≤ cap
      · obtain ⟨w2, e2, hw2⟩ := text_holds ce hcap (hw hl) (symbol op (verdict u.truth))
        rw [show (if verdict u.truth = true then op.actual else op.inverse) = symbol op (verdict u.truth) from rfl, e2]
        simp only [hl, decide_true, Bool.not_true, Bool.false_eq_true, if_false]
        rw [lift_play, play_nil]
        dsimp only
        by_cases hl2 : (operandText u.left ++ symbol op (verdict u.truth)).length ≤ cap
        · obtain ⟨w3, e3, hw3⟩ := appendValue_play ce hcap 1 (hw2 hl2) u.right
          rw [if_pos hl2, e3]
          simp only [hl2, decide_true, Bool.not_true, Bool.false_eq_true, if_false]
          refine play_last _ _ _ _ ?_
          dsimp only
          congr 2
          unfold allOrNothing comparisonText
          by_cases hl3 : (operandText u.left ++ symbol op (verdict u.truth) ++ operandText u.right).length ≤ cap
          · rw [if_pos hl3, if_pos (by simpa using hl3), (hw3 hl3).contents]
          · rw [if_neg hl3, if_neg (by simpa using hl3)]
        · rw [if_neg hl2, pure_play]
          simp only [hl2, decide_false, Bool.not_false, if_true]
          congr 2
          unfold allOrNothing comparisonText
          rw [if_neg (by rw [List.length_append]; omega)]
      · simp only [hl, decide_false, Bool.not_false, if_true]
        rw [pure_play, if_neg (by rw [List.length_append]; omega)]
        congr 2
        unfold allOrNothing comparisonText
        rw [if_neg (by rw [List.length_append, List.length_append]; omega)]
    · rfl

private theorem noThrow_call {ε α : Type} (c : Call) (f : Fn ε α) (r : α) (h : ∀ a, value f = some a → a = r) :
    noThrow true (call c f) = play r [step c f true] := by
  rw [call_eq c f r h, noThrow_play]
  simp [step]

/-- **C78**, `CHECK(value == matcher)` and `CHECK(value != matcher)`. -/
theorem C78_matcher {ε : Type} (always ce : Bool) (cap : Nat) (hcap : cap < 2 ^ 64) (expected isEqual : Bool)
    (u : Matching ε) :
    checkMatcher always ce cap expected isEqual u =
      play (outcome always cap expected (matcherVerdict isEqual u) (description u))
        (matcherPlan always expected isEqual u) := by
  unfold checkMatcher matcherPlan
  rw [call_eq .operands u.operands () (fun _ _ => rfl), List.cons_append]
  refine play_bind _ _ [_] _ _ fun _ => ?_
  rw [noThrow_call .matching u.matching _ (returned _ false)]
  rw [play_bind (r' := outcome always cap expected (matcherVerdict isEqual u) (description u))
    (ss' := if wanted always expected (matcherVerdict isEqual u) then
      [step (.describe (statusOf u)) (u.describe (statusOf u)) false] else []), noThrow_play]
  · split <;> simp [step]
  · intro _
    dsimp only
    rw [show (if isEqual = true then (value u.matching).getD false else !(value u.matching).getD false) =
      matcherVerdict isEqual u from by
        unfold matcherVerdict verdict; cases (value u.matching).getD false <;> cases isEqual <;> rfl]
    rw [show (if (isEqual == matcherVerdict isEqual u) = true then Status.matched else Status.failed) = statusOf u from by
        unfold matcherVerdict statusOf; cases verdict u.matching <;> cases isEqual <;> rfl]
    rw [wanted_eq]
    unfold outcome
    split
    · obtain ⟨w, e, hw⟩ := text_holds ce hcap (SV.holds_empty cap ' ') (description u)
      rw [call_eq _ (u.describe (statusOf u)) _ (returned _ [])]
      refine play_last _ _ _ _ ?_
      rw [show (value (u.describe (statusOf u))).getD [] = description u from rfl, e, lift_play, play_nil]
      dsimp only
      congr 2
      unfold allOrNothing
      simp only [List.nil_append] at hw ⊢
      by_cases hl : (description u).length ≤ cap
      · simp [hl, (hw hl).contents]
      · simp [hl]
    · rfl

/-- **C78**, `CHECK_THAT(value, matcher)`; `m` is the capacity of the descriptions. -/
theorem C78_that {ε : Type} (n m : Nat) (hn : n + 3 < 2 ^ 64) (u : Matching ε) (hm : (description u).length ≤ m) :
    User.checkThat n m u = play ⟨Verif.Spec.cut n (description u), verdict u.matching⟩ (matchPlan true u) := by
  unfold User.checkThat matchPlan
  rw [call_eq .operands u.operands () (fun _ _ => rfl)]
  refine play_bind _ _ [_] [_, _] _ fun _ => ?_
  have hb : (noThrow true do
      let b ← call .matching u.matching
      let text ← call (.describe (if b then .matched else .failed)) (u.describe (if b then .matched else .failed))
      return (b, text) : Act ε (Bool × Text)) = play (verdict u.matching, description u)
        [step .matching u.matching true, step (.describe (statusOf u)) (u.describe (statusOf u)) true] := by
    rw [call_eq .matching u.matching _ (returned _ false), play_bind (r' := (verdict u.matching, description u))
      (ss' := [step (.describe (statusOf u)) (u.describe (statusOf u)) false]), noThrow_play]
    · simp [step]
    · intro _
      rw [show (if (value u.matching).getD false = true then Status.matched else Status.failed) = statusOf u from rfl,
        call_eq _ (u.describe (statusOf u)) _ (returned _ [])]
      exact play_last _ _ _ _ rfl
  rw [hb]
  refine play_last _ _ _ _ ?_
  dsimp only
  rw [resize_cut n m hn _ hm, lift_play, play_nil]

/-- **C78**, `CHECK_THROWS_MATCHES`. -/
theorem C78_throws_matches {ε : Type} (u : Matching ε) :
    throwsMatches u = play (verdict u.matching, description u) (matchPlan false u) := by
  unfold throwsMatches matchPlan
  rw [call_eq .operands u.operands () (fun _ _ => rfl)]
  refine play_bind _ _ [_] [_, _] _ fun _ => ?_
  rw [call_eq .matching u.matching _ (returned _ false)]
  refine play_bind _ _ [_] [_] _ fun _ => ?_
  rw [show (if (value u.matching).getD false = true then Status.matched else Status.failed) = statusOf u from rfl,
    call_eq _ (u.describe (statusOf u)) _ (returned _ [])]
  exact play_last _ _ _ _ rfl

private theorem argPlan_fatal {ε : Type} (cap : Nat) : ∀ (args : List (Arg ε)) (used i : Nat),
    ∀ s ∈ argPlan cap used i args, s.fatal = true := by
  intro args
  induction args with
  | nil => intro _ _ s hs; simp [argPlan] at hs
  | cons a as ih =>
    intro used i
    unfold argPlan
    refine append_fatal ?_ (ite_fatal _ _ (ih _ _))
    cases a <;> simp [step]

private theorem noThrow_fatal {ε α : Type} (r : α) (ss : List (Step ε)) (h : ∀ s ∈ ss, s.fatal = true) (b : Bool) :
    noThrow b (play r ss) = play r ss := by
  rw [noThrow_play, map_fatal ss b h]

private theorem noThrow_bind {ε α β : Type} (b : Bool) (x : Act ε α) (k : α → Act ε β) :
    noThrow b (x >>= k) = (noThrow b x >>= fun a => noThrow b (k a)) := by
  show noThrow b (x.bind k) = (noThrow b x).bind fun a => noThrow b (k a)
  obtain ⟨cs, en⟩ := x
  cases en with
  | ok a =>
    simp only [Act.bind, noThrow]
    obtain ⟨cs', en'⟩ := k a
    cases en' <;> rfl
  | threw e => cases b <;> rfl
  | terminated => rfl
  | undefined => rfl

private theorem variadic_play {ε : Type} (ce : Bool) {cap : Nat} (hcap : cap < 2 ^ 64) :
    ∀ (args : List (Arg ε)) (i : Nat) (v : Str) (l : Text), v.Holds cap l → ∃ w,
      noThrow true (variadic ce i args v) =
        play (w, decide ((l ++ args.flatMap argText).length ≤ cap)) (argPlan cap l.length i args) ∧
      w.Holds cap (Verif.Spec.fill cap l (args.flatMap argText)) := by
  intro args
  induction args with
  | nil =>
    intro i v l h
    refine ⟨v, ?_, ?_⟩
    · simp [variadic, pure_play, noThrow_play, argPlan, h.le]
    · simpa [Verif.Spec.fill, List.take_of_length_le h.le] using h
  | cons a as ih =>
    intro i v l h
    obtain ⟨w, e, hw⟩ := Append.text_holds ce h hcap (argText a)
    have key : ∀ j, ∃ w', (noThrow true (lift (Append.text ce v (argText a)) >>= fun p : Str × Bool =>
        if p.2 then variadic ce j as p.1 else return (p.1, false)) : Act ε (Str × Bool)) =
          play (w', decide ((l ++ (a :: as).flatMap argText).length ≤ cap))
            (if l.length + (argText a).length ≤ cap then argPlan cap (l.length + (argText a).length) j as else []) ∧
        w'.Holds cap (Verif.Spec.fill cap l ((a :: as).flatMap argText)) := by
      intro j
      rw [e, lift_play, play_nil]
      dsimp only
      by_cases hl : l.length + (argText a).length ≤ cap
      · have e2 : Verif.Spec.fill cap l (argText a) = l ++ argText a :=
          List.take_of_length_le (by simpa using hl)
        rw [e2] at hw
        obtain ⟨w', e3, h3⟩ := ih j w _ hw
        refine ⟨w', ?_, ?_⟩
        · simp only [hl, decide_true, if_true]
          rw [e3]
          simp
        · simpa [Verif.Spec.fill] using h3
      · refine ⟨w, ?_, ?_⟩
        · rw [decide_eq_false hl, if_neg (by simp), if_neg hl, pure_play, noThrow_play]
          rw [decide_eq_false (by simp only [List.flatMap_cons, List.length_append]; omega)]
          rfl
        · have : Verif.Spec.fill cap l ((a :: as).flatMap argText) = Verif.Spec.fill cap l (argText a) := by
            simp only [Verif.Spec.fill, List.flatMap_cons, ← List.append_assoc]
            rw [List.take_append_of_le_length (by rw [List.length_append]; omega)]
          rw [this]
          exact hw
    cases a with
    | text t =>
      obtain ⟨w', e', h'⟩ := key i
      exact ⟨w', e', h'⟩
    | value f =>
      obtain ⟨w', e', h'⟩ := key (i + 1)
      refine ⟨w', ?_, h'⟩
      rw [variadic, noThrow_bind, noThrow_call (.append i) f _ (returned f [])]
      exact play_bind _ _ [_] _ _ fun _ => e'

/-- **C78**, `INFO(args...)` and `CAPTURE(value)`. -/
theorem C78_capture {ε : Type} (cap : Nat) (hcap : cap + 3 < 2 ^ 64) (operands : Fn ε Unit) (args : List (Arg ε)) :
    User.capture cap operands args =
      play (Verif.Spec.cut cap (args.flatMap argText)) (capturePlan cap operands args) := by
  unfold User.capture capturePlan
  rw [call_eq .operands operands () (fun _ _ => rfl)]
  refine play_bind _ _ [_] _ _ fun _ => ?_
  obtain ⟨w, e, hw⟩ := variadic_play false (show cap < 2 ^ 64 by omega) args 0 _ _ (SV.holds_empty cap ' ')
  have hall : ∃ x : Str × Bool, appendOrTruncate false (SV.empty cap ' ') args = play x (argPlan cap 0 0 args) ∧
      x.1.contents = Verif.Spec.cut cap (args.flatMap argText) := by
    simp only [List.nil_append, List.length_nil] at e
    unfold appendOrTruncate
    rw [e]
    unfold Verif.Spec.cut
    by_cases hl : (args.flatMap argText).length ≤ cap
    · refine ⟨(w, true), ?_, ?_⟩
      · rw [play_last (r' := (w, true)), noThrow_fatal _ _ (argPlan_fatal _ _ _ _)]
        rw [decide_eq_true hl]; rfl
      · rw [if_pos hl]
        dsimp only
        rw [hw.contents, Verif.Spec.fill, List.nil_append, List.take_of_length_le hl]
    · obtain ⟨w', e', h'⟩ := Util.truncateEnd_holds hw hcap
      refine ⟨(w', false), ?_, ?_⟩
      · rw [play_last (r' := (w', false)), noThrow_fatal _ _ (argPlan_fatal _ _ _ _)]
        rw [decide_eq_false hl]
        simp only [Bool.not_false, if_true]
        rw [e', lift_play, play_nil]
      · rw [if_neg hl]
        dsimp only
        have hf : (Verif.Spec.fill cap [] (args.flatMap argText)).length = cap := by
          simp only [Verif.Spec.fill, List.length_take, List.nil_append]; omega
        rw [h'.contents, Util.truncated_of_full hf, Verif.Spec.fill, List.nil_append, List.take_take,
          Nat.min_eq_left (by omega)]
  obtain ⟨x, e', h'⟩ := hall
  rw [e']
  exact play_last _ _ _ _ (by rw [← h'])

/-! ## What follows for all checks -/

private theorem play_calls {ε α : Type} (r : α) (ss : List (Step ε)) : (play r ss).calls <+: ss.map (·.call) := by
  induction ss with
  | nil => exact List.nil_prefix
  | cons s ss ih =>
    unfold play
    rw [List.map_cons]
    cases s.thrown with
    | some e => exact ⟨_, rfl⟩
    | none => exact List.cons_prefix_cons.2 ⟨rfl, ih⟩

private theorem play_nodup {ε α : Type} (r : α) (ss : List (Step ε)) (h : (ss.map (·.call)).Nodup) :
    (play r ss).calls.Nodup := h.sublist (play_calls r ss).sublist

private theorem convert_calls {ε : Type} (i : Nat) (shown : Option (Fn ε Text)) :
    (convert i shown).map (·.call) = [] ∨ (convert i shown).map (·.call) = [.append i] := by
  cases shown
  · exact .inl rfl
  · exact .inr rfl

private theorem argPlan_calls {ε : Type} (cap : Nat) : ∀ (args : List (Arg ε)) (used i : Nat),
    ((argPlan cap used i args).map (·.call)).Nodup ∧
    ∀ c ∈ (argPlan cap used i args).map (·.call), ∃ j, i ≤ j ∧ c = .append j := by
  intro args
  induction args with
  | nil => intro _ _; exact ⟨List.nodup_nil, fun c hc => by simp [argPlan] at hc⟩
  | cons a as ih =>
    intro used i
    unfold argPlan
    cases a with
    | text t =>
      dsimp only
      rw [List.nil_append]
      split
      · exact ih _ _
      · exact ⟨List.nodup_nil, fun c hc => by simp at hc⟩
    | value f =>
      dsimp only
      rw [List.cons_append, List.map_cons, List.nil_append]
      split
      · obtain ⟨h1, h2⟩ := ih (used + (argText (.value f)).length) (i + 1)
        refine ⟨List.nodup_cons.2 ⟨fun hc => ?_, h1⟩, fun c hc => ?_⟩
        · obtain ⟨j, hj, e⟩ := h2 _ hc
          simp only [step, Call.append.injEq] at e
          omega
        · rcases List.mem_cons.1 hc with rfl | hc
          · exact ⟨i, Nat.le_refl i, rfl⟩
          · obtain ⟨j, hj, e⟩ := h2 _ hc
            exact ⟨j, by omega, e⟩
      · exact ⟨by simp, fun c hc => ⟨i, Nat.le_refl i, by simpa [step] using hc⟩⟩

/-- **C78**. No check and no capture calls a function of the program twice. -/
theorem C78_once {ε : Type} (always ce : Bool) (cap m : Nat) (hcap : cap + 3 < 2 ^ 64) (expected isEqual : Bool) (op : Op)
    (u : Comparing ε) (truth : Fn ε Bool) (shown : Option (Fn ε Text)) (w : Matching ε)
    (hm : (description w).length ≤ m) (args : List (Arg ε)) :
    (checkComparison always ce cap expected op u).calls.Nodup ∧
    (checkValue always ce cap expected u.operands truth shown).calls.Nodup ∧
    (checkCondition expected u.operands truth).calls.Nodup ∧
    (checkMatcher always ce cap expected isEqual w).calls.Nodup ∧
    (User.checkThat cap m w).calls.Nodup ∧ (throwsMatches w).calls.Nodup ∧
    (User.capture cap u.operands args).calls.Nodup := by
  have hc : cap < 2 ^ 64 := by omega
  rw [C78_comparison always ce cap hc, C78_value always ce cap hc, C78_condition, C78_matcher always ce cap hc,
    C78_that cap m hcap w hm, C78_throws_matches, C78_capture cap hcap]
  refine ⟨play_nodup _ _ ?_, play_nodup _ _ ?_, play_nodup _ _ ?_, play_nodup _ _ ?_, play_nodup _ _ ?_,
    play_nodup _ _ ?_, play_nodup _ _ ?_⟩
  · unfold comparisonPlan
    rw [List.map_append]
    split
    · rw [List.map_append]
      split
      · rcases convert_calls 0 u.left with h | h <;> rcases convert_calls 1 u.right with h' | h' <;>
          rw [h, h'] <;> simp [step]
      · rcases convert_calls 0 u.left with h | h <;> rw [h] <;> simp [step]
    · simp [step]
  · unfold valuePlan
    rw [List.map_append]
    split
    · rcases convert_calls 0 shown with h | h <;> rw [h] <;> simp [step]
    · simp [step]
  · simp [conditionPlan, step]
  · unfold matcherPlan
    split <;> simp [step]
  · simp [matchPlan, step]
  · simp [matchPlan, step]
  · unfold capturePlan
    obtain ⟨h1, h2⟩ := argPlan_calls cap args 0 0
    refine List.nodup_cons.2 ⟨fun hc => ?_, h1⟩
    obtain ⟨j, _, e⟩ := h2 _ hc
    simp [step] at e

private theorem play_ok {ε α : Type} {r x : α} {ss : List (Step ε)} (h : (play r ss).ends = .ok x) : x = r := by
  induction ss with
  | nil => simpa [play, eq_comm] using h
  | cons s ss ih =>
    unfold play at h
    cases e : s.thrown with
    | some e' => rw [e] at h; dsimp only at h; split at h <;> cases h
    | none => rw [e] at h; exact ih h

/-- **C78**. A check that passes converts no operand to a text and asks for no description (unless successful assertions are
to be decomposed, or the check is `CHECK_THAT`). -/
theorem C78_silent {ε : Type} (ce : Bool) (cap : Nat) (hcap : cap < 2 ^ 64) (expected isEqual : Bool) (op : Op)
    (u : Comparing ε) (truth : Fn ε Bool) (shown : Option (Fn ε Text)) (w : Matching ε) (r : Expression)
    (hr : r.success = true) :
    ((checkComparison false ce cap expected op u).ends = .ok r → ∀ i,
      .append i ∉ (checkComparison false ce cap expected op u).calls) ∧
    ((checkValue false ce cap expected u.operands truth shown).ends = .ok r → ∀ i,
      .append i ∉ (checkValue false ce cap expected u.operands truth shown).calls) ∧
    ((checkMatcher false ce cap expected isEqual w).ends = .ok r → ∀ s,
      .describe s ∉ (checkMatcher false ce cap expected isEqual w).calls) := by
  rw [C78_comparison false ce cap hcap, C78_value false ce cap hcap, C78_matcher false ce cap hcap]
  have hw : ∀ (b : Bool) (t : Text), r = outcome false cap expected b t → wanted false expected b = false := by
    intro b t h
    rw [h] at hr
    simp only [outcome, beq_iff_eq] at hr
    simp [wanted, hr]
  refine ⟨fun h i hi => ?_, fun h i hi => ?_, fun h s hs => ?_⟩
  · have hi := (play_calls _ _).subset hi
    unfold comparisonPlan at hi
    rw [hw _ _ (play_ok h), if_neg (by simp)] at hi
    simp [step] at hi
  · have hi := (play_calls _ _).subset hi
    unfold valuePlan at hi
    rw [hw _ _ (play_ok h), if_neg (by simp)] at hi
    simp [step] at hi
  · have hs := (play_calls _ _).subset hs
    unfold matcherPlan at hs
    rw [hw _ _ (play_ok h), if_neg (by simp)] at hs
    simp [step] at hs

private theorem play_cons_none {ε α : Type} (r : α) (s : Step ε) (ss : List (Step ε)) (h : s.thrown = none) :
    play r (s :: ss) = ⟨s.call :: (play r ss).calls, (play r ss).ends⟩ := by
  rw [play, h]

private theorem play_cons_some {ε α : Type} (r : α) (s : Step ε) (ss : List (Step ε)) {e : ε} (h : s.thrown = some e) :
    play r (s :: ss) = ⟨[s.call], if s.fatal then .terminated else .threw e⟩ := by
  rw [play, h]

private theorem returns_none {ε α : Type} (c : Call) (f : Fn ε α) (b : Bool) {a : α} (h : f.does = .returns a) :
    (step c f b).thrown = none := by simp [step, thrown, h]

private theorem throws_some {ε α : Type} (c : Call) (f : Fn ε α) (b : Bool) {e : ε} (h : f.does = .throws e) :
    (step c f b).thrown = some e := by simp [step, thrown, h]

/-- **C78**, the part that holds: an exception thrown by evaluating the operands, by the comparison, or by the conversion of
its result to `bool`, leaves the check, and nothing else of the program is called; unless the function was declared
`noexcept`, or, for the conversion, the comparison was. So does one thrown by a matcher in `CHECK_THROWS_MATCHES`. -/
theorem C78_passed_on_partial {ε : Type} (always ce : Bool) (cap : Nat) (hcap : cap < 2 ^ 64) (expected : Bool) (op : Op)
    (u : Comparing ε) (shown : Option (Fn ε Text)) (w : Matching ε) (e : ε) :
    (u.operands = ⟨false, .throws e⟩ →
      checkComparison always ce cap expected op u = ⟨[.operands], .threw e⟩ ∧
      checkValue always ce cap expected u.operands u.truth shown = ⟨[.operands], .threw e⟩ ∧
      checkCondition expected u.operands u.truth = ⟨[.operands], .threw e⟩) ∧
    (u.operands.does = .returns () → u.compare = ⟨false, .throws e⟩ →
      checkComparison always ce cap expected op u = ⟨[.operands, .compare], .threw e⟩) ∧
    (u.operands.does = .returns () → u.compare = ⟨false, .returns ()⟩ → u.truth = ⟨false, .throws e⟩ →
      checkComparison always ce cap expected op u = ⟨[.operands, .compare, .truth], .threw e⟩) ∧
    (u.operands.does = .returns () → u.truth = ⟨false, .throws e⟩ →
      checkValue always ce cap expected u.operands u.truth shown = ⟨[.operands, .truth], .threw e⟩ ∧
      checkCondition expected u.operands u.truth = ⟨[.operands, .truth], .threw e⟩) ∧
    (w.operands.does = .returns () → w.matching = ⟨false, .throws e⟩ →
      throwsMatches w = ⟨[.operands, .matching], .threw e⟩) ∧
    ∀ b, w.operands.does = .returns () → w.matching.does = .returns b →
      w.describe (if b then .matched else .failed) = ⟨false, .throws e⟩ →
      throwsMatches w = ⟨[.operands, .matching, .describe (if b then .matched else .failed)], .threw e⟩ := by
  rw [C78_comparison always ce cap hcap, C78_value always ce cap hcap, C78_condition, C78_throws_matches]
  unfold comparisonPlan valuePlan conditionPlan matchPlan
  simp only [List.cons_append]
  refine ⟨fun h => ?_, fun h1 h2 => ?_, fun h1 h2 h3 => ?_, fun h1 h2 => ?_, fun h1 h2 => ?_, fun b h1 h2 h3 => ?_⟩
  · rw [h]; exact ⟨rfl, rfl, rfl⟩
  · rw [play_cons_none _ _ _ (returns_none _ _ _ h1), h2]; rfl
  · rw [play_cons_none _ _ _ (returns_none _ _ _ h1), h2, h3]; rfl
  · rw [play_cons_none _ _ _ (returns_none _ _ _ h1), play_cons_none _ _ _ (returns_none _ _ _ h1), h2]
    exact ⟨rfl, rfl⟩
  · rw [play_cons_none _ _ _ (returns_none _ _ _ h1), h2]; rfl
  · have hs : statusOf w = if b then .matched else .failed := by simp [statusOf, verdict, value, h2]
    rw [play_cons_none _ _ _ (returns_none _ _ _ h1), play_cons_none _ _ _ (returns_none _ _ _ h2), hs, h3]; rfl

open Verif.Run Verif.Run.Spec in
/-- **C78**, the part that holds, in a run: the exception is reported as a failure of the test case, at the place of the
check. -/
theorem C78_reported_partial [Run.MessageLimit] {cfg : Cfg} {t : TestCase} {tags : List Filter.ParsedTag}
    (hf : Fits cfg t tags) (ht : Always Tidy t.body) (hsf : tags.contains .shouldFail = false)
    {fs : List Frame} {loc : Nat} {abort : Bool} {data : Text} {k : Prog} {ev : Eval}
    (hb : t.body.first = plug fs (.stmt (.check loc ev abort data) k)) {fuel : Nat} (hfuel : 1 ≤ fuel)
    (always ce : Bool) (cap : Nat) (hcap : cap < 2 ^ 64) (expected : Bool) (op : Verif.Expr.Op) (u : Comparing Exn)
    (hev : toEval (checkComparison always ce cap expected op u).ends = some ev) (e : Exn) (he : e.isAbort = false)
    (hu : u.operands = ⟨false, .throws e⟩ ∨
      u.operands.does = .returns () ∧ u.compare = ⟨false, .throws e⟩ ∨
      u.operands.does = .returns () ∧ u.compare = ⟨false, .returns ()⟩ ∧ u.truth = ⟨false, .throws e⟩) :
    ∃ s, run cfg fuel t = some (.ok s) ∧
      s.log.filterMap observed = (itemsBefore fs ++
        [Item.assertion false ⟨sectionsOf fs, capturesOf fs, loc, .inCheck⟩ (unexpectedMessage e)] ++
        (sectionsOf fs).reverse.map fun id => Item.leave id true).filter (Item.visible cfg.verbosity) := by
  have h : (checkComparison always ce cap expected op u).ends = .threw e := by
    obtain ⟨h1, h2, h3, _⟩ := C78_passed_on_partial always ce cap hcap expected op u none
      ⟨u.operands, u.truth, fun _ => ⟨false, .returns []⟩⟩ e
    rcases hu with h | ⟨h, h'⟩ | ⟨h, h', h''⟩
    · rw [(h1 h).1]
    · rw [h2 h h']
    · rw [h3 h h' h'']
  rw [h] at hev
  cases hev
  exact C48_place_of_exception_in_check hf ht hsf hb he hfuel

private theorem play_fatal {ε α : Type} (r : α) : ∀ (ss : List (Step ε)) (s : Step ε) (rest : List (Step ε)),
    (∀ x ∈ ss, x.thrown = none) → s.thrown.isSome → s.fatal = true →
    play r (ss ++ s :: rest) = ⟨ss.map (·.call) ++ [s.call], .terminated⟩ := by
  intro ss
  induction ss with
  | nil =>
    intro s rest _ h1 h2
    obtain ⟨e, h1⟩ := Option.isSome_iff_exists.1 h1
    simp [play, h1, h2]
  | cons x ss ih =>
    intro s rest h h1 h2
    rw [List.cons_append, play_cons_none _ _ _ (h x (List.mem_cons_self ..)),
      ih s rest (fun y hy => h y (List.mem_cons_of_mem _ hy)) h1 h2]
    rfl

/-- **C78**, the part that fails, for comparisons: if a comparison without the expected result has an operand whose
conversion to a text throws, the program ends. -/
theorem C78_text_ends_program {ε : Type} (always ce : Bool) (cap : Nat) (hcap : cap < 2 ^ 64) (expected b : Bool) (op : Op)
    (u : Comparing ε) (f : Fn ε Text) (e : ε) (ho : u.operands.does = .returns ()) (hc : u.compare.does = .returns ())
    (ht : u.truth.does = .returns b) (hb : b ≠ expected) (hf : f.does = .throws e) :
    (u.left = some f →
      checkComparison always ce cap expected op u = ⟨[.operands, .compare, .truth, .append 0], .terminated⟩) ∧
    (∀ g l, u.left = some g → g.does = .returns l → u.right = some f → l.length + 4 ≤ cap →
      checkComparison always ce cap expected op u =
        ⟨[.operands, .compare, .truth, .append 0, .append 1], .terminated⟩) := by
  rw [C78_comparison always ce cap hcap]
  have hv : verdict u.truth = b := by simp [verdict, value, ht]
  have hw : wanted always expected b = true := by simp [wanted, hb]
  unfold comparisonPlan
  rw [hv, hw, if_pos rfl]
  refine ⟨fun hl => ?_, fun g l hg hl hr hroom => ?_⟩
  · rw [hl]
    refine play_fatal _ [_, _, _] _ _ ?_ ?_ ?_
    · simp [step, thrown, ho, hc, ht]
    · simp [step, thrown, hf]
    · simp [step]
  · have hlen : ∀ o : Op, ∀ x : Bool, (symbol o x).length ≤ 4 := by
      intro o x; cases o <;> cases x <;> decide
    have h4 := hlen op b
    rw [hg, hr, show operandText (some g) = l by simp [operandText, value, hl],
      if_pos (by rw [List.length_append]; omega)]
    refine play_fatal _ [_, _, _, _] _ [] ?_ ?_ ?_
    · simp [step, thrown, ho, hc, ht, hl]
    · simp [step, thrown, hf]
    · simp [step]

/-- **C78**, the part that fails, for matchers: if a matcher throws in `CHECK(value == matcher)` or `CHECK_THAT`, the
program ends, whichever of its functions it is. -/
theorem C78_matcher_ends_program {ε : Type} (always ce : Bool) (cap m : Nat) (hcap : cap + 3 < 2 ^ 64)
    (expected isEqual : Bool) (u : Matching ε) (e : ε) (ho : u.operands.does = .returns ()) :
    (u.matching.does = .throws e →
      checkMatcher always ce cap expected isEqual u = ⟨[.operands, .matching], .terminated⟩ ∧
      User.checkThat cap m u = ⟨[.operands, .matching], .terminated⟩) ∧
    (∀ b, u.matching.does = .returns b → (u.describe (if b then .matched else .failed)).does = .throws e →
      User.checkThat cap m u = ⟨[.operands, .matching, .describe (if b then .matched else .failed)], .terminated⟩ ∧
      ((b == isEqual) ≠ expected → checkMatcher always ce cap expected isEqual u =
        ⟨[.operands, .matching, .describe (if b then .matched else .failed)], .terminated⟩)) := by
  rw [C78_matcher always ce cap (by omega)]
  have hdead : ∀ b, u.matching.does = .returns b → (u.describe (if b then .matched else .failed)).does = .throws e →
      description u = [] := by
    intro b h1 h2
    simp [description, statusOf, verdict, value, h1, h2]
  refine ⟨fun h => ⟨?_, ?_⟩, fun b h1 h2 => ⟨?_, fun h3 => ?_⟩⟩
  · refine play_fatal _ [_] _ _ ?_ ?_ ?_
    · simp [step, thrown, ho]
    · simp [step, thrown, h]
    · simp [step]
  · simp only [User.checkThat, call, ho, h]
    cases u.matching.declared <;> rfl
  · rw [C78_that cap m hcap u (by rw [hdead b h1 h2]; exact Nat.zero_le _)]
    have hs : statusOf u = if b then .matched else .failed := by simp [statusOf, verdict, value, h1]
    unfold matchPlan
    rw [hs]
    refine play_fatal _ [_, _] _ [] ?_ ?_ ?_
    · simp [step, thrown, ho, h1]
    · simp [step, thrown, h2]
    · simp [step]
  · have hs : statusOf u = if b then .matched else .failed := by simp [statusOf, verdict, value, h1]
    have hw : wanted always expected (matcherVerdict isEqual u) = true := by
      have : matcherVerdict isEqual u = (b == isEqual) := by simp [matcherVerdict, verdict, value, h1]
      rw [this]; simp only [wanted, Bool.or_eq_true, bne_iff_ne]; exact .inl h3
    unfold matcherPlan
    rw [hs, hw, if_pos rfl]
    refine play_fatal _ [_, _] _ [] ?_ ?_ ?_
    · simp [step, thrown, ho, h1]
    · simp [step, thrown, h2]
    · simp [step]

/-- **C78**, the part that fails, for captures: if the conversion of a captured value throws, the program ends. -/
theorem C78_capture_ends_program {ε : Type} (cap : Nat) (hcap : cap + 3 < 2 ^ 64) (operands : Fn ε Unit) (name : Text)
    (f : Fn ε Text) (e : ε) (ho : operands.does = .returns ()) (hf : f.does = .throws e) (hn : name.length + 4 ≤ cap) :
    User.capture cap operands [.text name, .text " := ".toList, .value f] = ⟨[.operands, .append 0], .terminated⟩ := by
  rw [C78_capture cap hcap]
  have h4 : (" := ".toList).length = 4 := rfl
  have hp : capturePlan cap operands [.text name, .text " := ".toList, .value f] =
      [step .operands operands false] ++ step (.append 0) f true :: [] := by
    simp only [capturePlan, argPlan, argText, List.nil_append, h4, Nat.zero_add, if_pos hn,
      if_pos (show name.length ≤ cap by omega), ite_self, List.append_nil, List.cons_append]
  rw [hp]
  refine play_fatal _ [_] _ _ ?_ ?_ ?_
  · simp [step, thrown, ho]
  · simp [step, thrown, hf]
  · simp [step]

private theorem play_calm {ε α : Type} (r : α) (ss : List (Step ε)) (h : ∀ s ∈ ss, s.thrown = none) :
    (play r ss).ends = .ok r := by
  induction ss with
  | nil => rfl
  | cons s ss ih =>
    rw [play_cons_none _ _ _ (h s (List.mem_cons_self ..))]
    exact ih fun x hx => h x (List.mem_cons_of_mem _ hx)

/-- **C78**. If no function of the program throws, the checks give what C36 and C37 say: the model of this property agrees with
the one of those. -/
theorem C78_agrees {ε α β : Type} (always ce : Bool) (cap m : Nat) (hcap : cap + 3 < 2 ^ 64) (expected isEqual : Bool)
    (c : Comparison α β) (op : Op) (showL : α → Option Text) (showR : β → Option Text) (l : α) (r : β)
    (toBool : α → Bool) (mt : Matcher α) (d : Status → Text) (hd : ∀ s, mt.describe l s = .ok (d s))
    (hm : ∀ s, (d s).length ≤ m) (d1 d2 d3 d4 : Bool) :
    (checkComparison always ce cap expected op (ε := ε) ⟨⟨d1, .returns ()⟩, ⟨d2, .returns ()⟩, ⟨d3, .returns (op.eval c l r)⟩,
        (showL l).map fun t => ⟨d4, .returns t⟩, (showR r).map fun t => ⟨d4, .returns t⟩⟩).ends =
      (lift (binary always ce cap expected c op showL showR l r) : Act ε Expression).ends ∧
    (checkValue always ce cap expected (ε := ε) ⟨d1, .returns ()⟩ ⟨d3, .returns (toBool l)⟩
        ((showL l).map fun t => ⟨d4, .returns t⟩)).ends =
      (lift (unary always ce cap expected toBool showL l) : Act ε Expression).ends ∧
    (∀ b, (checkCondition expected (ε := ε) ⟨d1, .returns ()⟩ ⟨d3, .returns b⟩).ends = .ok (undecomposed expected b)) ∧
    (checkMatcher always ce cap expected isEqual (ε := ε) ⟨⟨d1, .returns ()⟩, ⟨d2, .returns (mt.matches_ l)⟩,
        fun s => ⟨d3, .returns (d s)⟩⟩).ends =
      (lift (withMatcher always ce cap expected mt isEqual l) : Act ε Expression).ends ∧
    (User.checkThat cap m (ε := ε) ⟨⟨d1, .returns ()⟩, ⟨d2, .returns (mt.matches_ l)⟩,
        fun s => ⟨d3, .returns (d s)⟩⟩).ends =
      (lift (Expr.checkThat cap m mt l) : Act ε Expression).ends := by
  have hc : cap < 2 ^ 64 := by omega
  have hconv : ∀ (i : Nat) (o : Option Text), ∀ s ∈ convert i (o.map fun t => (⟨d4, .returns t⟩ : Fn ε Text)),
      s.thrown = none := by
    intro i o; cases o <;> simp [convert, step, thrown]
  have htext : ∀ o : Option Text, operandText (o.map fun t => (⟨d4, .returns t⟩ : Fn ε Text)) = display o := by
    intro o; cases o <;> rfl
  have hite : ∀ (p : Prop) [Decidable p] (ss : List (Step ε)), (∀ s ∈ ss, s.thrown = none) →
      ∀ s ∈ (if p then ss else []), s.thrown = none := by
    intro p _ ss h; split
    · exact h
    · simp
  have happ : ∀ ss ss' : List (Step ε), (∀ s ∈ ss, s.thrown = none) → (∀ s ∈ ss', s.thrown = none) →
      ∀ s ∈ ss ++ ss', s.thrown = none := by
    intro ss ss' h h' s hs
    rcases List.mem_append.1 hs with hs | hs
    · exact h s hs
    · exact h' s hs
  refine ⟨?_, ?_, fun b => rfl, ?_, ?_⟩
  · rw [C78_comparison always ce cap hc, play_calm]
    · unfold binary
      dsimp only
      rw [describe_eq always ce hc]
      simp only [lift, outcome, comparisonText, htext, verdict, value, Option.getD_some, ← wanted_eq, symbol]
      simp only [List.flatMap_cons, List.flatMap_nil, List.append_nil, List.append_assoc,
        show ∀ t : Text, display (some t) = t from fun _ => rfl]
      rfl
    · refine happ _ _ ?_ (hite _ _ (happ _ _ (hconv _ _) (hite _ _ (hconv _ _))))
      simp [step, thrown]
  · rw [C78_value always ce cap hc, play_calm]
    · unfold unary
      rw [describe_eq always ce hc]
      simp only [lift, outcome, htext, verdict, value, Option.getD_some, ← wanted_eq]
      simp
    · refine happ _ _ ?_ (hite _ _ (hconv _ _))
      simp [step, thrown]
  · rw [C78_matcher always ce cap hc, play_calm]
    · have hv : matcherEval mt isEqual l = (mt.matches_ l == isEqual) := by
        unfold matcherEval; cases mt.matches_ l <;> cases isEqual <;> rfl
      have hs : (if (isEqual == (mt.matches_ l == isEqual)) = true then Status.matched else Status.failed) =
          if mt.matches_ l then .matched else .failed := by
        cases mt.matches_ l <;> cases isEqual <;> rfl
      unfold withMatcher
      simp only [hv, hs, hd, Outcome.bind_ok]
      simp only [outcome, matcherVerdict, description, statusOf, verdict, value, Option.getD_some, ← wanted_eq]
      split
      · rw [describe_eq always ce hc]
        rename_i h
        simp only [h, if_true, lift, List.flatMap_cons, List.flatMap_nil, List.append_nil,
          show ∀ t : Text, display (some t) = t from fun _ => rfl]
        rfl
      · rename_i h
        exact congrArg (fun a => Ends.ok (Expression.mk a _)) (if_neg h)
    · refine happ _ _ ?_ (hite _ _ ?_) <;> simp [step, thrown]
  · rw [C78_that cap m hcap, play_calm]
    · obtain ⟨e, h1, h2, h3⟩ := C37_check_that cap m hcap mt l d hd hm
      rw [h1]
      obtain ⟨a, b⟩ := e
      dsimp only at h2 h3
      rw [h2, h3]
      simp only [lift, verdict, value, Option.getD_some, description, statusOf]
      cases mt.matches_ l <;> rfl
    · simp [matchPlan, step, thrown]
    · exact hm _

/-! ## Examples -/

/-- `CHECK(3 == 4)` where the type of the operands has an `append` that throws the exception 7. -/
private def silentType : Comparing Nat :=
  ⟨⟨false, .returns ()⟩, ⟨true, .returns ()⟩, ⟨true, .returns false⟩, some ⟨false, .throws 7⟩, some ⟨false, .throws 7⟩⟩

example : checkComparison false false 20 true .equal silentType =
    ⟨[.operands, .compare, .truth, .append 0], .terminated⟩ :=
  (C78_text_ends_program false false 20 (by decide) true false .equal silentType ⟨false, .throws 7⟩ 7 rfl rfl rfl
    (by decide) rfl).1 rfl

/-- The same with `CHECK_FALSE`: it passes, and nothing is converted. -/
example : checkComparison false false 20 false .equal silentType =
    ⟨[.operands, .compare, .truth], .ok ⟨[], true⟩⟩ := by decide

/-- A comparison that throws the exception 7. -/
private def throwingType : Comparing Nat :=
  ⟨⟨false, .returns ()⟩, ⟨false, .throws 7⟩, ⟨true, .returns false⟩, some ⟨false, .returns ['a']⟩, none⟩

example : checkComparison false false 20 true .equal throwingType = ⟨[.operands, .compare], .threw 7⟩ :=
  (C78_passed_on_partial false false 20 (by decide) true .equal throwingType none
    ⟨⟨false, .returns ()⟩, ⟨false, .throws 7⟩, fun _ => ⟨false, .returns []⟩⟩ 7).2.1 rfl rfl

/-- The text of the left operand leaves no room: the right one is not converted, so its exception does no harm. -/
example : checkComparison false false 5 true .less (ε := Nat)
    ⟨⟨false, .returns ()⟩, ⟨false, .returns ()⟩, ⟨true, .returns false⟩, some ⟨false, .returns "abc".toList⟩,
      some ⟨false, .throws 7⟩⟩ = ⟨[.operands, .compare, .truth, .append 0], .ok ⟨[], false⟩⟩ := by decide

example : checkComparison false false 20 true .less (ε := Nat)
    ⟨⟨false, .returns ()⟩, ⟨false, .returns ()⟩, ⟨true, .returns false⟩, some ⟨false, .returns "abc".toList⟩, none⟩ =
      ⟨[.operands, .compare, .truth, .append 0], .ok ⟨"abc >= ?".toList, false⟩⟩ := by decide

/-- A matcher whose `describe_match` throws. -/
private def mute : Matching Nat := ⟨⟨false, .returns ()⟩, ⟨false, .returns true⟩, fun _ => ⟨false, .throws 7⟩⟩

example : User.checkThat 20 20 mute = ⟨[.operands, .matching, .describe .matched], .terminated⟩ :=
  ((C78_matcher_ends_program false false 20 20 (by decide) true true mute 7 rfl).2 true rfl rfl).1

example : throwsMatches mute = ⟨[.operands, .matching, .describe .matched], .threw 7⟩ := by decide

example : checkMatcher false false 20 true true mute = ⟨[.operands, .matching], .ok ⟨[], true⟩⟩ := by decide

example : User.capture 20 ⟨false, .returns ()⟩ [.text "x".toList, .text " := ".toList, .value ⟨false, .throws (7 : Nat)⟩] =
    ⟨[.operands, .append 0], .terminated⟩ :=
  C78_capture_ends_program 20 (by decide) _ _ _ 7 rfl rfl (by decide)

example : User.capture (ε := Nat) 6 ⟨false, .returns ()⟩ [.text "name".toList, .text " := ".toList, .value ⟨false, .throws 7⟩] =
    ⟨[.operands], .ok "nam...".toList⟩ := by decide

open Verif.Run Verif.Run.Spec Defaults in
/-- The exception of a comparison in a section. -/
example : ∃ s, run (defaults 3) 1 (plain (plug exampleAbort
      (.stmt (.check 9 (.exc ⟨[], some ['w'], false⟩) false []) .done))) = some (.ok s) ∧
    s.log.filterMap observed = [.act 1, .enter 10 true, .act 2, .enter 20 true,
      .assertion false ⟨[10, 20], [['x']], 9, .inCheck⟩ (unexpectedMessage ⟨[], some ['w'], false⟩),
      .leave 20 true, .leave 10 true] :=
  C78_reported_partial (cfg := defaults 3) (fs := exampleAbort) (loc := 9) (fuel := 1)
    (plain_fits (by decide) (by decide)) (plain_always (by simp [plug, Tidy])) rfl rfl (by decide)
    false false 20 (by decide) true .equal
    ⟨⟨false, .returns ()⟩, ⟨false, .throws ⟨[], some ['w'], false⟩⟩, ⟨false, .returns true⟩, none, none⟩ rfl
    ⟨[], some ['w'], false⟩ rfl (.inr (.inl ⟨rfl, rfl⟩))

end Verif.Props
