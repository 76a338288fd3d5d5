import Verif.Spec.Separate
import Verif.Spec.Program
import Verif.Lemmas.Calm
import Verif.Lemmas.CaseLog
import Verif.Lemmas.Places
/-! # Lemmas for C98 -/
namespace Verif.Run.Separate
open Verif.Run Verif.Run.Spec

/-! ## The shape of a separate test -/

theorem leaves_only_none : ∀ p : Prog, leaves (only p none) = 0
  | .done => rfl
  | .stmt _ k => leaves_only_none k
  | .sec _ _ _ k => leaves_only_none k
  | .capture _ k => leaves_only_none k
  | .block b k => by simp only [only, leaves, leaves_only_none b, leaves_only_none k]
  | .tryCatch _ _ _ k => leaves_only_none k
  | .nested _ _ _ k => leaves_only_none k
  | .guard _ k => leaves_only_none k

theorem leaves_only_some : ∀ (p : Prog) (n : Nat), n < leaves p → leaves (only p (some n)) = 1
  | .done, _, h => by cases h
  | .stmt _ k, n, h => leaves_only_some k n h
  | .sec id loc b k, n, h => by
    simp only [leaves] at h
    simp only [only]
    split
    · rename_i hn
      simp only [leaves, leaves_only_none k]
      split
      · rw [leaves_only_none]; rfl
      · rw [leaves_only_some b n (by omega)]; rfl
    · exact leaves_only_some k _ (by omega)
  | .capture _ k, n, h => leaves_only_some k n h
  | .block b k, n, h => by
    simp only [leaves] at h
    simp only [only]
    split
    · rename_i hn
      simp only [leaves, leaves_only_none k, leaves_only_some b n hn]
    · simp only [leaves, leaves_only_none b, leaves_only_some k _ (show n - leaves b < leaves k by omega)]
  | .tryCatch _ _ _ k, n, h => leaves_only_some k n h
  | .nested _ _ _ k, n, h => leaves_only_some k n h
  | .guard _ k, n, h => leaves_only_some k n h

theorem leaves_only_le : ∀ (p : Prog) (n : Nat), leaves (only p (some n)) ≤ 1
  | .done, _ => Nat.zero_le _
  | .stmt _ k, n => leaves_only_le k n
  | .sec id loc b k, n => by
    simp only [only]
    split
    · simp only [leaves, leaves_only_none k]
      split
      · rw [leaves_only_none]; decide
      · have := leaves_only_le b n
        omega
    · exact leaves_only_le k _
  | .capture _ k, n => leaves_only_le k n
  | .block b k, n => by
    simp only [only]
    split
    · simp only [leaves, leaves_only_none k]
      exact leaves_only_le b n
    · simp only [leaves, leaves_only_none b, Nat.zero_add]
      exact leaves_only_le k _
  | .tryCatch _ _ _ k, n => leaves_only_le k n
  | .nested _ _ _ k, n => leaves_only_le k n
  | .guard _ k, n => leaves_only_le k n

theorem calm_noSkip : ∀ p : Prog, Calm p → NoSkip p
  | .done, _ => trivial
  | .stmt m k, h => by
    have := calm_noSkip k h.2
    cases m with
    | skip => exact absurd h.1 (by simp [calmStmt])
    | _ => exact this
  | .sec _ _ b k, h => ⟨calm_noSkip b h.1, calm_noSkip k h.2⟩
  | .capture _ k, h => calm_noSkip k h
  | .block b k, h => ⟨calm_noSkip b h.1, calm_noSkip k h.2⟩
  | .tryCatch .., h => h.elim
  | .nested _ o _ k, h => ⟨calm_noSkip o h.2.1.1, calm_noSkip k h.2.2⟩
  | .guard c k, h => ⟨calm_noSkip c h.1.1, calm_noSkip k h.2⟩

theorem secDepth_only : ∀ (p : Prog) (w : Option Nat), secDepth (only p w) ≤ secDepth p
  | .done, _ => Nat.le_refl _
  | .stmt _ k, w => secDepth_only k w
  | .sec id loc b k, none => by
    have := secDepth_only k none
    simp only [only, secDepth]
    omega
  | .sec id loc b k, some n => by
    simp only [only]
    split
    · have h1 := secDepth_only b (if leaves b = 0 then none else some n)
      have h2 := secDepth_only k none
      simp only [secDepth]
      omega
    · have h2 := secDepth_only k (some (n - max 1 (leaves b)))
      simp only [secDepth]
      omega
  | .capture _ k, w => secDepth_only k w
  | .block b k, none => by
    have h1 := secDepth_only b none
    have h2 := secDepth_only k none
    simp only [only, secDepth]
    omega
  | .block b k, some n => by
    simp only [only]
    split
    · have h1 := secDepth_only b (some n)
      have h2 := secDepth_only k none
      simp only [secDepth]
      omega
    · have h1 := secDepth_only b none
      have h2 := secDepth_only k (some (n - leaves b))
      simp only [secDepth]
      omega
  | .tryCatch _ b h k, w => by
    have := secDepth_only k w
    simp only [only, secDepth]
    omega
  | .nested _ o _ k, w => by
    have := secDepth_only k w
    simp only [only, secDepth]
    omega
  | .guard c k, w => by
    have := secDepth_only k w
    simp only [only, secDepth]
    omega

theorem capDepth_only : ∀ (p : Prog) (w : Option Nat), capDepth (only p w) ≤ capDepth p
  | .done, _ => Nat.le_refl _
  | .stmt _ k, w => capDepth_only k w
  | .sec id loc b k, none => by
    have := capDepth_only k none
    simp only [only, capDepth]
    omega
  | .sec id loc b k, some n => by
    simp only [only]
    split
    · have h1 := capDepth_only b (if leaves b = 0 then none else some n)
      have h2 := capDepth_only k none
      simp only [capDepth]
      omega
    · have h2 := capDepth_only k (some (n - max 1 (leaves b)))
      simp only [capDepth]
      omega
  | .capture _ k, w => by
    have := capDepth_only k w
    simp only [only, capDepth]
    omega
  | .block b k, none => by
    have h1 := capDepth_only b none
    have h2 := capDepth_only k none
    simp only [only, capDepth]
    omega
  | .block b k, some n => by
    simp only [only]
    split
    · have h1 := capDepth_only b (some n)
      have h2 := capDepth_only k none
      simp only [capDepth]
      omega
    · have h1 := capDepth_only b none
      have h2 := capDepth_only k (some (n - leaves b))
      simp only [capDepth]
      omega
  | .tryCatch _ b h k, w => by
    have := capDepth_only k w
    simp only [only, capDepth]
    omega
  | .nested _ o _ k, w => by
    have := capDepth_only k w
    simp only [only, capDepth]
    omega
  | .guard c k, w => by
    have := capDepth_only k w
    simp only [only, capDepth]
    omega

/-- Properties that only get easier when sections are left out. -/
theorem calm_only : ∀ (p : Prog) (w : Option Nat), Calm p → Calm (only p w)
  | .done, _, h => h
  | .stmt _ k, w, h => ⟨h.1, calm_only k w h.2⟩
  | .sec _ _ _ k, none, h => calm_only k none h.2
  | .sec id loc b k, some n, h => by
    simp only [only]
    split
    · exact ⟨calm_only b _ h.1, calm_only k none h.2⟩
    · exact calm_only k _ h.2
  | .capture _ k, w, h => calm_only k w h
  | .block b k, none, h => ⟨calm_only b none h.1, calm_only k none h.2⟩
  | .block b k, some n, h => by
    simp only [only]
    split
    · exact ⟨calm_only b _ h.1, calm_only k none h.2⟩
    · exact ⟨calm_only b none h.1, calm_only k _ h.2⟩
  | .tryCatch .., _, h => h.elim
  | .nested _ _ _ k, w, h => ⟨h.1, h.2.1, calm_only k w h.2.2⟩
  | .guard _ k, w, h => ⟨h.1, calm_only k w h.2⟩

theorem tidy_only : ∀ (p : Prog) (w : Option Nat), Tidy p → Tidy (only p w)
  | .done, _, h => h
  | .stmt _ k, w, h => tidy_only k w h
  | .sec _ _ _ k, none, h => tidy_only k none h.2
  | .sec id loc b k, some n, h => by
    simp only [only]
    split
    · exact ⟨tidy_only b _ h.1, tidy_only k none h.2⟩
    · exact tidy_only k _ h.2
  | .capture _ k, w, h => tidy_only k w h
  | .block b k, none, h => ⟨tidy_only b none h.1, tidy_only k none h.2⟩
  | .block b k, some n, h => by
    simp only [only]
    split
    · exact ⟨tidy_only b _ h.1, tidy_only k none h.2⟩
    · exact ⟨tidy_only b none h.1, tidy_only k _ h.2⟩
  | .tryCatch _ _ _ k, w, h => ⟨h.1, h.2.1, h.2.2.1, tidy_only k w h.2.2.2⟩
  | .nested _ _ _ k, w, h => ⟨h.1, tidy_only k w h.2⟩
  | .guard _ k, w, h => ⟨h.1, h.2.1.imp id (calm_only k w), tidy_only k w h.2.2⟩

variable [MessageLimit]

/-! ## What a separate test does -/

/-- Sections are entered for the first and left for the last time. -/
def mark : Item → Item
  | .enter id _ => .enter id true
  | .leave id _ => .leave id true
  | x => x

def marked (x : List Item × Exit) : List Item × Exit := (x.1.map mark, x.2)

omit [MessageLimit] in
theorem marked_andThen (x y : List Item × Exit) : marked (andThen x y) = andThen (marked x) (marked y) := by
  obtain ⟨l, e⟩ := x
  cases e <;> simp [marked, andThen]

omit [MessageLimit] in
theorem marked_anyway (x y : List Item × Exit) : marked (anyway x y) = anyway (marked x) (marked y) := by
  simp [marked, anyway]

theorem passStmt_marked (c : Ctx) (m : Stmt) : marked (passStmt c m) = passStmt c m := by
  cases m with
  | check loc ev abort data => cases ev <;> rfl
  | _ => rfl

theorem answered_marked (p c : Ctx) (loc : Nat) (a : Ask) (x : Exit) : marked (answered p c loc a x) = answered p c loc a x := by
  cases a with
  | check ok abort data => cases x <;> rfl
  | _ => rfl

theorem check_marked (c : Ctx) (loc : Nat) (a : Ask) (x : List Item × Exit) (h : marked x = x) :
    marked (check c loc a x) = check c loc a x := by
  have h1 := congrArg Prod.fst (answered_marked (placeAfter c loc x.1) c loc a x.2)
  have h2 := congrArg Prod.fst h
  simp only [marked] at h1 h2
  simp only [marked, check, List.map_append, h1, h2]

/-- Without sections there is nothing to mark. -/
theorem pass_none_marked : ∀ (p : Prog) (c : Ctx), marked (pass p c none) = pass p c none
  | .done, _ => rfl
  | .stmt m k, c => by simp only [pass, marked_andThen, passStmt_marked, pass_none_marked k]
  | .sec _ _ _ k, c => by simp only [pass, pass_none_marked k]
  | .capture caps k, c => by simp only [pass, pass_none_marked k]
  | .block b k, c => by simp only [pass, marked_andThen, pass_none_marked b, pass_none_marked k]
  | .tryCatch type b h k, c => by
    have hb := pass_none_marked b c
    simp only [pass]
    revert hb
    generalize pass b c none = x
    obtain ⟨l, e⟩ := x
    intro hb
    have hl : l.map mark = l := congrArg Prod.fst hb
    cases e with
    | normal => simp only [marked_andThen, pass_none_marked k, show marked (l, Exit.normal) = (l, .normal) from hb]
    | raised e a =>
      dsimp only
      split
      · simp only [marked_andThen, pass_none_marked k, pass_none_marked h, show marked (l, Exit.normal) = (l, .normal) by simp [marked, hl]]
      · exact hb
  | .nested loc o ask k, c => by
    simp only [pass, marked_andThen, pass_none_marked k, check_marked _ _ _ _ (pass_none_marked o _)]
  | .guard cl k, c => by simp only [pass, marked_anyway, pass_none_marked k, pass_none_marked cl]

theorem pass_only_none : ∀ (p : Prog) (c : Ctx), pass (only p none) c none = pass p c none
  | .done, _ => rfl
  | .stmt m k, c => by simp only [only, pass, pass_only_none k]
  | .sec _ _ _ k, c => by simp only [only, pass, pass_only_none k]
  | .capture caps k, c => by simp only [only, pass, pass_only_none k]
  | .block b k, c => by simp only [only, pass, pass_only_none b, pass_only_none k]
  | .tryCatch type b h k, c => by simp only [only, pass, pass_only_none k]
  | .nested loc o ask k, c => by simp only [only, pass, pass_only_none k]
  | .guard cl k, c => by simp only [only, pass, pass_only_none k]

theorem pass_only_some : ∀ (p : Prog) (c : Ctx) (n : Nat), n < leaves p →
    pass (only p (some n)) c (some 0) = marked (pass p c (some n))
  | .done, _, _, h => by cases h
  | .stmt m k, c, n, h => by simp only [only, pass, marked_andThen, passStmt_marked, pass_only_some k c n h]
  | .sec id loc b k, c, n, h => by
    simp only [leaves] at h
    simp only [only, pass]
    split
    · rename_i hn
      have hl : leaves (only b (if leaves b = 0 then none else some n)) = if leaves b = 0 then 0 else 1 := by
        split
        · exact leaves_only_none b
        · exact leaves_only_some b n (by omega)
      have hp : pass (only b (if leaves b = 0 then none else some n)) (Ctx.inSection c id loc)
          (if (if leaves b = 0 then 0 else 1) = 0 then none else some 0) =
          marked (pass b (Ctx.inSection c id loc) (if leaves b = 0 then none else some n)) := by
        by_cases h0 : leaves b = 0
        · simp only [h0, if_true]
          rw [pass_only_none, pass_none_marked]
        · simp only [h0, if_false, Nat.one_ne_zero]
          exact pass_only_some b _ n (by omega)
      have h1 : max 1 (if leaves b = 0 then 0 else 1) = 1 := by split <;> rfl
      simp only [pass, hl, h1, Nat.lt_one_iff, if_true, hp, pass_only_none k, marked_andThen, pass_none_marked k]
      rfl
    · exact pass_only_some k c _ (by omega)
  | .capture caps k, c, n, h => by simp only [only, pass, pass_only_some k _ n h]
  | .block b k, c, n, h => by
    simp only [leaves] at h
    simp only [only, pass]
    split
    · rename_i hn
      simp only [pass, leaves_only_some b n hn, Nat.lt_one_iff, if_true, pass_only_some b c n hn, pass_only_none k, marked_andThen,
        pass_none_marked k]
    · simp only [pass, leaves_only_none b, Nat.lt_irrefl, if_false, Nat.sub_zero,
        pass_only_some k c (n - leaves b) (by omega), pass_only_none b, marked_andThen, pass_none_marked b]
  | .tryCatch type b h k, c, n, hn => by
    have hb := pass_none_marked b c
    simp only [only, pass, pass_only_some k c n hn]
    revert hb
    generalize pass b c none = x
    obtain ⟨l, e⟩ := x
    intro hb
    have hl : l.map mark = l := congrArg Prod.fst hb
    cases e with
    | normal => simp only [marked_andThen, show marked (l, Exit.normal) = (l, .normal) from hb]
    | raised e a =>
      dsimp only
      split
      · simp only [marked_andThen, pass_none_marked h, show marked (l, Exit.normal) = (l, .normal) by simp [marked, hl]]
      · exact hb.symm
  | .nested loc o ask k, c, n, h => by
    simp only [only, pass, marked_andThen, pass_only_some k c n h, check_marked _ _ _ _ (pass_none_marked o _)]
  | .guard cl k, c, n, h => by simp only [only, pass, marked_anyway, pass_only_some k c n h, pass_none_marked cl]

/-- The only execution of a separate test is that execution of the test. -/
theorem passNo_alone (t : TestCase) (c : Ctx) (n : Nat) (hn : n < passCount (t.body.no n)) :
    passNo (alone t n).body.first c 0 = marked (passNo (t.body.no n) c n) := by
  show passNo (only (t.body.no n) (if leaves (t.body.no n) = 0 then none else some n)) c 0 = _
  unfold passNo
  unfold passCount at hn
  by_cases h0 : leaves (t.body.no n) = 0
  · simp only [h0, if_true, leaves_only_none]
    rw [pass_only_none, pass_none_marked]
  · have hl := leaves_only_some (t.body.no n) n (by omega)
    simp only [h0, if_false, hl, Nat.one_ne_zero]
    exact pass_only_some _ c n (by omega)

/-! ## Code without skips -/

/-- Nothing is skipped. -/
def Good (x : List Item × Exit) : Prop := x.1.any Item.isSkip = false

omit [MessageLimit] in
theorem good_andThen {x y : List Item × Exit} (hx : Good x) (hy : Good y) : Good (andThen x y) := by
  obtain ⟨l, e⟩ := x
  unfold Good at *
  cases e
  · simp only [andThen, List.any_append, hy, Bool.or_false]; exact hx
  · exact hx

omit [MessageLimit] in
theorem good_anyway {x y : List Item × Exit} (hx : Good x) (hy : Good y) : Good (anyway x y) := by
  unfold Good at *
  simp only [anyway, List.any_append, hx, hy, Bool.or_false]

theorem good_stmt {m : Stmt} {k : Prog} (h : NoSkip (.stmt m k)) (c : Ctx) : Good (passStmt c m) ∧ NoSkip k := by
  cases m with
  | check loc ev abort data => cases ev <;> exact ⟨rfl, h⟩
  | skip => exact h.elim
  | _ => exact ⟨rfl, h⟩

theorem good_check (c : Ctx) (loc : Nat) (a : Ask) {x : List Item × Exit} (h : Good x) : Good (check c loc a x) := by
  have : Good (answered (placeAfter c loc x.1) c loc a x.2) := by
    cases a with
    | check ok abort data => cases x.2 <;> rfl
    | _ => rfl
  unfold Good at *
  simp only [check, List.any_append, h, this, Bool.or_false]

theorem good_pass : ∀ (p : Prog), NoSkip p → ∀ (c : Ctx) (w : Option Nat), Good (pass p c w)
  | .done, _, _, _ => rfl
  | .stmt m k, h, c, w => good_andThen (good_stmt h c).1 (good_pass k (good_stmt h c).2 c w)
  | .sec _ _ _ k, h, c, none => good_pass k h.2 c none
  | .sec id loc b k, h, c, some n => by
    simp only [pass]
    split
    · exact good_andThen rfl (good_andThen (good_pass b h.1 _ _) (good_andThen rfl (good_pass k h.2 c none)))
    · exact good_pass k h.2 c _
  | .capture caps k, h, c, w => good_pass k h _ w
  | .block b k, h, c, none => good_andThen (good_pass b h.1 c none) (good_pass k h.2 c none)
  | .block b k, h, c, some n => by
    simp only [pass]
    split
    · exact good_andThen (good_pass b h.1 c _) (good_pass k h.2 c _)
    · exact good_andThen (good_pass b h.1 c _) (good_pass k h.2 c _)
  | .tryCatch type b h k, hh, c, w => by
    have hb := good_pass b hh.1 c none
    simp only [pass]
    revert hb
    generalize pass b c none = x
    obtain ⟨l, e⟩ := x
    intro hb
    have hl : Good (l, Exit.normal) := hb
    cases e with
    | normal => exact good_andThen hb (good_pass k hh.2.2 c w)
    | raised e a =>
      dsimp only
      split
      · exact good_andThen hl (good_andThen (good_pass h hh.2.1 c none) (good_pass k hh.2.2 c w))
      · exact hb
  | .nested loc o ask k, h, c, w => good_andThen (good_check c loc ask (good_pass o h.1 _ none)) (good_pass k h.2 c w)
  | .guard cl k, h, c, w => good_anyway (good_pass k h.2 c w) (good_pass cl h.1 c none)

/-! ## The exception of the framework comes with a failure -/

def Fair (x : List Item × Exit) : Prop :=
  ∀ e a, x.2 = .raised e a → e.isAbort = true → x.1.any Item.isFailure = true

omit [MessageLimit] in
theorem fair_andThen {x y : List Item × Exit} (hx : Fair x) (hy : Fair y) : Fair (andThen x y) := by
  obtain ⟨l, e⟩ := x
  cases e with
  | normal =>
    intro e a h1 h2
    simp only [andThen, List.any_append, hy e a h1 h2, Bool.or_true]
  | raised => exact hx

omit [MessageLimit] in
theorem fair_anyway {x y : List Item × Exit} (hx : Fair x) : Fair (anyway x y) := by
  intro e a h1 h2
  simp only [anyway, List.any_append, hx e a h1 h2, Bool.true_or]

omit [MessageLimit] in
theorem fair_normal (l : List Item) : Fair (l, .normal) := fun _ _ h => by cases h

omit [MessageLimit] in
theorem fair_asserted (p c : Ctx) (loc : Nat) (ok abort : Bool) (data : Text) : Fair (assertedAt p c loc ok abort data) := by
  cases ok
  · intro _ _ _ _; rfl
  · intro e a h; cases h

theorem fair_stmt {m : Stmt} {k : Prog} (hs : NoSkip (.stmt m k)) (h : OwnThrows (.stmt m k)) (c : Ctx) :
    Fair (passStmt c m) ∧ OwnThrows k := by
  cases m with
  | act => exact ⟨fair_normal _, h⟩
  | notify => exact ⟨fair_normal _, h⟩
  | throw e =>
    refine ⟨fun e' a h1 h2 => ?_, h.2⟩
    cases h1
    rw [h.1] at h2
    cases h2
  | check loc ev abort data =>
    cases ev with
    | exc e =>
      refine ⟨fun e' a h1 h2 => ?_, h.2⟩
      cases h1
      rw [h.1] at h2
      cases h2
    | val ok => exact ⟨fair_asserted _ _ _ _ _ _, h⟩
  | skip => exact hs.elim
  | throwsAs => exact ⟨fair_asserted _ _ _ _ _ _, h⟩
  | throwsMatches => exact ⟨fair_asserted _ _ _ _ _ _, h⟩
  | nothrow => exact ⟨fair_asserted _ _ _ _ _ _, h⟩

theorem fair_check (c : Ctx) (loc : Nat) (a : Ask) {x : List Item × Exit} (h : Fair x) : Fair (check c loc a x) := by
  intro e b h1 h2
  simp only [check, List.any_append, Bool.or_eq_true]
  obtain ⟨l, y⟩ := x
  cases a with
  | check ok abort data =>
    cases y with
    | normal => exact .inr (fair_asserted _ _ _ _ _ _ e b h1 h2)
    | raised e' a' => exact .inl (h e b h1 h2)
  | throwsAs => exact .inr (fair_asserted _ _ _ _ _ _ e b h1 h2)
  | throwsMatches => exact .inr (fair_asserted _ _ _ _ _ _ e b h1 h2)
  | nothrow => exact .inr (fair_asserted _ _ _ _ _ _ e b h1 h2)

theorem fair_pass : ∀ (p : Prog), NoSkip p → OwnThrows p → ∀ (c : Ctx) (w : Option Nat), Fair (pass p c w)
  | .done, _, _, _, _ => fair_normal _
  | .stmt m k, hs, h, c, w => fair_andThen (fair_stmt hs h c).1 (fair_pass k (good_stmt hs c).2 (fair_stmt hs h c).2 c w)
  | .sec _ _ _ k, hs, h, c, none => fair_pass k hs.2 h.2 c none
  | .sec id loc b k, hs, h, c, some n => by
    simp only [pass]
    split
    · exact fair_andThen (fair_normal _) (fair_andThen (fair_pass b hs.1 h.1 _ _)
        (fair_andThen (fair_normal _) (fair_pass k hs.2 h.2 c none)))
    · exact fair_pass k hs.2 h.2 c _
  | .capture caps k, hs, h, c, w => fair_pass k hs h _ w
  | .block b k, hs, h, c, none => fair_andThen (fair_pass b hs.1 h.1 c none) (fair_pass k hs.2 h.2 c none)
  | .block b k, hs, h, c, some n => by
    simp only [pass]
    split
    · exact fair_andThen (fair_pass b hs.1 h.1 c _) (fair_pass k hs.2 h.2 c _)
    · exact fair_andThen (fair_pass b hs.1 h.1 c _) (fair_pass k hs.2 h.2 c _)
  | .tryCatch type b h k, hs, hh, c, w => by
    have hb := fair_pass b hs.1 hh.1 c none
    simp only [pass]
    revert hb
    generalize pass b c none = x
    obtain ⟨l, e⟩ := x
    intro hb
    cases e with
    | normal => exact fair_andThen hb (fair_pass k hs.2.2 hh.2.2 c w)
    | raised e a =>
      dsimp only
      split
      · exact fair_andThen (fair_normal l) (fair_andThen (fair_pass h hs.2.1 hh.2.1 c none) (fair_pass k hs.2.2 hh.2.2 c w))
      · exact hb
  | .nested loc o ask k, hs, h, c, w =>
    fair_andThen (fair_check c loc ask (fair_pass o hs.1 h.1 _ none)) (fair_pass k hs.2 h.2 c w)
  | .guard cl k, hs, h, c, w => fair_anyway (fair_pass k hs.2 h.2 c w)

/-! ## The story is made of the stories of the separate tests -/

/-- The deeds among the items seen at a verbosity. -/
def dl (v : Nat) (l : List Item) : List Deed :=
  (l.filter (Item.visible v)).filterMap fun x => match x with
    | .act a => some (.did a)
    | .assertion false ctx d => some (.failed ctx d)
    | _ => none

omit [MessageLimit] in
theorem dl_append (v : Nat) (a b : List Item) : dl v (a ++ b) = dl v a ++ dl v b := by simp [dl]

omit [MessageLimit] in
theorem dl_mark (v : Nat) (l : List Item) : dl v (l.map mark) = dl v l := by
  induction l with
  | nil => rfl
  | cons x l ih =>
    rw [List.map_cons, ← List.singleton_append, dl_append, ih, ← List.singleton_append (l := l), dl_append]
    congr 1
    cases x with
    | enter id f => cases f <;> simp [dl, mark, Item.visible, Item.reported, Item.level, List.filter_cons] <;> split <;> rfl
    | leave id f => cases f <;> simp [dl, mark, Item.visible, Item.reported, Item.level, List.filter_cons] <;> split <;> rfl
    | _ => rfl

omit [MessageLimit] in
theorem deeds_observed (l : List Event) (v : Nat) (k : List Item) (h : l.filterMap observed = k.filter (Item.visible v)) :
    deeds l = dl v k := by
  unfold dl
  rw [← h, List.filterMap_filterMap]
  unfold deeds
  congr 1
  funext e
  cases e <;> rfl

theorem dl_ending_normal (v loc : Nat) : dl v (ending loc .normal) = [] := by
  simp only [ending, dl, List.filter_cons]
  split <;> rfl

omit [MessageLimit] in
theorem any_mark (l : List Item) (f : Item → Bool) (hf : ∀ x, f (mark x) = f x) : (l.map mark).any f = l.any f := by
  rw [List.any_map]
  congr 1
  funext x
  exact hf x

omit [MessageLimit] in
theorem isSkip_mark (x : Item) : (mark x).isSkip = x.isSkip := by cases x <;> rfl

omit [MessageLimit] in
theorem isFailure_mark (x : Item) : (mark x).isFailure = x.isFailure := by cases x <;> rfl

theorem ending_noSkip (loc : Nat) (x : Exit) : (ending loc x).any Item.isSkip = false := by
  cases x with
  | normal => rfl
  | raised e a =>
    simp only [ending, List.any_append]
    have : (a.path.reverse.map fun id => Item.leave id true).any Item.isSkip = false := by simp [Item.isSkip]
    rw [this]
    split <;> rfl

/-- The story without skips: executions up to the first one which throws. -/
theorem story_noSkip {bodies : Nat → Prog} (h : ∀ n, NoSkip (bodies n)) (c : Ctx) : ∀ k n seen,
    seen.any Item.isSkip = false → ∃ m, m ≤ k ∧ (0 < k → 0 < m) ∧
      (story bodies c k n seen).1.1 = seen ++ passItems bodies c n m ∧
      (∀ i, i + 1 < m → (passNo (bodies (n + i)) c (n + i)).2 = .normal) ∧
      ((m = k ∧ (story bodies c k n seen).1.2 = .normal ∧ ∀ i, i < m → (passNo (bodies (n + i)) c (n + i)).2 = .normal) ∨
       (0 < m ∧ (story bodies c k n seen).1.2 = (passNo (bodies (n + (m - 1))) c (n + (m - 1))).2 ∧
         (story bodies c k n seen).1.2 ≠ .normal)) := by
  intro k
  induction k with
  | zero =>
    intro n seen _
    exact ⟨0, Nat.le_refl _, id, by simp [story, passItems], fun i hi => by omega, .inl ⟨rfl, rfl, fun i hi => by omega⟩⟩
  | succ k ih =>
    intro n seen hs
    have hg : Good (passNo (bodies n) c n) := good_pass _ (h n) c _
    obtain ⟨⟨l, e⟩, hx⟩ : ∃ x, passNo (bodies n) c n = x := ⟨_, rfl⟩
    rw [hx] at hg
    have hsl : (seen ++ l).any Item.isSkip = false := by
      rw [List.any_append, hs, show l.any Item.isSkip = false from hg]; rfl
    cases e with
    | raised e a =>
      refine ⟨1, by omega, fun _ => by omega, ?_, fun i hi => by omega, .inr ⟨by omega, ?_, ?_⟩⟩
      · simp only [story, hx, passItems, List.range'_succ, List.range'_zero, List.map_cons, List.map_nil, List.flatten_cons,
          List.flatten_nil, List.append_nil]
      · simp only [story, hx, Nat.sub_self, Nat.add_zero]
      · simp only [story, hx]; intro hh; cases hh
    | normal =>
      have hst : (story bodies c (k + 1) n seen).1 = (story bodies c k (n + 1) (seen ++ l)).1 := by
        simp only [story, hx, skipsTest_none hsl, Bool.false_eq_true, if_false]
      obtain ⟨m, h1, _, h2, h3, h4⟩ := ih (n + 1) (seen ++ l) hsl
      have hnorm : ∀ i, (∀ j, j + 1 = i → (passNo (bodies (n + 1 + j)) c (n + 1 + j)).2 = .normal) →
          (passNo (bodies (n + i)) c (n + i)).2 = .normal := by
        intro i hi
        cases i with
        | zero => rw [Nat.add_zero, hx]
        | succ j => rw [show n + (j + 1) = n + 1 + j by omega]; exact hi j rfl
      refine ⟨m + 1, by omega, fun _ => by omega, ?_, fun i hi => hnorm i fun j hj => h3 j (by omega), ?_⟩
      · rw [hst, h2]
        simp only [passItems, List.range'_succ, List.map_cons, List.flatten_cons, hx, List.append_assoc]
      · rw [hst]
        rcases h4 with ⟨a1, a2, a3⟩ | ⟨a1, a2, a3⟩
        · exact .inl ⟨by omega, a2, fun i hi => hnorm i fun j hj => a3 j (by omega)⟩
        · refine .inr ⟨by omega, ?_, a3⟩
          rw [a2, show n + 1 + (m - 1) = n + (m + 1 - 1) by omega]

/-- What happens in a separate test. -/
theorem happens_alone {t : TestCase} (ha : Alike t.body) (hs : Always NoSkip t.body) {n : Nat} (hn : n < passCount t.body.first) :
    happens (alone t n) = (passNo (t.body.no n) (topCtx t.loc) n).1.map mark ++
      ending t.loc (passNo (t.body.no n) (topCtx t.loc) n).2 := by
  have hn' : n < passCount (t.body.no n) := by rw [same_count (ha n)]; exact hn
  have hp := passNo_alone t (topCtx t.loc) n hn'
  have hc : passCount (alone t n).body.first = 1 := by
    show max 1 (leaves (only (t.body.no n) (if leaves (t.body.no n) = 0 then none else some n))) = 1
    unfold passCount at hn'
    split
    · rw [leaves_only_none]; rfl
    · rw [leaves_only_some _ _ (by omega)]; rfl
  have h0 : (alone t n).body.no 0 = (alone t n).body.first := rfl
  have hg : Good (passNo (t.body.no n) (topCtx t.loc) n) := good_pass _ (hs n) _ _
  unfold happens
  rw [hc]
  show (story _ (topCtx t.loc) 1 0 []).1.1 ++ ending t.loc (story _ (topCtx t.loc) 1 0 []).1.2 = _
  simp only [story, h0, hp]
  obtain ⟨⟨l, e⟩, hx⟩ : ∃ x, passNo (t.body.no n) (topCtx t.loc) n = x := ⟨_, rfl⟩
  rw [hx] at hg ⊢
  cases e with
  | raised e a => simp only [marked, List.nil_append]
  | normal =>
    have : skipsTest (l.map mark) = false := skipsTest_none (by
      rw [any_mark _ _ isSkip_mark]; exact hg)
    simp only [marked, this, Bool.false_eq_true, if_false, List.nil_append]

theorem happens_noSkip {t : TestCase} (hs : Always NoSkip t.body) : (happens t).any Item.isSkip = false := by
  obtain ⟨m, _, _, h, _⟩ := story_noSkip (bodies := t.body.no) hs (topCtx t.loc) (passCount t.body.first) 0 [] rfl
  unfold happens
  rw [List.any_append, ending_noSkip, h, List.nil_append, Bool.or_false]
  unfold passItems
  rw [List.any_flatten, List.any_map]
  rw [List.any_eq_false]
  intro i _
  have := good_pass _ (hs i) (topCtx t.loc) (if leaves (t.body.no i) = 0 then none else some i)
  simp only [Function.comp]
  intro hh
  rw [show (passNo (t.body.no i) (topCtx t.loc) i).1.any Item.isSkip = false from this] at hh
  cases hh

theorem noSkip_only : ∀ (p : Prog) (w : Option Nat), NoSkip p → NoSkip (only p w)
  | .done, _, h => h
  | .stmt m k, w, h => by
    have := noSkip_only k w (good_stmt h (topCtx 0)).2
    cases m with
    | skip => exact h.elim
    | _ => exact this
  | .sec _ _ _ k, none, h => noSkip_only k none h.2
  | .sec id loc b k, some n, h => by
    simp only [only]
    split
    · exact ⟨noSkip_only b _ h.1, noSkip_only k none h.2⟩
    · exact noSkip_only k _ h.2
  | .capture _ k, w, h => noSkip_only k w h
  | .block b k, none, h => ⟨noSkip_only b none h.1, noSkip_only k none h.2⟩
  | .block b k, some n, h => by
    simp only [only]
    split
    · exact ⟨noSkip_only b _ h.1, noSkip_only k none h.2⟩
    · exact ⟨noSkip_only b none h.1, noSkip_only k _ h.2⟩
  | .tryCatch _ _ _ k, w, h => ⟨h.1, h.2.1, noSkip_only k w h.2.2⟩
  | .nested _ _ _ k, w, h => ⟨h.1, noSkip_only k w h.2⟩
  | .guard _ k, w, h => ⟨h.1, noSkip_only k w h.2⟩

omit [MessageLimit] in
theorem any_flatMap_range (f : Item → Bool) (g : Nat → List Item) (m : Nat) :
    (((List.range' 0 m).map g).flatten).any f = true ↔ ∃ n, n < m ∧ (g n).any f = true := by
  rw [List.any_flatten, List.any_map, List.any_eq_true]
  constructor
  · rintro ⟨n, h1, h2⟩
    exact ⟨n, by simpa using h1, h2⟩
  · rintro ⟨n, h1, h2⟩
    exact ⟨n, by simpa using h1, h2⟩

/-- A test as the sum of separate tests. -/
theorem happens_sum {t : TestCase} (ha : Alike t.body) (hs : Always NoSkip t.body) (v : Nat) :
    ∃ m, 0 < m ∧ m ≤ passCount t.body.first ∧
      dl v (happens t) = ((List.range m).map fun n => dl v (happens (alone t n))).flatten ∧
      (∀ n, n + 1 < m → ¬ interrupted (alone t n)) ∧
      (m = passCount t.body.first ∧ ¬ interrupted (alone t (m - 1)) ∨ interrupted (alone t (m - 1))) ∧
      ((happens t).any Item.isFailure = true ↔ ∃ n, n < m ∧ (happens (alone t n)).any Item.isFailure = true) := by
  obtain ⟨m, h1, h2, h3, h4, h5⟩ :=
    story_noSkip (bodies := t.body.no) hs (topCtx t.loc) (passCount t.body.first) 0 [] rfl
  have hm : 0 < m := h2 (by unfold passCount; omega)
  have hint : ∀ n, n < passCount t.body.first →
      (interrupted (alone t n) ↔ (passNo (t.body.no n) (topCtx t.loc) n).2 ≠ .normal) := by
    intro n hn
    have := passNo_alone t (topCtx t.loc) n (by rw [same_count (ha n)]; exact hn)
    unfold interrupted
    show (passNo (alone t n).body.first (topCtx t.loc) 0).2 ≠ .normal ↔ _
    rw [this]; rfl
  simp only [Nat.zero_add, List.nil_append] at h3 h4 h5
  -- all but the last are normal
  have hh : happens t = passItems t.body.no (topCtx t.loc) 0 m ++
      ending t.loc (passNo (t.body.no (m - 1)) (topCtx t.loc) (m - 1)).2 := by
    unfold happens
    dsimp only
    rw [h3]
    rcases h5 with ⟨_, a2, a3⟩ | ⟨_, a2, _⟩
    · rw [a2, a3 (m - 1) (by omega)]
    · rw [a2]
  have hsplit : ∀ j, j < m → dl v (passItems t.body.no (topCtx t.loc) 0 (j + 1) ++
      ending t.loc (passNo (t.body.no j) (topCtx t.loc) j).2) =
      ((List.range (j + 1)).map fun n => dl v (happens (alone t n))).flatten := by
    intro j
    induction j with
    | zero =>
      intro hj
      rw [List.range_succ, List.range_zero]
      simp only [List.nil_append, List.map_cons, List.map_nil, List.flatten_cons, List.flatten_nil, List.append_nil]
      rw [happens_alone ha hs (by omega), dl_append, dl_append, dl_mark]
      simp [passItems]
    | succ j ih =>
      intro hj
      have hi := ih (by omega)
      rw [h4 j (by omega), dl_append, dl_ending_normal, List.append_nil] at hi
      rw [List.range_succ, List.map_append, List.flatten_append, ← hi]
      have : passItems t.body.no (topCtx t.loc) 0 (j + 1 + 1) = passItems t.body.no (topCtx t.loc) 0 (j + 1) ++
          (passNo (t.body.no (j + 1)) (topCtx t.loc) (j + 1)).1 := by
        simp [passItems, List.range'_concat]
      rw [this]
      simp only [List.map_cons, List.map_nil, List.flatten_cons, List.flatten_nil, List.append_nil]
      rw [happens_alone ha hs (by omega)]
      simp only [dl_append, dl_mark, List.append_assoc]
  refine ⟨m, hm, h1, ?_, ?_, ?_, ?_⟩
  · rw [hh]
    have := hsplit (m - 1) (by omega)
    rwa [show m - 1 + 1 = m by omega] at this
  · intro n hn
    rw [hint n (by omega), Classical.not_not]
    exact h4 n hn
  · rcases h5 with ⟨a1, _, a3⟩ | ⟨_, a2, a3⟩
    · exact .inl ⟨a1, by rw [hint _ (by omega), Classical.not_not]; exact a3 _ (by omega)⟩
    · exact .inr ((hint _ (by omega)).2 (a2 ▸ a3))
  · have hal : ∀ n, n < m → ((happens (alone t n)).any Item.isFailure = true ↔
        (passNo (t.body.no n) (topCtx t.loc) n).1.any Item.isFailure = true ∨
        (ending t.loc (passNo (t.body.no n) (topCtx t.loc) n).2).any Item.isFailure = true) := by
      intro n hn
      rw [happens_alone ha hs (by omega), List.any_append, any_mark _ _ isFailure_mark, Bool.or_eq_true]
    rw [hh, List.any_append, Bool.or_eq_true, passItems, any_flatMap_range]
    constructor
    · rintro (⟨n, hn, h⟩ | h)
      · exact ⟨n, hn, (hal n hn).2 (.inl h)⟩
      · exact ⟨m - 1, by omega, (hal _ (by omega)).2 (.inr h)⟩
    · rintro ⟨n, hn, h⟩
      rcases (hal n hn).1 h with h | h
      · exact .inl ⟨n, hn, h⟩
      · by_cases he : n + 1 < m
        · rw [h4 n he] at h; cases h
        · rw [show m - 1 = n by omega]; exact .inr h

/-- An interrupted separate test has failed. -/
theorem interrupted_fails {t : TestCase} (ha : Alike t.body) (hs : Always NoSkip t.body) (ho : Always OwnThrows t.body) {n : Nat}
    (hn : n < passCount t.body.first) (hi : interrupted (alone t n)) : (happens (alone t n)).any Item.isFailure = true := by
  have hp := passNo_alone t (topCtx t.loc) n (by rw [same_count (ha n)]; exact hn)
  unfold interrupted at hi
  have hf : Fair (passNo (t.body.no n) (topCtx t.loc) n) := fair_pass _ (hs n) (ho n) _ _
  change (passNo (alone t n).body.first (topCtx t.loc) 0).2 ≠ .normal at hi
  rw [hp] at hi
  rw [happens_alone ha hs hn, List.any_append, any_mark _ _ isFailure_mark, Bool.or_eq_true]
  obtain ⟨⟨l, e⟩, hx⟩ : ∃ x, passNo (t.body.no n) (topCtx t.loc) n = x := ⟨_, rfl⟩
  rw [hx] at hf hi ⊢
  cases e with
  | normal => exact absurd rfl hi
  | raised e a =>
    cases hab : e.isAbort with
    | true => exact .inl (hf e a rfl hab)
    | false => exact .inr (by simp [ending, hab, Item.isFailure])

end Verif.Run.Separate
