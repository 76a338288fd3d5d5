import Verif.Lemmas.Places
/-! # From the story of a test case to its log -/
namespace Verif.Run
open Spec

theorem userActs_observed (l : List Event) : userActs l = itemActs (l.filterMap observed) := by
  induction l with
  | nil => rfl
  | cons e l ih =>
    unfold userActs itemActs at ih ⊢
    cases e <;> simp only [List.filterMap_cons, observed] <;> simp [ih]

theorem sectionMarks_observed (l : List Event) :
    sectionMarks l = itemMarks (l.filterMap observed) := by
  induction l with
  | nil => rfl
  | cons e l ih =>
    unfold sectionMarks itemMarks at ih ⊢
    cases e <;> simp only [List.filterMap_cons, observed] <;> simp [ih]

theorem itemActs_visible (v : Nat) (l : List Item) : itemActs (l.filter (Item.visible v)) = itemActs l := by
  induction l with
  | nil => rfl
  | cons x l ih =>
    unfold itemActs at ih ⊢
    cases x with
    | act a => simp [Item.visible, Item.reported, Item.level, ih]
    | enter id f =>
      rw [List.filter_cons]
      split <;> simp [ih]
    | leave id f =>
      rw [List.filter_cons]
      split <;> simp [ih]
    | assertion ok c d =>
      rw [List.filter_cons]
      split <;> simp [ih]
    | skip c m =>
      rw [List.filter_cons]
      split <;> simp [ih]
    | interrupted loc =>
      rw [List.filter_cons]
      split <;> simp [ih]

theorem itemMarks_visible (v : Nat) (l : List Item) :
    itemMarks (l.filter (Item.visible v)) = if 2 ≤ v then itemMarks l else [] := by
  induction l with
  | nil => simp [itemMarks]
  | cons x l ih =>
    unfold itemMarks at ih ⊢
    cases x with
    | act a => simp [Item.visible, Item.reported, Item.level, ih]
    | enter id f =>
      cases f <;> by_cases hv : 2 ≤ v <;>
        simp [Item.visible, Item.reported, Item.level, hv, ih]
    | leave id f =>
      cases f <;> by_cases hv : 2 ≤ v <;>
        simp [Item.visible, Item.reported, Item.level, hv, ih]
    | assertion ok c d =>
      rw [List.filter_cons]
      split <;> simp [ih]
    | skip c m =>
      rw [List.filter_cons]
      split <;> simp [ih]
    | interrupted loc =>
      rw [List.filter_cons]
      split <;> simp [ih]

theorem itemActs_cons (x : Item) (l : List Item) : itemActs (x :: l) = itemActs [x] ++ itemActs l :=
  itemActs_append [x] l

theorem itemMarks_cons (x : Item) (l : List Item) :
    itemMarks (x :: l) = itemMarks [x] ++ itemMarks l :=
  itemMarks_append [x] l

theorem itemActs_noAssertion (l : List Item) :
    itemActs (l.filter fun y => !y.isAssertion) = itemActs l := by
  induction l with
  | nil => rfl
  | cons x l ih =>
    rw [List.filter_cons]
    split
    · rw [itemActs_cons, itemActs_cons x l, ih]
    · rename_i h
      cases x <;> first | (exact ih) | simp [Item.isAssertion] at h

theorem itemMarks_noAssertion (l : List Item) :
    itemMarks (l.filter fun y => !y.isAssertion) = itemMarks l := by
  induction l with
  | nil => rfl
  | cons x l ih =>
    rw [List.filter_cons]
    split
    · rw [itemMarks_cons, itemMarks_cons x l, ih]
    · rename_i h
      cases x <;> first | (exact ih) | simp [Item.isAssertion] at h

theorem itemActs_effective (l : List Item) : itemActs (effective l) = itemActs l := by
  induction l with
  | nil => rfl
  | cons x l ih =>
    unfold effective
    split
    · rw [itemActs_cons, itemActs_cons x l, itemActs_noAssertion]
    · split
      · rfl
      · rw [itemActs_cons, itemActs_cons x l, ih]

theorem itemMarks_effective (l : List Item) : itemMarks (effective l) = itemMarks l := by
  induction l with
  | nil => rfl
  | cons x l ih =>
    unfold effective
    split
    · rw [itemMarks_cons, itemMarks_cons x l, itemMarks_noAssertion]
    · split
      · rfl
      · rw [itemMarks_cons, itemMarks_cons x l, ih]

theorem ending_acts [MessageLimit] (loc : Nat) (x : Exit) : itemActs (ending loc x) = [] := by
  cases x with
  | normal => rfl
  | raised e a =>
    simp only [ending, itemActs_append]
    have : itemActs (a.path.reverse.map fun id => Item.leave id true) = [] := by
      generalize a.path.reverse = l
      induction l with
      | nil => rfl
      | cons x l ih => rw [List.map_cons, itemActs_cons, ih]; rfl
    rw [this]
    split <;> rfl

theorem ending_marks [MessageLimit] (loc : Nat) (x : Exit) : itemMarks (ending loc x) =
    match x with
    | .normal => []
    | .raised _ a => a.path.reverse.map fun id => (id, false) := by
  cases x with
  | normal => rfl
  | raised e a =>
    simp only [ending, itemMarks_append]
    have : ∀ l : List Nat, itemMarks (l.map fun id => Item.leave id true) =
        l.map fun id => (id, false) := by
      intro l
      induction l with
      | nil => rfl
      | cons x l ih => rw [List.map_cons, itemMarks_cons, ih]; rfl
    rw [this]
    split <;> rfl

/-- The user statements and section marks of a test case. -/
theorem caseStory_acts [MessageLimit] (t : TestCase) (sf : Bool) :
    let x := (story t.body.no (topCtx t.loc) (passCount t.body.first) 0 []).1
    itemActs (caseStory t sf) = itemActs x.1 ∧
    itemMarks (caseStory t sf) = itemMarks x.1 ++ itemMarks (ending t.loc x.2) := by
  intro x
  unfold caseStory
  dsimp only
  rw [itemActs_effective, itemMarks_effective]
  simp only [itemActs_append, itemMarks_append, ending_acts]
  cases sf <;> simp [itemActs, itemMarks, x]

theorem caseStory_eq [MessageLimit] (t : TestCase) (sf : Bool) : ∃ y, caseStory t sf =
    effective ((story t.body.no (topCtx t.loc) (passCount t.body.first) 0 []).1.1 ++ y) := by
  unfold caseStory
  dsimp only
  rw [List.append_assoc]
  exact ⟨_, rfl⟩

theorem passStmt_place [MessageLimit] {c : Ctx} {m : Stmt} {e : Exn} {a : Ctx}
    (h : (passStmt c m).2 = .raised e a) : a.path = c.path ∧ a.caps = c.caps := by
  have ha : ∀ loc ok abort data, (asserted c loc ok abort data).2 = .raised e a →
      a.path = c.path ∧ a.caps = c.caps := by
    intro loc ok abort data h
    simp only [asserted, assertedAt] at h
    split at h
    · cases h; exact ⟨rfl, rfl⟩
    · cases h
  cases m with
  | act => cases h
  | notify => cases h
  | throw e => cases h; exact ⟨rfl, rfl⟩
  | skip loc abort msg =>
    simp only [passStmt] at h
    split at h
    · cases h; exact ⟨rfl, rfl⟩
    · cases h
  | check loc ev abort data =>
    cases ev with
    | exc e => cases h; exact ⟨rfl, rfl⟩
    | val ok => exact ha _ _ _ _ h
  | throwsAs => exact ha _ _ _ _ h
  | throwsMatches => exact ha _ _ _ _ h
  | nothrow => exact ha _ _ _ _ h

theorem passStmt_noMarks [MessageLimit] (c : Ctx) (m : Stmt) : itemMarks (passStmt c m).1 = [] := by
  cases m with
  | check loc ev abort data => cases ev <;> rfl
  | _ => rfl

theorem passStmt_acts [MessageLimit] (c : Ctx) {m : Stmt} (h : endsTest m = true) : itemActs (passStmt c m).1 = [] := by
  cases m with
  | act => cases h
  | check loc ev abort data => cases ev <;> rfl
  | _ => rfl

theorem itemsBefore_acts (fs : List Frame) : itemActs (itemsBefore fs) = actsBefore fs := by
  induction fs with
  | nil => rfl
  | cons f fs ih =>
    cases f <;> simp only [itemsBefore, actsBefore]
    · rw [itemActs_cons, ih]; rfl
    · exact ih
    · rw [itemActs_cons, ih]; rfl
    · exact ih
    · exact ih

theorem itemsBefore_marks (fs : List Frame) :
    itemMarks (itemsBefore fs) = (sectionsOf fs).map fun id => (id, true) := by
  induction fs with
  | nil => rfl
  | cons f fs ih =>
    cases f <;> simp only [itemsBefore, sectionsOf]
    · rw [itemMarks_cons, ih]; rfl
    · exact ih
    · rw [itemMarks_cons, ih]; rfl
    · exact ih
    · exact ih

theorem itemsBefore_quiet (fs : List Frame) :
    (itemsBefore fs).any Item.isSkip = false ∧ (itemsBefore fs).any Item.isAssertion = false := by
  induction fs with
  | nil => exact ⟨rfl, rfl⟩
  | cons f fs ih => cases f <;> simp [itemsBefore, ih, Item.isSkip, Item.isAssertion]

/-- The first pass of a body with something at a place. -/
theorem passNo_place [MessageLimit] {P k : Prog} {y : Ctx → List Item × Exit}
    (hy : ∀ c w, pass P c w = andThen (y c) (pass k c w)) (fs : List Frame) (ht : Tidy (plug fs P)) (loc : Nat) :
    ∃ post, (passNo (plug fs P) (topCtx loc) 0).1 = itemsBefore fs ++ (y (contextOf loc fs)).1 ++ post ∧
      ∀ e a, (y (contextOf loc fs)).2 = .raised e a →
        OnlyInterrupted post ∧ (passNo (plug fs P) (topCtx loc) 0).2 = .raised e a := by
  have h := first_reached hy fs (topCtx loc)
    (if leaves (plug fs P) = 0 then none else some 0) ht (by split <;> simp [*])
  rw [placeCtx_top] at h
  exact h

theorem pass_stmt [MessageLimit] (m : Stmt) (k : Prog) (c : Ctx) (w : Option Nat) :
    pass (.stmt m k) c w = andThen (passStmt c m) (pass k c w) := rfl

theorem pass_nested [MessageLimit] (loc : Nat) (o : Prog) (ask : Ask) (k : Prog) (c : Ctx) (w : Option Nat) :
    pass (.nested loc o ask k) c w = andThen (check c loc ask (pass o (Ctx.inside c loc) none)) (pass k c w) := rfl

theorem OnlyInterrupted.quiet {l : List Item} (h : OnlyInterrupted l) : itemActs l = [] ∧ itemMarks l = [] ∧
    l.any Item.isSkip = false ∧ ∀ v, l.filter (Item.visible v) = [] := by
  induction l with
  | nil => exact ⟨rfl, rfl, rfl, fun _ => rfl⟩
  | cons x l ih =>
    obtain ⟨loc, rfl⟩ := h x (by simp)
    obtain ⟨h1, h2, h3, h4⟩ := ih fun y hy => h y (by simp [hy])
    refine ⟨by rw [itemActs_cons, h1]; rfl, by rw [itemMarks_cons, h2]; rfl, by simp [Item.isSkip, h3], ?_⟩
    intro v
    rw [List.filter_cons, h4 v]
    rfl

/-- A body with a place that ends the test. -/
theorem story_ends [MessageLimit] {P k : Prog} {y : Ctx → List Item × Exit}
    (hy : ∀ c w, pass P c w = andThen (y c) (pass k c w)) {fs : List Frame} (ht : Tidy (plug fs P))
    {loc : Nat} {e : Exn} {a : Ctx} (h : (y (contextOf loc fs)).2 = .raised e a) {bodies : Nat → Prog}
    (hb : bodies 0 = plug fs P) :
    ∃ post, OnlyInterrupted post ∧ story bodies (topCtx loc) (passCount (bodies 0)) 0 [] =
      ((itemsBefore fs ++ (y (contextOf loc fs)).1 ++ post, .raised e a), 1) := by
  obtain ⟨post, h1, h2⟩ := passNo_place hy fs ht loc
  obtain ⟨h3, h4⟩ := h2 e a h
  refine ⟨post, h3, ?_⟩
  obtain ⟨n, hn⟩ : ∃ n, passCount (bodies 0) = n + 1 :=
    ⟨passCount (bodies 0) - 1, by unfold passCount; omega⟩
  rw [hn]
  unfold story
  rw [hb]
  obtain ⟨x, hx⟩ : ∃ x, passNo (plug fs P) (topCtx loc) 0 = x := ⟨_, rfl⟩
  rw [hx] at h1 h4 ⊢
  obtain ⟨l, y⟩ := x
  simp only at h1 h4
  subst h4
  simp [h1]

/-- Whatever follows, the story starts with its first pass. -/
theorem story_prefix [MessageLimit] (bodies : Nat → Prog) (c : Ctx) : ∀ k n seen,
    ∃ rest, (story bodies c k n seen).1.1 = seen ++ rest := by
  intro k
  induction k with
  | zero => intro n seen; exact ⟨[], by simp [story]⟩
  | succ k ih =>
    intro n seen
    unfold story
    split
    · exact ⟨_, rfl⟩
    · rename_i l _
      split
      · exact ⟨_, rfl⟩
      · obtain ⟨rest, h⟩ := ih (n + 1) (seen ++ l)
        exact ⟨l ++ rest, by simp only [h, List.append_assoc]⟩

theorem story_first [MessageLimit] (bodies : Nat → Prog) (c : Ctx) :
    ∃ rest, (story bodies c (passCount (bodies 0)) 0 []).1.1 = (passNo (bodies 0) c 0).1 ++ rest := by
  obtain ⟨n, hn⟩ : ∃ n, passCount (bodies 0) = n + 1 := ⟨passCount (bodies 0) - 1, by unfold passCount; omega⟩
  rw [hn]
  unfold story
  obtain ⟨x, hx⟩ : ∃ x, passNo (bodies 0) c 0 = x := ⟨_, rfl⟩
  rw [hx]
  obtain ⟨l, y⟩ := x
  cases y with
  | raised e a => exact ⟨[], by simp⟩
  | normal =>
    dsimp only
    split
    · exact ⟨[], by simp⟩
    · obtain ⟨rest, h⟩ := story_prefix bodies c n 1 ([] ++ l)
      exact ⟨rest, by simpa using h⟩

theorem effective_append {l l' : List Item} (h : l.any Item.isSkip = false) :
    ∃ r, effective (l ++ l') = l ++ r ∧ (l.any Item.isFailure = false → r = effective l') := by
  induction l with
  | nil => exact ⟨effective l', rfl, fun _ => rfl⟩
  | cons x l ih =>
    simp only [List.any_cons, Bool.or_eq_false_iff] at h
    obtain ⟨r, hr, hr'⟩ := ih h.2
    simp only [List.cons_append, effective, h.1, Bool.false_eq_true, if_false]
    split
    · rename_i hf
      refine ⟨l', rfl, ?_⟩
      intro hn
      simp [hf] at hn
    · refine ⟨r, by rw [hr], ?_⟩
      intro hn
      simp only [List.any_cons, Bool.or_eq_false_iff] at hn
      exact hr' hn.2

/-- The passes before the one that ends the test. -/
theorem story_until [MessageLimit] (bodies : Nat → Prog) (c : Ctx) : ∀ (j k n : Nat) (seen l : List Item) (y : Exit), j < k →
    (∀ i, i < j → (passNo (bodies (n + i)) c (n + i)).2 = .normal ∧
      skipsTest (seen ++ passItems bodies c n (i + 1)) = false) →
    passNo (bodies (n + j)) c (n + j) = (l, y) →
    (y ≠ .normal ∨ skipsTest (seen ++ passItems bodies c n j ++ l) = true) →
    story bodies c k n seen = ((seen ++ passItems bodies c n j ++ l, y), j + 1) := by
  intro j
  induction j with
  | zero =>
    intro k n seen l y hk _ hp hy
    obtain ⟨k, rfl⟩ : ∃ m, k = m + 1 := ⟨k - 1, by omega⟩
    have hit : passItems bodies c n 0 = [] := rfl
    rw [hit, List.append_nil] at hy ⊢
    unfold story
    rw [Nat.add_zero] at hp
    rw [hp]
    cases y with
    | raised e a => simp
    | normal =>
      rcases hy with hy | hy
      · exact absurd rfl hy
      · simp [hy]
  | succ j ih =>
    intro k n seen l y hk hprev hp hy
    obtain ⟨k, rfl⟩ : ∃ m, k = m + 1 := ⟨k - 1, by omega⟩
    have hit : ∀ m, passItems bodies c n (m + 1) = (passNo (bodies n) c n).1 ++ passItems bodies c (n + 1) m := by
      intro m; simp [passItems, List.range'_succ]
    obtain ⟨hn, hs⟩ := hprev 0 (by omega)
    rw [hit 0, show passItems bodies c (n + 1) 0 = [] from rfl, List.append_nil] at hs
    rw [hit j] at hy ⊢
    obtain ⟨⟨l0, y0⟩, hx⟩ : ∃ x, passNo (bodies n) c n = x := ⟨_, rfl⟩
    rw [Nat.add_zero, hx] at hn
    simp only at hn
    subst hn
    rw [hx] at hs hy ⊢
    unfold story
    rw [hx]
    simp only at hs
    simp only [hs, Bool.false_eq_true, if_false]
    have := ih k (n + 1) (seen ++ l0) l y (by omega) (by
      intro i hi
      obtain ⟨h1, h2⟩ := hprev (i + 1) (by omega)
      rw [hit (i + 1), hx] at h2
      rw [show n + 1 + i = n + (i + 1) by omega]
      exact ⟨h1, by simpa [List.append_assoc] using h2⟩)
      (by rw [show n + 1 + j = n + (j + 1) by omega]; exact hp)
      (by simpa [List.append_assoc] using hy)
    rw [this]
    simp [List.append_assoc]

end Verif.Run
