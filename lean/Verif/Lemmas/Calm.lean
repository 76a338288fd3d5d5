import Verif.Lemmas.Story
import Verif.Spec.Sections
/-! # Uninterrupted test bodies, and places in a test body -/
namespace Verif.Run
open Spec

/-- The user statements among items. -/
def itemActs (l : List Item) : List Nat :=
  l.filterMap fun x => match x with | .act a => some a | _ => none

/-- The reported section marks among items. -/
def itemMarks (l : List Item) : List (Nat × Bool) :=
  l.filterMap fun x => match x with
    | .enter id true => some (id, true)
    | .leave id true => some (id, false)
    | _ => none

theorem itemActs_append (a b : List Item) : itemActs (a ++ b) = itemActs a ++ itemActs b := by
  simp [itemActs]

theorem itemMarks_append (a b : List Item) : itemMarks (a ++ b) = itemMarks a ++ itemMarks b := by
  simp [itemMarks]

/-- The user statement a statement is, if any. -/
def stmtActs : Stmt → List Nat
  | .act a => [a]
  | _ => []

theorem calm_assertedAt (p c : Ctx) (loc : Nat) {ok abort : Bool} (data : Text) (h : (ok || !abort) = true) :
    (assertedAt p c loc ok abort data).2 = .normal ∧
    (assertedAt p c loc ok abort data).1.any Item.isSkip = false ∧
    itemActs (assertedAt p c loc ok abort data).1 = [] ∧
    itemMarks (assertedAt p c loc ok abort data).1 = [] := by
  cases ok <;> cases abort <;> simp at h <;> simp [assertedAt, Item.isSkip, itemActs, itemMarks]

/-- A check that does not abort, with an operand that does not throw. -/
theorem calm_check [MessageLimit] {ask : Ask} (h : calmAsk ask = true) (c : Ctx) (loc : Nat) {x : List Item × Exit}
    (hx : x.2 = .normal) : (check c loc ask x).2 = .normal ∧
    (check c loc ask x).1.any Item.isSkip = x.1.any Item.isSkip ∧
    itemActs (check c loc ask x).1 = itemActs x.1 ∧ itemMarks (check c loc ask x).1 = itemMarks x.1 := by
  have ha : ∃ ok abort data, (ok || !abort) = true ∧ answered (placeAfter c loc x.1) c loc ask x.2 =
      assertedAt (placeAfter c loc x.1) c loc ok abort data := by
    rw [hx]
    cases ask with
    | check ok abort data => exact ⟨_, _, _, h, rfl⟩
    | throwsAs ty n abort => exact ⟨_, _, _, by simpa [Exit.thrown, throwsType, calmAsk] using h, rfl⟩
    | throwsMatches ty n m d abort => exact ⟨_, _, _, by simpa [Exit.thrown, throwsType, calmAsk] using h, rfl⟩
    | nothrow t abort => exact ⟨_, _, _, by simp [Exit.thrown], rfl⟩
  obtain ⟨ok, abort, data, h1, h2⟩ := ha
  obtain ⟨g1, g2, g3, g4⟩ := calm_assertedAt (placeAfter c loc x.1) c loc data h1
  simp only [check, h2, itemActs_append, itemMarks_append, List.any_append, g1, g2, g3, g4, Bool.or_false,
    List.append_nil, and_self]

theorem calm_stmt [MessageLimit] {m : Stmt} (h : calmStmt m = true) (c : Ctx) :
    (passStmt c m).2 = .normal ∧ (passStmt c m).1.any Item.isSkip = false ∧
    itemActs (passStmt c m).1 = stmtActs m ∧
    itemMarks (passStmt c m).1 = [] := by
  have ha : ∀ loc ok abort data, (ok || !abort) = true →
      (asserted c loc ok abort data).2 = .normal ∧
      (asserted c loc ok abort data).1.any Item.isSkip = false ∧
      itemActs (asserted c loc ok abort data).1 = [] ∧
      itemMarks (asserted c loc ok abort data).1 = [] := by
    intro loc ok abort data h
    exact calm_assertedAt _ c loc data h
  cases m with
  | act a => simp [passStmt, Item.isSkip, itemActs, itemMarks, stmtActs]
  | notify => simp [passStmt, itemActs, itemMarks, stmtActs]
  | throw e => cases h
  | skip => cases h
  | check loc ev abort data =>
    cases ev with
    | exc e => cases h
    | val ok => exact ha _ _ _ _ h
  | throwsAs => exact ha _ _ _ _ h
  | throwsMatches => exact ha _ _ _ _ h
  | nothrow => exact ha _ _ _ _ h

theorem orOutside_length (b : Prog) (l : List (List Nat)) :
    (orOutside b l).length = max 1 l.length := by
  unfold orOutside
  cases l with
  | nil => simp
  | cons x xs => simp only [List.isEmpty_cons, Bool.false_eq_true, if_false, List.length_cons]; omega

theorem leafRuns_length (K : Prog) : (leafRuns K).length = leaves K := by
  induction K with
  | done => rfl
  | stmt m k ih => cases m <;> simpa [leafRuns, leaves] using ih
  | sec id loc b k ihb ihk => simp [leafRuns, leaves, orOutside_length, ihb, ihk]
  | capture caps k ih => simpa [leafRuns, leaves] using ih
  | block b k ihb ihk => simp [leafRuns, leaves, ihb, ihk]
  | tryCatch ty b h k _ _ ih => simpa [leafRuns, leaves] using ih
  | nested loc o a k _ ih => simpa [leafRuns, leaves] using ih
  | guard cl k _ ih => simpa [leafRuns, leaves] using ih

/-- The user statements and section marks of one execution of an uninterrupted body. -/
def CalmActs (K : Prog) (w : Option Nat) (l : List Item) : Prop :=
  match w with
  | none => itemActs l = outside K ∧ itemMarks l = []
  | some n => n < leaves K → (leafRuns K)[n]? = some (itemActs l)

/-- What one execution of an uninterrupted body does. -/
structure CalmPass [MessageLimit] (K : Prog) (c : Ctx) (w : Option Nat) : Prop where
  exit : (pass K c w).2 = .normal
  noSkip : (pass K c w).1.any Item.isSkip = false
  acts : CalmActs K w (pass K c w).1

theorem andThen_normal {x y : List Item × Exit} (h : x.2 = .normal) :
    andThen x y = (x.1 ++ y.1, y.2) := by
  unfold andThen; rw [h]

theorem calm_pass [MessageLimit] {K : Prog} (h : Calm K) : ∀ c w, CalmPass K c w := by
  induction K with
  | done =>
    intro c w
    refine ⟨by simp [pass], by simp [pass], ?_⟩
    cases w with
    | none => exact ⟨rfl, rfl⟩
    | some n => intro hn; simp [leaves] at hn
  | stmt m k ih =>
    intro c w
    obtain ⟨h1, h2, h3, h4⟩ := calm_stmt h.1 c
    have hk := ih h.2 c w
    have hp : pass (.stmt m k) c w = ((passStmt c m).1 ++ (pass k c w).1, (pass k c w).2) := by
      simp only [pass]; exact andThen_normal h1
    refine ⟨by rw [hp]; exact hk.exit, by rw [hp]; simp only [List.any_append, h2, hk.noSkip]; rfl, ?_⟩
    have hka := hk.acts
    rw [hp]
    cases w with
    | none =>
      show _ ∧ _
      simp only [itemActs_append, itemMarks_append, h3, h4, hka.1, hka.2]
      cases m <;> simp [outside, stmtActs]
    | some n =>
      intro hn
      simp only [itemActs_append, h3]
      have := hka hn
      cases m <;> simp only [leafRuns, stmtActs, List.getElem?_map, this, Option.map_some, List.nil_append,
        List.singleton_append]
  | capture caps k ih =>
    intro c w
    have hk := ih h { c with caps := c.caps ++ caps } w
    exact ⟨by simp only [pass]; exact hk.exit, by simp only [pass]; exact hk.noSkip, by
      have := hk.acts
      cases w <;> simpa only [pass, CalmActs, leaves, leafRuns, outside] using this⟩
  | tryCatch => exact absurd h (by simp [Calm])
  | nested loc o ask k iho ihk =>
    intro c w
    have ho := iho h.2.1.1 (Ctx.inside c loc) none
    obtain ⟨h1, h2, h3, h4⟩ := calm_check h.1 c loc ho.exit
    have hk := ihk h.2.2 c w
    have hp : pass (.nested loc o ask k) c w =
        ((check c loc ask (pass o (Ctx.inside c loc) none)).1 ++ (pass k c w).1, (pass k c w).2) := by
      simp only [pass]; exact andThen_normal h1
    refine ⟨by rw [hp]; exact hk.exit, by
      rw [hp]; simp only [List.any_append, h2, hk.noSkip, ho.noSkip]; rfl, ?_⟩
    have hka := hk.acts
    have hoa := ho.acts
    rw [hp]
    cases w with
    | none =>
      show _ ∧ _
      simp only [itemActs_append, itemMarks_append, h3, h4, hka.1, hka.2, hoa.1, hoa.2, outside,
        List.append_nil, and_self]
    | some n =>
      intro hn
      simp only [itemActs_append, h3, hoa.1]
      have := hka hn
      simp only [leafRuns, List.getElem?_map, this, Option.map_some]
  | guard cl k ihc ihk =>
    intro c w
    have hk := ihk h.2 c w
    have hc := ihc h.1.1 c none
    refine ⟨hk.exit, by
      show ((pass k c w).1 ++ (pass cl c none).1).any _ = _
      simp only [List.any_append, hk.noSkip, hc.noSkip]; rfl, ?_⟩
    have hka := hk.acts
    have hca := hc.acts
    show CalmActs _ _ ((pass k c w).1 ++ (pass cl c none).1)
    cases w with
    | none =>
      show _ ∧ _
      simp only [itemActs_append, itemMarks_append, hka.1, hka.2, hca.1, hca.2, outside,
        List.append_nil, and_self]
    | some n =>
      intro hn
      simp only [itemActs_append, hca.1]
      have := hka hn
      simp only [leafRuns, List.getElem?_map, this, Option.map_some]
  | block b k ihb ihk =>
    intro c w
    have hb := ihb h.1 c (wantedIn b w)
    have hk := ihk h.2 c (wantedAfter b w)
    have hp : pass (.block b k) c w = ((pass b c (wantedIn b w)).1 ++ (pass k c (wantedAfter b w)).1,
        (pass k c (wantedAfter b w)).2) := by
      rw [pass_block]; exact andThen_normal hb.exit
    refine ⟨by rw [hp]; exact hk.exit, by rw [hp]; simp only [List.any_append, hb.noSkip, hk.noSkip]; rfl, ?_⟩
    have hba := hb.acts
    have hka := hk.acts
    rw [hp]
    cases w with
    | none =>
      simp only [wantedIn, wantedAfter] at hba hka ⊢
      show _ ∧ _
      simp only [itemActs_append, itemMarks_append, hba.1, hba.2, hka.1, hka.2, outside,
        List.append_nil, and_self]
    | some n =>
      intro hn
      simp only [leaves] at hn
      simp only [wantedIn, wantedAfter] at hba hka ⊢
      by_cases hnb : n < leaves b
      · simp only [if_pos hnb] at hba hka ⊢
        have := hba hnb
        simp only [leafRuns, itemActs_append, hka.1]
        rw [List.getElem?_append_left (by simp [leafRuns_length, hnb]), List.getElem?_map, this]
        rfl
      · simp only [if_neg hnb] at hba hka ⊢
        have := hka (by omega)
        simp only [leafRuns, itemActs_append, hba.1]
        rw [List.getElem?_append_right (by simp [leafRuns_length]; omega), List.getElem?_map]
        simp only [List.length_map, leafRuns_length, this, Option.map_some]
  | sec id loc b k ihb ihk =>
    intro c w
    cases w with
    | none =>
      have hk := ihk h.2 c none
      refine ⟨by simp only [pass]; exact hk.exit, by simp only [pass]; exact hk.noSkip, ?_⟩
      simp only [pass]
      exact hk.acts
    | some n =>
      by_cases hn : n < max 1 (leaves b)
      · have hb := ihb h.1 (Ctx.inSection c id loc) (if leaves b = 0 then none else some n)
        have hk := ihk h.2 c none
        have hp : pass (.sec id loc b k) c (some n) =
            ([.enter id (n == 0)] ++ ((pass b (Ctx.inSection c id loc)
              (if leaves b = 0 then none else some n)).1 ++
              ([.leave id (n + 1 == max 1 (leaves b))] ++ (pass k c none).1)), (pass k c none).2) := by
          simp only [pass, if_pos hn]
          rw [andThen_normal (by rfl), andThen_normal hb.exit, andThen_normal (by rfl)]
        refine ⟨by rw [hp]; exact hk.exit, ?_, ?_⟩
        · rw [hp]
          simp only [List.any_append, hb.noSkip, hk.noSkip]
          rfl
        · intro hn'
          rw [hp]
          have hba := hb.acts
          simp only [itemActs_append, hk.acts.1, leafRuns]
          rw [List.getElem?_append_left (by simp [orOutside_length, leafRuns_length]; omega),
            List.getElem?_map]
          have e1 : itemActs [Item.enter id (n == 0)] = [] := rfl
          have e2 : itemActs [Item.leave id (n + 1 == max 1 (leaves b))] = [] := rfl
          rw [e1, e2, List.nil_append, List.nil_append]
          by_cases hz : leaves b = 0
          · simp only [if_pos hz] at hba ⊢
            rw [hba.1]
            have h0 : n = 0 := by omega
            subst h0
            have : leafRuns b = [] := List.eq_nil_of_length_eq_zero (by rw [leafRuns_length]; exact hz)
            simp [orOutside, this]
          · simp only [if_neg hz] at hba ⊢
            have hne : (leafRuns b).isEmpty = false := by
              cases hl : leafRuns b with
              | nil =>
                exfalso; apply hz
                rw [← leafRuns_length, hl]; rfl
              | cons => rfl
            have := hba (by omega)
            simp only [orOutside, hne, Bool.false_eq_true, if_false, this, Option.map_some]
      · have hk := ihk h.2 c (some (n - max 1 (leaves b)))
        have hp : pass (.sec id loc b k) c (some n) = pass k c (some (n - max 1 (leaves b))) := by
          simp only [pass, if_neg hn]
        refine ⟨by rw [hp]; exact hk.exit, by rw [hp]; exact hk.noSkip, ?_⟩
        intro hn'
        rw [hp]
        simp only [leaves] at hn'
        simp only [leafRuns]
        rw [List.getElem?_append_right (by simp [orOutside_length, leafRuns_length]; omega)]
        simp only [List.length_map, orOutside_length, leafRuns_length]
        exact hk.acts (by omega)

/-- The items of `k` passes in a row. -/
def passItems [MessageLimit] (bodies : Nat → Prog) (c : Ctx) (n k : Nat) : List Item :=
  ((List.range' n k).map fun i => (passNo (bodies i) c i).1).flatten

theorem skipsTest_none {l : List Item} (h : l.any Item.isSkip = false) : skipsTest l = false := by
  induction l with
  | nil => rfl
  | cons x l ih =>
    simp only [List.any_cons, Bool.or_eq_false_iff] at h
    simp only [skipsTest, h.1, Bool.false_eq_true, if_false, ih h.2]
    split <;> rfl

theorem effective_none {l : List Item} (h : l.any Item.isSkip = false) : effective l = l := by
  induction l with
  | nil => rfl
  | cons x l ih =>
    simp only [List.any_cons, Bool.or_eq_false_iff] at h
    simp only [effective, h.1, Bool.false_eq_true, if_false, ih h.2]
    split <;> rfl

/-- The story of an uninterrupted body. -/
theorem calm_story [MessageLimit] {bodies : Nat → Prog} (h : ∀ n, Calm (bodies n)) (c : Ctx) : ∀ k n seen,
    seen.any Item.isSkip = false →
    story bodies c k n seen = ((seen ++ passItems bodies c n k, .normal), k) ∧
    (seen ++ passItems bodies c n k).any Item.isSkip = false := by
  intro k
  induction k with
  | zero => intro n seen hs; simp [story, passItems, hs]
  | succ k ih =>
    intro n seen hs
    have hp : CalmPass (bodies n) c (if leaves (bodies n) = 0 then none else some n) := calm_pass (h n) c _
    have e1 : (passNo (bodies n) c n).2 = .normal := hp.exit
    have e2 : (passNo (bodies n) c n).1.any Item.isSkip = false := hp.noSkip
    have hsl : (seen ++ (passNo (bodies n) c n).1).any Item.isSkip = false := by
      rw [List.any_append, hs, e2]; rfl
    obtain ⟨h1, h2⟩ := ih (n + 1) (seen ++ (passNo (bodies n) c n).1) hsl
    have hit : passItems bodies c n (k + 1) = (passNo (bodies n) c n).1 ++ passItems bodies c (n + 1) k := by
      simp [passItems, List.range'_succ]
    constructor
    · have : story bodies c (k + 1) n seen =
          match passNo (bodies n) c n with
          | (l, .raised e a) => ((seen ++ l, .raised e a), 1)
          | (l, .normal) =>
            if skipsTest (seen ++ l) then ((seen ++ l, .normal), 1)
            else
              let r := story bodies c k (n + 1) (seen ++ l)
              (r.1, r.2 + 1) := rfl
      rw [this]
      obtain ⟨⟨l, e⟩, hx⟩ : ∃ x, passNo (bodies n) c n = x := ⟨_, rfl⟩
      rw [hx] at e1 e2 hsl h1 hit ⊢
      simp only at e1 e2 hsl h1 hit
      subst e1
      simp only [skipsTest_none hsl, Bool.false_eq_true, if_false, h1, hit, List.append_assoc]
    · rw [hit, ← List.append_assoc]; exact h2

/-- The user statements of all passes. -/
theorem calm_acts [MessageLimit] {b : Body} (h : Always Calm b) (hs : Alike b) (c : Ctx) :
    itemActs (passItems b.no c 0 (passCount b.first)) = (runsOf b).flatten := by
  have hmap : ∀ l : List (List Item), itemActs l.flatten = (l.map itemActs).flatten := by
    intro l
    induction l with
    | nil => rfl
    | cons x l ih => simp [itemActs_append, ih]
  unfold passItems
  rw [hmap, List.map_map]
  congr 1
  unfold runsOf
  rw [List.range_eq_range']
  apply List.map_congr_left
  intro i hi
  have hi : i < passCount (b.no i) := by
    rw [same_count (hs i)]
    simpa using hi
  simp only [Function.comp]
  have hp := (calm_pass (h i) c (if leaves (b.no i) = 0 then none else some i)).acts
  generalize b.no i = body at hi hp ⊢
  unfold passNo executions
  unfold passCount at hi
  by_cases hz : leaves body = 0
  · simp only [if_pos hz] at hp ⊢
    have h0 : i = 0 := by omega
    subst h0
    have : leafRuns body = [] := List.eq_nil_of_length_eq_zero (by rw [leafRuns_length]; exact hz)
    simp [orOutside, this, hp.1]
  · simp only [if_neg hz] at hp ⊢
    have hne : (leafRuns body).isEmpty = false := by
      cases hl : leafRuns body with
      | nil =>
        exfalso; apply hz
        rw [← leafRuns_length, hl]; rfl
      | cons => rfl
    simp only [orOutside, hne, Bool.false_eq_true, if_false]
    rw [List.getD_eq_getElem?_getD, hp (by omega)]
    rfl

theorem runsOf_length (b : Body) : (runsOf b).length = passCount b.first := by simp [runsOf]

theorem runsOf_one (p : Prog) : runsOf (p : Body) = executions p := by
  apply List.ext_getElem?
  intro i
  unfold runsOf
  rw [List.getElem?_map]
  have hlen : (executions p).length = passCount p := by
    simp only [executions, orOutside_length, leafRuns_length, passCount]
  by_cases hi : i < passCount p
  · rw [List.getElem?_range hi, Option.map_some, no_one, List.getD_eq_getElem?_getD,
      List.getElem?_eq_getElem (by omega)]
    rfl
  · rw [List.getElem?_eq_none (by simp; omega), List.getElem?_eq_none (by omega)]
    rfl

/-! ## Section marks -/

theorem flatten_append_range (f : Nat → List (Nat × Bool)) (a b : Nat) :
    ((List.range' 0 (a + b)).map f).flatten =
      ((List.range' 0 a).map f).flatten ++ ((List.range' 0 b).map fun i => f (a + i)).flatten := by
  rw [← List.range'_append, List.map_append, List.flatten_append]
  congr 2
  apply List.ext_getElem?
  intro i
  rw [List.getElem?_map, List.getElem?_map]
  by_cases hi : i < b
  · rw [List.getElem?_range' hi, List.getElem?_range' hi]
    simp
  · rw [List.getElem?_eq_none (by simp; omega), List.getElem?_eq_none (by simp; omega)]
    rfl

/-- First pass enters, last pass leaves. -/
theorem flatten_enclosed (f : Nat → List (Nat × Bool)) (x y : Nat × Bool) (m : Nat) :
    ((List.range' 0 (m + 1)).map fun i =>
      (if i = 0 then [x] else []) ++ f i ++ (if i + 1 = m + 1 then [y] else [])).flatten =
      [x] ++ ((List.range' 0 (m + 1)).map f).flatten ++ [y] := by
  have key : ∀ j n, 0 < n → n + j = m + 1 → ((List.range' n j).map fun i =>
      (if i = 0 then [x] else []) ++ f i ++ (if i + 1 = m + 1 then [y] else [])).flatten =
      ((List.range' n j).map f).flatten ++ (if j = 0 then [] else [y]) := by
    intro j
    induction j with
    | zero => intro n _ _; simp
    | succ j ih =>
      intro n hn hnj
      simp only [List.range'_succ, List.map_cons, List.flatten_cons]
      rw [ih (n + 1) (by omega) (by omega), if_neg (show ¬ n = 0 by omega)]
      by_cases hj : j = 0
      · subst hj
        rw [if_pos (by omega)]
        simp
      · rw [if_neg (by omega), if_neg hj]
        simp
  simp only [List.range'_succ, List.map_cons, List.flatten_cons]
  rw [key m 1 (by omega) (by omega)]
  by_cases hm : m = 0
  · subst hm; simp
  · rw [if_neg (show ¬ (0 + 1 = m + 1) by omega), if_neg hm]
    simp

theorem calm_marks [MessageLimit] {K : Prog} (h : Calm K) : ∀ c,
    ((List.range' 0 (leaves K)).map fun i => itemMarks (pass K c (some i)).1).flatten =
      brackets K := by
  induction K with
  | done => intro c; simp [leaves, brackets]
  | stmt m k ih =>
    intro c
    obtain ⟨h1, h2, h3, h4⟩ := calm_stmt h.1 c
    have hp : ∀ w, pass (.stmt m k) c w = ((passStmt c m).1 ++ (pass k c w).1, (pass k c w).2) := by
      intro w; simp only [pass]; exact andThen_normal h1
    simp only [hp, itemMarks_append, h4, List.nil_append, leaves, brackets]
    exact ih h.2 c
  | capture caps k ih =>
    intro c
    simp only [pass, leaves, brackets]
    exact ih h _
  | tryCatch => exact absurd h (by simp [Calm])
  | nested loc o ask k _ ih =>
    intro c
    have ho := calm_pass h.2.1.1 (Ctx.inside c loc) none
    obtain ⟨h1, h2, h3, h4⟩ := calm_check h.1 c loc ho.exit
    have hp : ∀ w, pass (.nested loc o ask k) c w =
        ((check c loc ask (pass o (Ctx.inside c loc) none)).1 ++ (pass k c w).1, (pass k c w).2) := by
      intro w; simp only [pass]; exact andThen_normal h1
    simp only [hp, itemMarks_append, h4, ho.acts.2, List.nil_append, leaves, brackets]
    exact ih h.2.2 c
  | guard cl k _ ih =>
    intro c
    have hc := calm_pass h.1.1 c none
    simp only [pass, anyway, itemMarks_append, hc.acts.2, List.append_nil, leaves, brackets]
    exact ih h.2 c
  | block b k ihb ihk =>
    intro c
    simp only [leaves, brackets]
    rw [flatten_append_range, ← ihb h.1 c, ← ihk h.2 c]
    congr 2
    · apply List.map_congr_left
      intro i hi
      have hi' : i < leaves b := by simpa using hi
      have hb := calm_pass h.1 c (some i)
      have hk := (calm_pass h.2 c none).acts
      simp only [pass, if_pos hi']
      rw [andThen_normal hb.exit]
      simp only [itemMarks_append, hk.2, List.append_nil]
    · apply List.map_congr_left
      intro i hi
      have hb := calm_pass h.1 c none
      simp only [pass, if_neg (show ¬ (leaves b + i < leaves b) by omega)]
      rw [andThen_normal hb.exit]
      simp only [itemMarks_append, hb.acts.2, List.nil_append, Nat.add_sub_cancel_left]
  | sec id loc b k ihb ihk =>
    intro c
    simp only [leaves, brackets]
    rw [flatten_append_range]
    have hk := calm_pass h.2 c none
    obtain ⟨m, hm⟩ : ∃ m, max 1 (leaves b) = m + 1 := ⟨max 1 (leaves b) - 1, by omega⟩
    have h1 : ((List.range' 0 (max 1 (leaves b))).map fun i =>
        itemMarks (pass (.sec id loc b k) c (some i)).1) =
        ((List.range' 0 (m + 1)).map fun i => (if i = 0 then [(id, true)] else []) ++
          itemMarks (pass b (Ctx.inSection c id loc) (if leaves b = 0 then none else some i)).1 ++
          (if i + 1 = m + 1 then [(id, false)] else [])) := by
      rw [hm]
      apply List.map_congr_left
      intro i hi
      have hi' : i < max 1 (leaves b) := by
        have : i < m + 1 := by simpa using hi
        omega
      have hb := calm_pass h.1 (Ctx.inSection c id loc) (if leaves b = 0 then none else some i)
      simp only [pass, if_pos hi']
      rw [andThen_normal (by rfl), andThen_normal hb.exit, andThen_normal (by rfl)]
      simp only [itemMarks_append, hk.acts.2, List.append_nil, hm, ← List.append_assoc]
      congr 1
      · congr 1
        cases i <;> rfl
      · by_cases hlast : i + 1 = m + 1
        · rw [if_pos hlast, hlast]
          simp [itemMarks]
        · rw [if_neg hlast]
          have : (i + 1 == m + 1) = false := by rw [beq_eq_false_iff_ne]; exact hlast
          rw [this]
          rfl
    rw [h1, flatten_enclosed, ← hm]
    have h2 : ((List.range' 0 (max 1 (leaves b))).map fun i =>
        itemMarks (pass b (Ctx.inSection c id loc) (if leaves b = 0 then none else some i)).1).flatten =
        brackets b := by
      by_cases hz : leaves b = 0
      · have hb := (calm_pass h.1 (Ctx.inSection c id loc) none).acts.2
        have hbr := ihb h.1 (Ctx.inSection c id loc)
        rw [hz] at hbr
        rw [← hbr]
        simp [hz, hb]
      · rw [← ihb h.1 (Ctx.inSection c id loc)]
        have : max 1 (leaves b) = leaves b := by omega
        rw [this]
        simp only [if_neg hz]
    rw [h2]
    have h3 : ((List.range' 0 (leaves k)).map fun i =>
        itemMarks (pass (.sec id loc b k) c (some (max 1 (leaves b) + i))).1).flatten = brackets k := by
      rw [← ihk h.2 c]
      congr 1
      apply List.map_congr_left
      intro i hi
      simp only [pass, if_neg (show ¬ (max 1 (leaves b) + i < max 1 (leaves b)) by omega),
        Nat.add_sub_cancel_left]
    rw [h3]
    simp

/-- The marks of one pass, from the sections. -/
def Spec.Sections.marks : Sections → Nat → List (Nat × Bool)
  | .none, _ => []
  | .one id inner rest, n =>
    if n < max 1 inner.leaves then
      (if n = 0 then [(id, true)] else []) ++ inner.marks n ++
        (if n + 1 = max 1 inner.leaves then [(id, false)] else [])
    else rest.marks (n - max 1 inner.leaves)

theorem Spec.Sections.marks_append (a b : Sections) : ∀ n, (a.append b).marks n =
    if n < a.leaves then a.marks n else b.marks (n - a.leaves) := by
  induction a with
  | none => intro n; simp [Sections.append, Sections.leaves]
  | one id x r _ ih =>
    intro n
    have hl : (Sections.one id x r).leaves = max 1 x.leaves + r.leaves := rfl
    rw [Sections.append, Sections.marks, Sections.marks]
    by_cases h1 : n < max 1 x.leaves
    · rw [if_pos h1, if_pos (show n < (Sections.one id x r).leaves by omega), if_pos h1]
    · rw [if_neg h1, if_neg h1, ih, hl]
      by_cases h2 : n - max 1 x.leaves < r.leaves
      · rw [if_pos h2, if_pos (by omega)]
      · rw [if_neg h2, if_neg (by omega), show n - max 1 x.leaves - r.leaves = n - (max 1 x.leaves + r.leaves) by omega]

theorem marks_sections [MessageLimit] {K : Prog} (h : Calm K) : ∀ c i, i < leaves K →
    itemMarks (pass K c (some i)).1 = (sections K).marks i := by
  induction K with
  | done => intro c i hi; simp [leaves] at hi
  | stmt m k ih =>
    intro c i hi
    obtain ⟨h1, h2, h3, h4⟩ := calm_stmt h.1 c
    rw [pass, andThen_normal h1]
    simp only [itemMarks_append, h4, List.nil_append]
    exact ih h.2 c i hi
  | capture caps k ih => intro c i hi; exact ih h _ i hi
  | tryCatch => exact absurd h (by simp [Calm])
  | nested loc o ask k _ ih =>
    intro c i hi
    have ho := calm_pass h.2.1.1 (Ctx.inside c loc) none
    obtain ⟨h1, h2, h3, h4⟩ := calm_check h.1 c loc ho.exit
    rw [pass, andThen_normal h1]
    simp only [itemMarks_append, h4, ho.acts.2, List.nil_append]
    exact ih h.2.2 c i hi
  | guard cl k _ ih =>
    intro c i hi
    have hc := calm_pass h.1.1 c none
    simp only [pass, anyway, itemMarks_append, hc.acts.2, List.append_nil]
    exact ih h.2 c i hi
  | block b k ihb ihk =>
    intro c i hi
    have hlv : leaves (.block b k) = leaves b + leaves k := rfl
    rw [sections, Sections.marks_append, ← leaves_sections]
    by_cases hi' : i < leaves b
    · have hb := calm_pass h.1 c (some i)
      have hk := (calm_pass h.2 c none).acts
      rw [pass, if_pos hi', andThen_normal hb.exit, if_pos hi', ← ihb h.1 c i hi']
      simp only [itemMarks_append, hk.2, List.append_nil]
    · have hb := calm_pass h.1 c none
      rw [pass, if_neg hi', andThen_normal hb.exit, if_neg hi', ← ihk h.2 c _ (by omega)]
      simp only [itemMarks_append, hb.acts.2, List.nil_append]
  | sec id loc b k ihb ihk =>
    intro c i hi
    have hlv : leaves (.sec id loc b k) = max 1 (leaves b) + leaves k := rfl
    rw [sections, Sections.marks, ← leaves_sections]
    by_cases hi' : i < max 1 (leaves b)
    · have hk := calm_pass h.2 c none
      have hb := calm_pass h.1 (Ctx.inSection c id loc) (if leaves b = 0 then none else some i)
      rw [pass, if_pos hi', if_pos hi', andThen_normal (by rfl), andThen_normal hb.exit, andThen_normal (by rfl)]
      simp only [itemMarks_append, hk.acts.2, List.append_nil, ← List.append_assoc]
      congr 1
      · congr 1
        · cases i <;> rfl
        · by_cases hz : leaves b = 0
          · have hn := (calm_pass h.1 (Ctx.inSection c id loc) none).acts.2
            rw [if_pos hz, hn]
            have : sections b = .none := by
              rw [leaves_sections] at hz
              cases hs : sections b with
              | none => rfl
              | one => rw [hs] at hz; simp [Sections.leaves] at hz
            rw [this]; rfl
          · rw [if_neg hz]
            exact ihb h.1 _ i (by omega)
      · by_cases hlast : i + 1 = max 1 (leaves b)
        · rw [if_pos hlast, hlast]
          simp [itemMarks]
        · rw [if_neg hlast]
          have : (i + 1 == max 1 (leaves b)) = false := by rw [beq_eq_false_iff_ne]; exact hlast
          rw [this]
          rfl
    · rw [pass, if_neg hi', if_neg hi']
      exact ihk h.2 c _ (by omega)

end Verif.Run
