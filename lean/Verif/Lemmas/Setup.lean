import Verif.Spec.Setup
import Verif.Lemmas.CaseLog
import Verif.Lemmas.Places
/-! # Lemmas for C103 -/
namespace Verif.Run.Setup
open Verif.Run Verif.Run.Spec

variable [MessageLimit]

/-! ## What is said -/

def say : Item → Option Said
  | .act a => some (.did a)
  | .assertion ok ctx d => some (.checked ok ctx.caps d)
  | .skip ctx msg => some (.skipped ctx.caps msg)
  | _ => none

def brief : Exit → Option (Exn × List Text)
  | .normal => none
  | .raised e a => some (e, a.caps)

/-- Two executions say the same and end alike. -/
def Sim (x y : List Item × Exit) : Prop := x.1.filterMap say = y.1.filterMap say ∧ brief x.2 = brief y.2

omit [MessageLimit] in
theorem Sim.refl (x : List Item × Exit) : Sim x x := ⟨rfl, rfl⟩

omit [MessageLimit] in
theorem Sim.trans {x y z : List Item × Exit} (h : Sim x y) (k : Sim y z) : Sim x z := ⟨h.1.trans k.1, h.2.trans k.2⟩

omit [MessageLimit] in
theorem sim_normal {l l' : List Item} {e : Exit} (h : Sim (l, .normal) (l', e)) : e = .normal := by
  cases e with
  | normal => rfl
  | raised e a => have := h.2; cases this

omit [MessageLimit] in
theorem sim_raised {l l' : List Item} {e : Exn} {a : Ctx} {x : Exit} (h : Sim (l, .raised e a) (l', x)) :
    ∃ b, x = .raised e b ∧ b.caps = a.caps := by
  cases x with
  | normal => have := h.2; cases this
  | raised e' b =>
    have := h.2
    simp only [brief, Option.some.injEq, Prod.mk.injEq] at this
    obtain ⟨rfl, hb⟩ := this
    exact ⟨b, rfl, hb.symm⟩

omit [MessageLimit] in
theorem sim_andThen {x x' y y' : List Item × Exit} (hx : Sim x x') (hy : Sim y y') : Sim (andThen x y) (andThen x' y') := by
  obtain ⟨l, e⟩ := x
  obtain ⟨l', e'⟩ := x'
  cases e with
  | normal =>
    obtain rfl := sim_normal hx
    refine ⟨?_, hy.2⟩
    simp only [andThen, List.filterMap_append]
    rw [show l.filterMap say = l'.filterMap say from hx.1, hy.1]
  | raised e a =>
    obtain ⟨b, rfl, hb⟩ := sim_raised hx
    exact hx

omit [MessageLimit] in
theorem sim_anyway {x x' y y' : List Item × Exit} (hx : Sim x x') (hy : Sim y y') : Sim (anyway x y) (anyway x' y') := by
  refine ⟨?_, hx.2⟩
  simp only [anyway, List.filterMap_append, hx.1, hy.1]

omit [MessageLimit] in
theorem sim_assertedAt {p p' c c' : Ctx} (hp : p.caps = p'.caps) (hc : c.caps = c'.caps) (loc : Nat) (ok abort : Bool) (d : Text) :
    Sim (assertedAt p c loc ok abort d) (assertedAt p' c' loc ok abort d) := by
  unfold assertedAt
  refine ⟨by simp [say, hp], ?_⟩
  dsimp only
  split
  · simp [brief, Ctx.inside, hc]
  · rfl

theorem sim_stmt {c c' : Ctx} (hc : c.caps = c'.caps) (m : Stmt) : Sim (passStmt c m) (passStmt c' m) := by
  cases m with
  | act a => exact .refl _
  | notify => exact .refl _
  | throw e => exact ⟨rfl, by simp [passStmt, brief, hc]⟩
  | check loc ev abort data =>
    cases ev with
    | val ok => exact sim_assertedAt (by exact hc) hc ..
    | exc e => exact ⟨rfl, by simp [passStmt, brief, Ctx.inside, hc]⟩
  | skip loc abort msg =>
    refine ⟨by simp [passStmt, say, Ctx.exactly, hc], ?_⟩
    cases abort
    · rfl
    · simp [passStmt, brief, Ctx.inside, hc]
  | throwsAs => exact sim_assertedAt (by exact hc) hc ..
  | throwsMatches => exact sim_assertedAt (by exact hc) hc ..
  | nothrow => exact sim_assertedAt (by exact hc) hc ..

omit [MessageLimit] in
theorem caps_placeAfter (c : Ctx) (loc : Nat) (l : List Item) : (placeAfter c loc l).caps = c.caps := by
  unfold placeAfter
  split <;> rfl

omit [MessageLimit] in
theorem brief_thrown {x y : Exit} (h : brief x = brief y) : x.thrown = y.thrown := by
  cases x <;> cases y <;> simp_all [brief, Exit.thrown]

theorem sim_check {c c' : Ctx} (hc : c.caps = c'.caps) (loc : Nat) (a : Ask) {x y : List Item × Exit} (h : Sim x y) :
    Sim (check c loc a x) (check c' loc a y) := by
  have key : Sim (answered (placeAfter c loc x.1) c loc a x.2) (answered (placeAfter c' loc y.1) c' loc a y.2) := by
    have hp : (placeAfter c loc x.1).caps = (placeAfter c' loc y.1).caps := by rw [caps_placeAfter, caps_placeAfter, hc]
    have ht := brief_thrown h.2
    cases a with
    | check ok abort data =>
      obtain ⟨l, e⟩ := x
      obtain ⟨l', e'⟩ := y
      cases e with
      | normal =>
        obtain rfl := sim_normal h
        exact sim_assertedAt hp hc ..
      | raised e a =>
        obtain ⟨b, rfl, hb⟩ := sim_raised h
        exact ⟨rfl, by simp [answered, brief, hb]⟩
    | throwsAs => simp only [answered, ht]; exact sim_assertedAt hp hc ..
    | throwsMatches => simp only [answered, ht]; exact sim_assertedAt hp hc ..
    | nothrow => simp only [answered, ht]; exact sim_assertedAt hp hc ..
  refine ⟨?_, key.2⟩
  simp only [check, List.filterMap_append]
  rw [h.1, key.1]

/-- Code says the same at every place with the same captures. -/
theorem sim_pass : ∀ (K : Prog) {c c' : Ctx}, c.caps = c'.caps → ∀ w, Sim (pass K c w) (pass K c' w)
  | .done, _, _, _, _ => .refl _
  | .stmt m k, _, _, h, w => sim_andThen (sim_stmt h m) (sim_pass k h w)
  | .sec _ _ _ k, _, _, h, none => sim_pass k h none
  | .sec id loc b k, c, c', h, some n => by
    simp only [pass]
    split
    · exact sim_andThen (.refl _) (sim_andThen (sim_pass b (by exact h) _) (sim_andThen (.refl _) (sim_pass k h none)))
    · exact sim_pass k h _
  | .capture caps k, _, _, h, w => sim_pass k (by simp only [h]) w
  | .block b k, _, _, h, none => sim_andThen (sim_pass b h none) (sim_pass k h none)
  | .block b k, _, _, h, some n => by
    simp only [pass]
    split
    · exact sim_andThen (sim_pass b h _) (sim_pass k h _)
    · exact sim_andThen (sim_pass b h _) (sim_pass k h _)
  | .tryCatch type b hd k, c, c', h, w => by
    have hb := sim_pass b h none
    simp only [pass]
    obtain ⟨⟨l, e⟩, hx⟩ : ∃ x, pass b c none = x := ⟨_, rfl⟩
    obtain ⟨⟨l', e'⟩, hy⟩ : ∃ x, pass b c' none = x := ⟨_, rfl⟩
    rw [hx, hy] at hb ⊢
    cases e with
    | normal =>
      obtain rfl := sim_normal hb
      exact sim_andThen hb (sim_pass k h w)
    | raised e a =>
      obtain ⟨a', rfl, _⟩ := sim_raised hb
      dsimp only
      split
      · exact sim_andThen ⟨hb.1, rfl⟩ (sim_andThen (sim_pass hd h none) (sim_pass k h w))
      · exact hb
  | .nested loc o ask k, _, _, h, w => sim_andThen (sim_check h loc ask (sim_pass o (by exact h) none)) (sim_pass k h w)
  | .guard cl k, _, _, h, w => sim_anyway (sim_pass k h w) (sim_pass cl h none)

/-! ## One execution -/

theorem pass_block {setup : Prog} (h : leaves setup = 0) (k : Prog) (c : Ctx) (w : Option Nat) :
    pass (.block setup k) c w = andThen (pass setup c none) (pass k c w) := by
  cases w with
  | none => rfl
  | some n => simp only [pass, h, Nat.not_lt_zero, if_false, Nat.sub_zero]

omit [MessageLimit] in
theorem andThen_assoc (x y z : List Item × Exit) : andThen (andThen x y) z = andThen x (andThen y z) := by
  obtain ⟨l, e⟩ := x
  obtain ⟨l', e'⟩ := y
  cases e <;> cases e' <;> simp [andThen]

omit [MessageLimit] in
/-- What says nothing can come before or after. -/
theorem sim_silent {i : Item} (hi : say i = none) {x x' y : List Item × Exit} (hx : Sim x x') :
    Sim (andThen x (andThen ([i], .normal) y)) (andThen ([i], .normal) (andThen x' y)) := by
  obtain ⟨l, e⟩ := x
  obtain ⟨l', e'⟩ := x'
  cases e with
  | normal =>
    obtain rfl := sim_normal hx
    have h1 : l.filterMap say = l'.filterMap say := hx.1
    refine ⟨?_, rfl⟩
    simp [andThen, hi, h1]
  | raised e a =>
    obtain ⟨b, rfl, hb⟩ := sim_raised hx
    have h1 : l.filterMap say = l'.filterMap say := hx.1
    refine ⟨?_, ?_⟩
    · simp [andThen, hi, h1]
    · simp [andThen, brief, hb]

theorem pass_none (k : Prog) : ∀ (l : List Sec) (c : Ctx), pass (sectionsThen l k) c none = pass k c none
  | [], _ => rfl
  | _ :: l, c => pass_none k l c

omit [MessageLimit] in
theorem leaves_sectionsThen {setup : Prog} (h : leaves setup = 0) (k : Prog) : ∀ l : List Sec,
    leaves (sectionsThen (l.map fun s => { s with body := .block setup s.body }) k) = leaves (sectionsThen l k)
  | [] => rfl
  | s :: l => by simp only [List.map_cons, sectionsThen, leaves, h, Nat.zero_add, leaves_sectionsThen h k l]

/-- One execution. -/
theorem sim_sections {setup k : Prog} (h : leaves setup = 0) (hk : leaves k = 0) : ∀ (l : List Sec) (c : Ctx) (n : Nat),
    n < leaves (sectionsThen l k) →
    Sim (andThen (pass setup c none) (pass (sectionsThen l k) c (some n)))
      (pass (sectionsThen (l.map fun s => { s with body := .block setup s.body }) k) c (some n))
  | [], c, n, hn => by simp [sectionsThen, hk] at hn
  | s :: l, c, n, hn => by
    have hb : leaves (.block setup s.body) = leaves s.body := by simp only [leaves, h, Nat.zero_add]
    simp only [List.map_cons, sectionsThen, pass, hb, pass_none, pass_block h]
    by_cases hlt : n < max 1 (leaves s.body)
    · simp only [hlt, if_true]
      rw [andThen_assoc]
      exact sim_silent rfl (sim_pass setup (by rfl) none)
    · simp only [hlt, if_false]
      refine sim_sections h hk l c _ ?_
      simp only [sectionsThen, leaves] at hn
      omega

/-- Execution number `n` of the two tests. -/
theorem sim_passNo {setup k : Prog} (h : leaves setup = 0) (hk : leaves k = 0) {l : List Sec} (hl : l ≠ []) (c : Ctx) {n : Nat}
    (hn : n < passCount (before setup l k)) : Sim (passNo (before setup l k) c n) (passNo (within setup l k) c n) := by
  have e1 : leaves (before setup l k) = leaves (sectionsThen l k) := by simp only [before, leaves, h, Nat.zero_add]
  have hpos : 0 < leaves (sectionsThen l k) := by
    cases l with
    | nil => exact absurd rfl hl
    | cons s l => simp only [sectionsThen, leaves]; omega
  have e2 : leaves (within setup l k) = leaves (sectionsThen l k) := leaves_sectionsThen h k l
  unfold passCount at hn
  rw [e1] at hn
  unfold passNo
  rw [e1, e2, if_neg (by omega)]
  unfold before
  rw [pass_block h]
  exact sim_sections h hk l c n (by omega)

/-! ## The whole test -/

def skipsSaid : List Said → Bool
  | [] => false
  | .skipped .. :: _ => true
  | .checked false .. :: _ => false
  | _ :: l => skipsSaid l

def isChecked : Said → Bool
  | .checked .. => true
  | _ => false

def isFailed : Said → Bool
  | .checked ok .. => !ok
  | _ => false

def effectiveSaid : List Said → List Said
  | [] => []
  | .skipped c m :: l => .skipped c m :: l.filter (fun y => !isChecked y)
  | .checked false c d :: l => .checked false c d :: l
  | x :: l => x :: effectiveSaid l

omit [MessageLimit] in
theorem skipsTest_said : ∀ l : List Item, skipsTest l = skipsSaid (l.filterMap say)
  | [] => rfl
  | x :: l => by
    have ih := skipsTest_said l
    cases x with
    | assertion ok c d => cases ok <;> simp [skipsTest, Item.isSkip, Item.isFailure, say, skipsSaid, ih]
    | skip c m => rfl
    | act a => exact ih
    | enter id f => exact ih
    | leave id f => exact ih
    | interrupted loc => exact ih

omit [MessageLimit] in
theorem any_said : ∀ l : List Item, l.any Item.isFailure = (l.filterMap say).any isFailed
  | [] => rfl
  | x :: l => by
    have ih := any_said l
    cases x <;> simp [Item.isFailure, say, isFailed, ih]

omit [MessageLimit] in
theorem filter_said : ∀ l : List Item,
    (l.filter fun y => !y.isAssertion).filterMap say = (l.filterMap say).filter fun y => !isChecked y
  | [] => rfl
  | x :: l => by
    have ih := filter_said l
    cases x with
    | assertion ok c d => exact ih
    | skip c m => exact congrArg _ ih
    | act a => exact congrArg _ ih
    | enter id f => exact ih
    | leave id f => exact ih
    | interrupted loc => exact ih

omit [MessageLimit] in
theorem effective_said : ∀ l : List Item, (effective l).filterMap say = effectiveSaid (l.filterMap say)
  | [] => rfl
  | x :: l => by
    have ih := effective_said l
    cases x with
    | assertion ok c d => cases ok <;> simp [effective, Item.isSkip, Item.isFailure, say, effectiveSaid, ih]
    | skip c m =>
      simp only [effective, Item.isSkip, if_true, List.filterMap_cons, say, effectiveSaid]
      rw [filter_said]
    | act a => exact congrArg _ ih
    | enter id f => exact ih
    | leave id f => exact ih
    | interrupted loc => exact ih

/-- What is seen at a verbosity. -/
def seenAt (v : Nat) : Said → Bool
  | .checked true .. => decide (3 ≤ v)
  | _ => true

omit [MessageLimit] in
theorem visible_said (v : Nat) : ∀ l : List Item, (l.filter (Item.visible v)).filterMap say = (l.filterMap say).filter (seenAt v)
  | [] => rfl
  | x :: l => by
    have ih := visible_said v l
    rw [List.filter_cons]
    cases x with
    | assertion ok c d =>
      cases ok
      · simp [Item.visible, Item.reported, Item.level, say, seenAt, ih, List.filter_cons]
      · by_cases hv : 3 ≤ v <;> simp [Item.visible, Item.reported, Item.level, say, seenAt, ih, hv]
    | enter id f => split <;> exact ih
    | leave id f => split <;> exact ih
    | interrupted loc => split <;> exact ih
    | act a => exact congrArg _ ih
    | skip c m => exact congrArg _ ih

/-- The executions one after the other. -/
theorem sim_story {b b' : Nat → Prog} {c : Ctx} {m : Nat} (h : ∀ n, n < m → Sim (passNo (b n) c n) (passNo (b' n) c n)) :
    ∀ k n seen seen', n + k = m → seen.filterMap say = seen'.filterMap say →
      Sim (story b c k n seen).1 (story b' c k n seen').1
  | 0, _, _, _, _, hs => ⟨hs, rfl⟩
  | k + 1, n, seen, seen', hm, hs => by
    have hn := h n (by omega)
    obtain ⟨⟨l, e⟩, hx⟩ : ∃ x, passNo (b n) c n = x := ⟨_, rfl⟩
    obtain ⟨⟨l', e'⟩, hy⟩ : ∃ x, passNo (b' n) c n = x := ⟨_, rfl⟩
    rw [hx, hy] at hn
    have hl : (seen ++ l).filterMap say = (seen' ++ l').filterMap say := by
      rw [List.filterMap_append, List.filterMap_append, hs, show l.filterMap say = l'.filterMap say from hn.1]
    cases e with
    | raised e a =>
      obtain ⟨a', rfl, ha⟩ := sim_raised hn
      simp only [story, hx, hy]
      exact ⟨hl, by simp [brief, ha]⟩
    | normal =>
      obtain rfl := sim_normal hn
      simp only [story, hx, hy]
      rw [skipsTest_said, skipsTest_said, hl]
      split
      · exact ⟨hl, rfl⟩
      · exact sim_story h k (n + 1) _ _ (by omega) hl

theorem said_ending (loc : Nat) {x y : Exit} (h : brief x = brief y) :
    (ending loc x).filterMap say = (ending loc y).filterMap say := by
  have hl : ∀ l : List Nat, (l.map fun id => Item.leave id true).filterMap say = [] := by
    intro l
    induction l with
    | nil => rfl
    | cons i l ih => simp only [List.map_cons, List.filterMap_cons, say, ih]
  cases x with
  | normal =>
    cases y with
    | normal => rfl
    | raised e a => cases h
  | raised e a =>
    cases y with
    | normal => cases h
    | raised e' a' =>
      simp only [brief, Option.some.injEq, Prod.mk.injEq] at h
      obtain ⟨rfl, h⟩ := h
      simp only [ending, List.filterMap_append, hl, List.append_nil]
      split
      · rfl
      · simp [say, h]

omit [MessageLimit] in
theorem same_passCount {setup k : Prog} (h : leaves setup = 0) (l : List Sec) :
    passCount (within setup l k) = passCount (before setup l k) := by
  unfold passCount within before
  rw [leaves_sectionsThen h]
  simp only [leaves, h, Nat.zero_add]

/-- What happens in the two tests. -/
theorem said_happens {t u : TestCase} (h : SetupTest t u) (ha : Alike t.body) :
    (happens t).filterMap say = (happens u).filterMap say := by
  have hcount : passCount u.body.first = passCount t.body.first := by
    obtain ⟨setup, l, k, h1, _, _, h4, h5⟩ := h.body 0
    have e1 : t.body.first = before setup l k := h4
    have e2 : u.body.first = within setup l k := h5
    rw [e1, e2, same_passCount h1]
  have hs := sim_story (b := t.body.no) (b' := u.body.no) (c := topCtx t.loc) (m := passCount t.body.first) (by
    intro n hn
    have hc : passCount (t.body.no n) = passCount t.body.first := same_count (ha n)
    obtain ⟨setup, l, k, h1, h2, h3, h4, h5⟩ := h.body n
    rw [h4] at hc
    rw [h4, h5]
    exact sim_passNo h1 h2 h3 _ (by rw [hc]; exact hn)) (passCount t.body.first) 0 [] [] (by omega) rfl
  unfold happens
  simp only [List.filterMap_append]
  rw [hcount, h.loc, hs.1, said_ending _ hs.2]

/-- What is said about the two tests. -/
theorem said_case {t u : TestCase} (h : SetupTest t u) (ha : Alike t.body) (b : Bool) :
    (caseStory t b).filterMap say = (caseStory u b).filterMap say := by
  have hh := said_happens h ha
  have e : ∀ t : TestCase, caseStory t b = effective (happens t ++ if b then
    [.assertion ((happens t).any Item.isFailure) (Ctx.exactly (topCtx t.loc) t.loc)
      "expected test to fail".toList] else []) := fun _ => rfl
  rw [e, e, effective_said, effective_said, List.filterMap_append, List.filterMap_append, hh, any_said, any_said, hh]
  congr 2
  cases b <;> rfl

omit [MessageLimit] in
theorem said_observed (log : List Event) : said log = (log.filterMap observed).filterMap say := by
  rw [List.filterMap_filterMap]
  unfold said
  congr 1
  funext e
  cases e <;> rfl

theorem verdict_said {t u : TestCase} (h : (happens t).filterMap say = (happens u).filterMap say) (ts : List Text) :
    verdictOf t ts = verdictOf u ts := by
  unfold verdictOf
  simp only [skipsTest_said, any_said, h]

end Verif.Run.Setup
