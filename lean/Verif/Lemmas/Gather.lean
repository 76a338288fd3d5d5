import Verif.Spec.Gather
import Verif.Lemmas.Separate
/-! # Lemmas for C101 -/
namespace Verif.Run.Gather
open Verif.Run Verif.Run.Spec Verif.Run.Separate

variable [MessageLimit]

/-! ## The code of a test does the same at another place -/

def moveItem (p : Part) : Item → Item
  | .assertion ok c d => .assertion ok (p.place c) d
  | .skip c m => .skip (p.place c) m
  | x => x

def moveExit (p : Part) : Exit → Exit
  | .normal => .normal
  | .raised e a => .raised e (p.place a)

def move (p : Part) (x : List Item × Exit) : List Item × Exit := (x.1.map (moveItem p), moveExit p x.2)

omit [MessageLimit] in
theorem place_inSection (p : Part) (c : Ctx) (id loc : Nat) : p.place (Ctx.inSection c id loc) = Ctx.inSection (p.place c) id loc := by
  simp [Part.place, Ctx.inSection]

omit [MessageLimit] in
theorem place_inside (p : Part) (c : Ctx) (loc : Nat) : p.place (Ctx.inside c loc) = Ctx.inside (p.place c) loc := by
  simp [Part.place, Ctx.inside]

omit [MessageLimit] in
theorem place_exactly (p : Part) (c : Ctx) (loc : Nat) : p.place (Ctx.exactly c loc) = Ctx.exactly (p.place c) loc := by
  simp [Part.place, Ctx.exactly]

omit [MessageLimit] in
theorem place_top (p : Part) (l l' : Nat) : p.place (topCtx l) = Ctx.inSection (topCtx l') p.id p.loc := by
  simp [Part.place, topCtx, Ctx.inSection]

omit [MessageLimit] in
theorem move_andThen (p : Part) (x y : List Item × Exit) : move p (andThen x y) = andThen (move p x) (move p y) := by
  obtain ⟨l, e⟩ := x
  cases e <;> simp [move, andThen, moveExit]

omit [MessageLimit] in
theorem move_anyway (p : Part) (x y : List Item × Exit) : move p (anyway x y) = anyway (move p x) (move p y) := by
  simp [move, anyway]

omit [MessageLimit] in
theorem move_assertedAt (p : Part) (q c : Ctx) (loc : Nat) (ok abort : Bool) (d : Text) :
    move p (assertedAt q c loc ok abort d) = assertedAt (p.place q) (p.place c) loc ok abort d := by
  unfold assertedAt move
  rw [← place_inside]
  split <;> rfl

theorem move_stmt (p : Part) (c : Ctx) (m : Stmt) : move p (passStmt c m) = passStmt (p.place c) m := by
  cases m with
  | check loc ev abort data =>
    cases ev with
    | val ok => simp only [passStmt, asserted, move_assertedAt, place_exactly]
    | exc e => simp only [passStmt, ← place_inside]; rfl
  | skip loc abort msg =>
    simp only [passStmt, ← place_inside, ← place_exactly]
    cases abort <;> rfl
  | throwsAs => simp only [passStmt, asserted, move_assertedAt, place_exactly]
  | throwsMatches => simp only [passStmt, asserted, move_assertedAt, place_exactly]
  | nothrow => simp only [passStmt, asserted, move_assertedAt, place_exactly]
  | _ => rfl

omit [MessageLimit] in
theorem thrown_move (p : Part) (x : Exit) : (moveExit p x).thrown = x.thrown := by cases x <;> rfl

theorem move_answered (p : Part) (q c : Ctx) (loc : Nat) (a : Ask) (x : Exit) :
    move p (answered q c loc a x) = answered (p.place q) (p.place c) loc a (moveExit p x) := by
  cases a with
  | check ok abort data =>
    cases x with
    | normal => exact move_assertedAt ..
    | raised e a => rfl
  | _ => simp only [answered, thrown_move, move_assertedAt]

omit [MessageLimit] in
theorem place_after (p : Part) (c : Ctx) (loc : Nat) (l : List Item) :
    p.place (placeAfter c loc l) = placeAfter (p.place c) loc (l.map (moveItem p)) := by
  have : (l.map (moveItem p)).any Item.isMacro = l.any Item.isMacro := by
    rw [List.any_map]
    congr 1
    funext x
    cases x <;> rfl
  unfold placeAfter
  rw [this]
  split
  · exact place_inside ..
  · exact place_exactly ..

theorem move_check (p : Part) (c : Ctx) (loc : Nat) (a : Ask) (x : List Item × Exit) :
    move p (check c loc a x) = check (p.place c) loc a (move p x) := by
  have h := move_answered p (placeAfter c loc x.1) c loc a x.2
  rw [place_after] at h
  have h1 := congrArg Prod.fst h
  have h2 := congrArg Prod.snd h
  unfold check
  simp only [move] at h1 h2 ⊢
  simp only [List.map_append, h1, h2]

theorem move_pass (p : Part) : ∀ (K : Prog) (c : Ctx) (w : Option Nat), pass K (p.place c) w = move p (pass K c w)
  | .done, _, _ => rfl
  | .stmt m k, c, w => by simp only [pass, move_andThen, move_stmt, move_pass p k]
  | .sec _ _ _ k, c, none => by simp only [pass, move_pass p k]
  | .sec id loc b k, c, some n => by
    simp only [pass]
    split
    · simp only [move_andThen, ← place_inSection, move_pass p b, move_pass p k]
      rfl
    · exact move_pass p k _ _
  | .capture caps k, c, w => move_pass p k { c with caps := c.caps ++ caps } w
  | .block b k, c, none => by simp only [pass, move_andThen, move_pass p b, move_pass p k]
  | .block b k, c, some n => by
    simp only [pass]
    split <;> simp only [move_andThen, move_pass p b, move_pass p k]
  | .tryCatch type b h k, c, w => by
    simp only [pass, move_pass p b]
    obtain ⟨⟨l, e⟩, hx⟩ : ∃ x, pass b c none = x := ⟨_, rfl⟩
    rw [hx]
    cases e with
    | normal =>
      simp only [move, moveExit]
      rw [move_pass p k]
      exact (move_andThen p (l, .normal) _).symm
    | raised e a =>
      simp only [move, moveExit]
      split
      · rw [move_pass p k, move_pass p h]
        rw [← move_andThen]
        exact (move_andThen p (l, .normal) _).symm
      · rfl
  | .nested loc o ask k, c, w => by
    simp only [pass, move_andThen, move_check, ← place_inside, move_pass p o, move_pass p k]
  | .guard cl k, c, w => by simp only [pass, move_anyway, move_pass p cl, move_pass p k]

/-! ## Executions one after the other -/

/-- One after the other, up to the first that throws. -/
def chain : List (List Item × Exit) → List Item × Exit
  | [] => ([], .normal)
  | x :: l => andThen x (chain l)

omit [MessageLimit] in
theorem andThen_nil (x : List Item × Exit) : andThen ([], .normal) x = x := rfl

omit [MessageLimit] in
theorem andThen_assoc (x y z : List Item × Exit) : andThen (andThen x y) z = andThen x (andThen y z) := by
  obtain ⟨l, e⟩ := x
  obtain ⟨l', e'⟩ := y
  cases e <;> cases e' <;> simp [andThen]

omit [MessageLimit] in
theorem chain_append : ∀ a b : List (List Item × Exit), chain (a ++ b) = andThen (chain a) (chain b)
  | [], _ => rfl
  | x :: a, b => by simp only [List.cons_append, chain, chain_append a b, andThen_assoc]

/-- The executions of a test. -/
def runs (bodies : Nat → Prog) (c : Ctx) (n k : Nat) : List (List Item × Exit) :=
  (List.range' n k).map fun i => passNo (bodies i) c i

theorem story_chain {bodies : Nat → Prog} (h : ∀ n, NoSkip (bodies n)) (c : Ctx) : ∀ k n seen, seen.any Item.isSkip = false →
    (story bodies c k n seen).1 = (seen ++ (chain (runs bodies c n k)).1, (chain (runs bodies c n k)).2) := by
  intro k
  induction k with
  | zero => intro n seen _; simp [story, runs, chain]
  | succ k ih =>
    intro n seen hs
    have hg : Separate.Good (passNo (bodies n) c n) := good_pass _ (h n) c _
    have hr : chain (runs bodies c n (k + 1)) = andThen (passNo (bodies n) c n) (chain (runs bodies c (n + 1) k)) := by
      simp only [runs, List.range'_succ, List.map_cons, chain]
    obtain ⟨⟨l, e⟩, hx⟩ : ∃ x, passNo (bodies n) c n = x := ⟨_, rfl⟩
    rw [hr, hx]
    rw [hx] at hg
    cases e with
    | raised e a => simp only [story, hx, andThen]
    | normal =>
      have hsl : (seen ++ l).any Item.isSkip = false := by
        rw [List.any_append, hs, show l.any Item.isSkip = false from hg]; rfl
      simp only [story, hx, skipsTest_none hsl, Bool.false_eq_true, if_false, andThen]
      rw [ih _ _ hsl, List.append_assoc]

/-- What a test does. -/
def whole (t : TestCase) : List Item × Exit := chain (runs t.body.no (topCtx t.loc) 0 (passCount t.body.first))

theorem happens_whole {t : TestCase} (hs : Always NoSkip t.body) :
    happens t = (whole t).1 ++ ending t.loc (whole t).2 := by
  unfold happens
  rw [story_chain hs _ _ _ _ rfl]
  rfl

theorem stopped_whole {t : TestCase} (hs : Always NoSkip t.body) : stopped t ↔ (whole t).2 ≠ .normal := by
  unfold stopped
  rw [story_chain hs _ _ _ _ rfl]
  rfl

/-! ## The executions of the gathered test -/

/-- The execution of a test as a section. -/
def framed (p : Part) (n : Nat) : List Item × Exit :=
  andThen ([.enter p.id (n == 0)], .normal)
    (andThen (move p (passNo (p.test.body.no n) (topCtx p.test.loc) n))
      ([.leave p.id (n + 1 == passCount p.test.body.first)], .normal))

/-- What the test does as a section. -/
def asSection (p : Part) : List Item × Exit := chain ((List.range (passCount p.test.body.first)).map (framed p))

theorem pass_none_gather : ∀ (ps : List Part) (c : Ctx) (n : Nat), pass (gather ps n) c none = ([], .normal)
  | [], _, _ => rfl
  | _ :: ps, c, _ => pass_none_gather ps c _

omit [MessageLimit] in
theorem leaves_gather : ∀ (ps : List Part), (∀ p ∈ ps, Alike p.test.body) → ∀ n,
    leaves (gather ps n) = (ps.map fun p => passCount p.test.body.first).sum
  | [], _, _ => rfl
  | p :: ps, h, n => by
    have := same_count (h p (List.mem_cons_self ..) n)
    unfold passCount at this
    simp only [gather, leaves, List.map_cons, List.sum_cons]
    rw [leaves_gather ps fun q hq => h q (List.mem_cons_of_mem _ hq)]
    unfold passCount
    rw [← this]

/-- The executions of the gathered test, from the one on which enters the first of the sections. -/
theorem runs_gather (loc : Nat) : ∀ (ps : List Part), (∀ p ∈ ps, Alike p.test.body) →
    (List.range (ps.map fun p => passCount p.test.body.first).sum).map (fun n => pass (gather ps n) (topCtx loc) (some n)) =
      ps.flatMap fun p => (List.range (passCount p.test.body.first)).map (framed p)
  | [], _ => rfl
  | p :: ps, h => by
    have hp := h p (List.mem_cons_self ..)
    have hc : ∀ n, max 1 (leaves (p.test.body.no n)) = passCount p.test.body.first := fun n => same_count (hp n)
    rw [List.map_cons, List.sum_cons, List.range_add, List.map_append, List.flatMap_cons, List.map_map,
      ← runs_gather loc ps fun q hq => h q (List.mem_cons_of_mem _ hq)]
    congr 1
    · refine List.map_congr_left fun n hn => ?_
      have hn := List.mem_range.1 hn
      simp only [gather, pass, hc, hn, if_true, pass_none_gather]
      rw [← place_top p p.test.loc loc, move_pass]
      simp only [framed, passNo]
      rfl
    · refine List.map_congr_left fun n _ => ?_
      simp only [Function.comp, gather, pass, hc]
      rw [if_neg (by omega), Nat.add_sub_cancel_left]

omit [MessageLimit] in
theorem passCount_gather {ps : List Part} (h : ∀ p ∈ ps, Alike p.test.body) (hne : ps ≠ []) (n : Nat) :
    leaves (gather ps n) = passCount (gather ps n) ∧ 0 < leaves (gather ps n) := by
  have : 0 < leaves (gather ps n) := by
    cases ps with
    | nil => exact absurd rfl hne
    | cons p ps => simp only [gather, leaves]; omega
  unfold passCount
  omega

omit [MessageLimit] in
theorem chain_flatMap {α : Type} (f : α → List (List Item × Exit)) : ∀ l : List α, chain (l.flatMap f) = chain (l.map fun a => chain (f a))
  | [] => rfl
  | a :: l => by rw [List.flatMap_cons, chain_append, List.map_cons, chain, chain_flatMap f l]

/-- What the gathered test does: the tests as sections, one after the other. -/
theorem whole_gather {t : TestCase} {ps : List Part} (hg : ∀ n, t.body.no n = gather ps n) (h : ∀ p ∈ ps, Alike p.test.body)
    (hne : ps ≠ []) : whole t = chain (ps.map asSection) := by
  have h0 : t.body.first = gather ps 0 := hg 0
  have e1 : whole t = chain ((List.range (ps.map fun p => passCount p.test.body.first).sum).map
      fun n => pass (gather ps n) (topCtx t.loc) (some n)) := by
    unfold whole runs
    rw [h0, ← (passCount_gather h hne 0).1, leaves_gather ps h, ← List.range_eq_range']
    congr 1
    refine List.map_congr_left fun n _ => ?_
    rw [hg]
    unfold passNo
    rw [if_neg (by have := (passCount_gather h hne n).2; omega)]
  rw [e1, runs_gather t.loc ps h, chain_flatMap]
  rfl

/-! ## What matters of it -/

omit [MessageLimit] in
theorem dl_move (v : Nat) (p : Part) (l : List Item) : dl v (l.map (moveItem p)) = (dl v l).map p.deed := by
  induction l with
  | nil => rfl
  | cons x l ih =>
    rw [List.map_cons, ← List.singleton_append, dl_append, ih, ← List.singleton_append (l := l), dl_append, List.map_append]
    congr 1
    cases x with
    | assertion ok c d =>
      cases ok
      · rfl
      · simp [dl, moveItem, Item.visible, Item.reported, Item.level, List.filter_cons]
        split <;> rfl
    | act a => rfl
    | enter id f => cases f <;> simp [dl, moveItem, Item.visible, Item.reported, Item.level, List.filter_cons] <;> split <;> rfl
    | leave id f => cases f <;> simp [dl, moveItem, Item.visible, Item.reported, Item.level, List.filter_cons] <;> split <;> rfl
    | skip c m => rfl
    | interrupted loc => rfl

omit [MessageLimit] in
theorem dl_enter (v id : Nat) (f : Bool) : dl v [.enter id f] = [] := by
  simp only [dl, List.filter_cons]
  split <;> rfl

omit [MessageLimit] in
theorem dl_leave (v id : Nat) (f : Bool) : dl v [.leave id f] = [] := by
  simp only [dl, List.filter_cons]
  split <;> rfl

theorem dl_framed (v : Nat) (p : Part) (n : Nat) :
    dl v (framed p n).1 = (dl v (passNo (p.test.body.no n) (topCtx p.test.loc) n).1).map p.deed ∧
    (framed p n).2 = moveExit p (passNo (p.test.body.no n) (topCtx p.test.loc) n).2 := by
  obtain ⟨⟨l, e⟩, hx⟩ : ∃ x, passNo (p.test.body.no n) (topCtx p.test.loc) n = x := ⟨_, rfl⟩
  simp only [framed, hx, move]
  cases e with
  | normal =>
    simp only [andThen, moveExit]
    rw [dl_append, dl_append, dl_enter, dl_leave, dl_move]
    simp
  | raised e a =>
    simp only [andThen, moveExit]
    rw [dl_append, dl_enter, dl_move]
    simp

omit [MessageLimit] in
/-- What matters of executions one after the other. -/
theorem dl_chain (v : Nat) (p : Part) {α : Type} (f g : α → List Item × Exit)
    (h : ∀ a, dl v (f a).1 = (dl v (g a).1).map p.deed ∧ (f a).2 = moveExit p (g a).2) : ∀ l : List α,
    dl v (chain (l.map f)).1 = (dl v (chain (l.map g)).1).map p.deed ∧ (chain (l.map f)).2 = moveExit p (chain (l.map g)).2
  | [] => ⟨rfl, rfl⟩
  | a :: l => by
    obtain ⟨i1, i2⟩ := dl_chain v p f g h l
    obtain ⟨h1, h2⟩ := h a
    obtain ⟨⟨x, e⟩, hx⟩ : ∃ x, g a = x := ⟨_, rfl⟩
    obtain ⟨⟨y, d⟩, hy⟩ : ∃ x, f a = x := ⟨_, rfl⟩
    rw [hx, hy] at h1 h2
    dsimp only at h1 h2
    subst h2
    simp only [List.map_cons, chain, hx, hy]
    cases e with
    | normal =>
      simp only [andThen, moveExit, dl_append, List.map_append, h1, i1, i2]
      exact ⟨trivial, trivial⟩
    | raised e a => exact ⟨h1, rfl⟩

theorem dl_asSection (v : Nat) (p : Part) :
    dl v (asSection p).1 = (dl v (whole p.test).1).map p.deed ∧ (asSection p).2 = moveExit p (whole p.test).2 := by
  unfold asSection whole runs
  rw [← List.range_eq_range']
  exact dl_chain v p _ _ (dl_framed v p) _

theorem dl_ending (v : Nat) (p : Part) (loc loc' : Nat) (x : Exit) :
    dl v (ending loc' (moveExit p x)) = (dl v (ending loc x)).map p.deed := by
  cases x with
  | normal => rw [dl_ending_normal]; exact dl_ending_normal v loc'
  | raised e a =>
    have hl : ∀ l : List Nat, dl v (l.map fun id => Item.leave id true) = [] := by
      intro l
      induction l with
      | nil => rfl
      | cons i l ih => rw [List.map_cons, ← List.singleton_append, dl_append, ih, dl_leave]; rfl
    simp only [ending, moveExit, dl_append, hl, List.append_nil]
    split <;> rfl

/-- What matters of the gathered test. -/
theorem dl_gather (v loc : Nat) : ∀ ps : List Part, (∀ p ∈ ps, Always NoSkip p.test.body) →
    ∃ before after, ps = before ++ after ∧
      dl v ((chain (ps.map asSection)).1 ++ ending loc (chain (ps.map asSection)).2) =
        before.flatMap (fun p => (dl v (happens p.test)).map p.deed) ∧
      (∀ p ∈ before.dropLast, ¬ stopped p.test) ∧
      (after = [] ∨ ∃ p, before.getLast? = some p ∧ stopped p.test)
  | [], _ => ⟨[], [], rfl, dl_ending_normal v loc, by simp, .inl rfl⟩
  | p :: ps, h => by
    have hp := h p (List.mem_cons_self ..)
    obtain ⟨d1, d2⟩ := dl_asSection v p
    obtain ⟨⟨l, e⟩, hx⟩ : ∃ x, asSection p = x := ⟨_, rfl⟩
    have hh : (dl v (happens p.test)).map p.deed = dl v l ++ dl v (ending loc e) := by
      rw [happens_whole hp, dl_append, List.map_append, ← d1, ← dl_ending v p p.test.loc loc, ← d2, hx]
    have hst := stopped_whole hp
    rw [hx] at d2
    dsimp only at d2
    cases hw : (whole p.test).2 with
    | raised e' a =>
      rw [hw] at d2
      refine ⟨[p], ps, rfl, ?_, by simp, .inr ⟨p, rfl, hst.2 (by rw [hw]; exact fun h => by cases h)⟩⟩
      subst d2
      simp only [List.map_cons, chain, hx, andThen, moveExit, List.flatMap_cons, List.flatMap_nil, List.append_nil, hh, dl_append]
    | normal =>
      rw [hw] at d2
      subst d2
      obtain ⟨before, after, b1, b2, b3, b4⟩ := dl_gather v loc ps fun q hq => h q (List.mem_cons_of_mem _ hq)
      refine ⟨p :: before, after, by rw [b1]; rfl, ?_, ?_, ?_⟩
      · simp only [List.map_cons, chain, hx, andThen, moveExit, List.flatMap_cons, hh, dl_ending_normal, List.append_nil, ← b2]
        rw [List.append_assoc, dl_append]
      · intro q hq
        cases before with
        | nil => cases hq
        | cons b bs =>
          rw [List.dropLast_cons_of_ne_nil (by simp)] at hq
          rcases List.mem_cons.1 hq with rfl | hq
          · exact fun hc => hst.1 hc hw
          · exact b3 q hq
      · rcases b4 with b4 | ⟨q, b4, b5⟩
        · exact .inl b4
        · refine .inr ⟨q, ?_, b5⟩
          cases before with
          | nil => cases b4
          | cons b bs => rw [List.getLast?_cons_cons]; exact b4

/-- Is it a failure? -/
def isFailed : Deed → Bool
  | .did _ => false
  | .failed .. => true

omit [MessageLimit] in
theorem any_dl (v : Nat) (l : List Item) : l.any Item.isFailure = (dl v l).any isFailed := by
  induction l with
  | nil => rfl
  | cons x l ih =>
    rw [← List.singleton_append, dl_append, List.any_append, List.any_append, ih]
    congr 1
    cases x with
    | assertion ok c d =>
      cases ok
      · rfl
      · simp only [dl, List.filter_cons]
        split <;> rfl
    | act a => rfl
    | enter id f => rw [dl_enter]; rfl
    | leave id f => rw [dl_leave]; rfl
    | skip c m => rfl
    | interrupted loc => rfl

omit [MessageLimit] in
theorem any_deed (p : Part) (l : List Deed) : (l.map p.deed).any isFailed = l.any isFailed := by
  rw [List.any_map]
  congr 1
  funext d
  cases d <;> rfl

omit [MessageLimit] in
theorem fair_chain {l : List (List Item × Exit)} (h : ∀ x ∈ l, Fair x) : Fair (chain l) := by
  induction l with
  | nil => exact fair_normal _
  | cons x l ih => exact fair_andThen (h x (List.mem_cons_self ..)) (ih fun y hy => h y (List.mem_cons_of_mem _ hy))

/-- A test ended by an exception has failed. -/
theorem stopped_fails {t : TestCase} (hs : Always NoSkip t.body) (ho : Always OwnThrows t.body) (hst : stopped t) :
    (happens t).any Item.isFailure = true := by
  have hf : Fair (whole t) := by
    refine fair_chain fun x hx => ?_
    obtain ⟨n, _, rfl⟩ := List.mem_map.1 hx
    exact fair_pass _ (hs n) (ho n) _ _
  rw [stopped_whole hs] at hst
  rw [happens_whole hs, List.any_append, Bool.or_eq_true]
  obtain ⟨⟨l, e⟩, hx⟩ : ∃ x, whole t = x := ⟨_, rfl⟩
  rw [hx] at hf hst ⊢
  cases e with
  | normal => exact absurd rfl hst
  | raised e a =>
    cases hab : e.isAbort with
    | true => exact .inl (hf e a rfl hab)
    | false => exact .inr (by simp [ending, hab, Item.isFailure])

omit [MessageLimit] in
theorem noSkip_gather : ∀ {ps : List Part}, (∀ p ∈ ps, Always NoSkip p.test.body) → ∀ n, NoSkip (gather ps n)
  | [], _, _ => trivial
  | p :: _, h, n => ⟨h p (List.mem_cons_self ..) n, noSkip_gather (fun q hq => h q (List.mem_cons_of_mem _ hq)) _⟩

/-- Something fails in the gathered test exactly if something fails in one of the tests. -/
theorem fails_gather {t : TestCase} {ps : List Part} (hg : ∀ n, t.body.no n = gather ps n) (ha : ∀ p ∈ ps, Alike p.test.body)
    (hs : ∀ p ∈ ps, Always NoSkip p.test.body) (ho : ∀ p ∈ ps, Always OwnThrows p.test.body) (hne : ps ≠ []) :
    (happens t).any Item.isFailure = true ↔ ∃ p ∈ ps, (happens p.test).any Item.isFailure = true := by
  have hst : Always NoSkip t.body := fun n => by rw [hg]; exact noSkip_gather hs n
  obtain ⟨before, after, b1, b2, _, b4⟩ := dl_gather 0 t.loc ps hs
  rw [any_dl 0, happens_whole hst, whole_gather hg ha hne, b2, List.any_flatMap, List.any_eq_true]
  simp only [any_deed, ← any_dl]
  constructor
  · rintro ⟨p, hp, h⟩
    exact ⟨p, by rw [b1]; exact List.mem_append_left _ hp, h⟩
  · rintro ⟨p, hp, h⟩
    rcases b4 with rfl | ⟨q, q1, q2⟩
    · rw [List.append_nil] at b1
      exact ⟨p, by rw [← b1]; exact hp, h⟩
    · have hq : q ∈ before := List.mem_of_getLast? q1
      have hq' : q ∈ ps := by rw [b1]; exact List.mem_append_left _ hq
      exact ⟨q, hq, stopped_fails (hs q hq') (ho q hq') q2⟩

end Verif.Run.Gather
