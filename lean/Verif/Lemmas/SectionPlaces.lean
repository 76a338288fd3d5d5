import Verif.Lemmas.SectionEnds
/-!
# Where assertions are, seen from the starts and ends of sections
-/
namespace Verif.Run
open Verif.Run.Spec

/-! ## Places in a list of items -/

/-- `rel` holds between the place of each assertion and skip and the sections entered and not left. -/
def Placed (rel : List Nat → List Nat → Prop) : List Nat → List Item → Prop
  | _, [] => True
  | p, .enter id _ :: l => Placed rel (p ++ [id]) l
  | p, .leave _ _ :: l => Placed rel p.dropLast l
  | p, .assertion _ c _ :: l => rel c.path p ∧ Placed rel p l
  | p, .skip c _ :: l => rel c.path p ∧ Placed rel p l
  | p, _ :: l => Placed rel p l

theorem placed_append (rel : List Nat → List Nat → Prop) (p : List Nat) (a b : List Item) :
    Placed rel p (a ++ b) ↔ Placed rel p a ∧ Placed rel (openAfter p a) b := by
  induction a generalizing p with
  | nil => simp [Placed, openAfter]
  | cons x a ih => cases x <;> simp [Placed, openAfter, ih, and_assoc]

/-- Items from code that leads into no section: no section starts or ends, and the place is the same. -/
def Here (p : List Nat) (l : List Item) : Prop :=
  ∀ x ∈ l, match x with
    | .enter _ _ => False
    | .leave _ _ => False
    | .assertion _ c _ => c.path = p
    | .skip c _ => c.path = p
    | _ => True

theorem Here.append {p : List Nat} {a b : List Item} (h : Here p a) (h' : Here p b) : Here p (a ++ b) := by
  intro x hx
  rcases List.mem_append.1 hx with hx | hx
  · exact h x hx
  · exact h' x hx

theorem Here.placed {p q : List Nat} {l : List Item} (h : Here p l) {rel : List Nat → List Nat → Prop} (hr : rel p q) :
    Placed rel q l ∧ openAfter q l = q := by
  induction l with
  | nil => exact ⟨trivial, rfl⟩
  | cons x l ih =>
    have hx := h x (by simp)
    obtain ⟨h1, h2⟩ := ih fun y hy => h y (by simp [hy])
    cases x with
    | enter => exact hx.elim
    | leave => exact hx.elim
    | act => exact ⟨h1, h2⟩
    | interrupted => exact ⟨h1, h2⟩
    | assertion ok c d => exact ⟨⟨by rw [show c.path = p from hx]; exact hr, h1⟩, h2⟩
    | skip c m => exact ⟨⟨by rw [show c.path = p from hx]; exact hr, h1⟩, h2⟩

theorem Here.filter {p : List Nat} {l : List Item} (h : Here p l) (φ : Item → Bool) : Here p (l.filter φ) :=
  fun x hx => h x (List.mem_filter.1 hx).1

theorem here_assertedAt {p c : Ctx} (h : p.path = c.path) (loc : Nat) (ok abort : Bool) (data : Text) :
    Here c.path (assertedAt p c loc ok abort data).1 := by
  intro x hx
  simp only [assertedAt, List.mem_singleton] at hx
  subst hx
  exact h

theorem here_stmt [MessageLimit] (c : Ctx) (m : Stmt) : Here c.path (passStmt c m).1 := by
  have ha : ∀ loc ok abort data, Here c.path (asserted c loc ok abort data).1 :=
    fun loc ok abort data => here_assertedAt (p := Ctx.exactly c loc) (c := c) rfl loc ok abort data
  cases m with
  | check loc ev abort data =>
    cases ev with
    | val ok => exact ha _ _ _ _
    | exc e => intro x hx; simp only [passStmt, List.mem_singleton] at hx; subst hx; trivial
  | throwsAs => exact ha _ _ _ _
  | throwsMatches => exact ha _ _ _ _
  | nothrow => exact ha _ _ _ _
  | act a => intro x hx; simp only [passStmt, List.mem_singleton] at hx; subst hx; trivial
  | throw e => intro x hx; simp [passStmt] at hx
  | notify => intro x hx; simp [passStmt] at hx
  | skip loc abort msg => intro x hx; simp only [passStmt, List.mem_singleton] at hx; subst hx; rfl

theorem here_andThen {p : List Nat} {x y : List Item × Exit} (hx : Here p x.1) (hy : Here p y.1) :
    Here p (andThen x y).1 := by
  unfold andThen
  cases x.2 with
  | normal => exact hx.append hy
  | raised => exact hx

theorem here_check [MessageLimit] {c : Ctx} {loc : Nat} {x : List Item × Exit} (hx : Here c.path x.1) (ask : Ask) :
    Here c.path (check c loc ask x).1 := by
  have hp : (placeAfter c loc x.1).path = c.path := by
    unfold placeAfter
    split <;> rfl
  refine hx.append ?_
  cases ask with
  | check ok abort data =>
    cases x.2 with
    | normal => exact here_assertedAt hp _ _ _ _
    | raised e a => intro y hy; simp only [answered, List.mem_singleton] at hy; subst hy; trivial
  | throwsAs | throwsMatches | nothrow => exact here_assertedAt hp _ _ _ _

theorem here_pass [MessageLimit] (K : Prog) : ∀ c, Here c.path (pass K c none).1 := by
  induction K with
  | done => intro c x hx; simp [pass] at hx
  | stmt m k ih => intro c; simp only [pass]; exact here_andThen (here_stmt c m) (ih c)
  | capture caps k ih => intro c; simp only [pass]; exact ih { c with caps := c.caps ++ caps }
  | block b k ihb ihk => intro c; simp only [pass]; exact here_andThen (ihb c) (ihk c)
  | sec id loc b k ihb ihk => intro c; simp only [pass]; exact ihk c
  | tryCatch ty b h k ihb ihh ihk =>
    intro c
    have hb := ihb c
    simp only [pass]
    obtain ⟨⟨l, x⟩, hp⟩ : ∃ p, pass b c none = p := ⟨_, rfl⟩
    rw [hp] at hb ⊢
    cases x with
    | normal => exact here_andThen hb (ihk c)
    | raised e a =>
      dsimp only
      split
      · exact here_andThen hb (here_andThen (ihh c) (ihk c))
      · exact hb
  | nested loc o ask k iho ihk =>
    intro c
    simp only [pass]
    exact here_andThen (here_check (iho (Ctx.inside c loc)) ask) (ihk c)
  | guard cl k ihc ihk => intro c; exact (ihk c).append (ihc c)

/-- Code that starts with the sections `p` open ends with `q`; all places are related to the open sections, also that of an
exception. -/
def Goes (rel : List Nat → List Nat → Prop) (p q : List Nat) (x : List Item × Exit) : Prop :=
  Placed rel p x.1 ∧ match x.2 with
    | .normal => openAfter p x.1 = q
    | .raised _ a => rel a.path (openAfter p x.1)

theorem Goes.andThen {rel : List Nat → List Nat → Prop} {p q r : List Nat} {x y : List Item × Exit} (hx : Goes rel p q x)
    (hy : Goes rel q r y) : Goes rel p r (andThen x y) := by
  unfold Goes at hx hy ⊢
  unfold Spec.andThen
  obtain ⟨l, e⟩ := x
  cases e with
  | normal =>
    obtain ⟨h1, h2⟩ := hx
    dsimp only at h1 h2 ⊢
    rw [placed_append, openAfter_append, h2]
    exact ⟨⟨h1, hy.1⟩, hy.2⟩
  | raised e a => exact hx

/-- Keep some of the items. -/
def keep (φ : Item → Bool) (x : List Item × Exit) : List Item × Exit := (x.1.filter φ, x.2)

theorem keep_andThen (φ : Item → Bool) (x y : List Item × Exit) :
    keep φ (andThen x y) = andThen (keep φ x) (keep φ y) := by
  obtain ⟨l, e⟩ := x
  cases e with
  | normal => simp [andThen, keep]
  | raised => rfl

theorem Goes.here {rel : List Nat → List Nat → Prop} {c : Ctx} {q : List Nat} {x : List Item × Exit} (hx : Here c.path x.1)
    (hf : ∀ e a, x.2 = .raised e a → a.path = c.path) (hr : rel c.path q) (φ : Item → Bool) : Goes rel q q (keep φ x) := by
  obtain ⟨h1, h2⟩ := (hx.filter φ).placed hr
  refine ⟨h1, ?_⟩
  obtain ⟨l, e⟩ := x
  cases e with
  | normal => exact h2
  | raised e a =>
    have := hf e a rfl
    dsimp only [keep] at h2 ⊢
    rw [h2, this]
    exact hr

theorem goes_stmt [MessageLimit] {rel : List Nat → List Nat → Prop} {c : Ctx} {q : List Nat} (hr : rel c.path q) (m : Stmt)
    (φ : Item → Bool) : Goes rel q q (keep φ (passStmt c m)) :=
  Goes.here (here_stmt c m) (flat_stmt c m).2 hr φ

theorem goes_none [MessageLimit] {rel : List Nat → List Nat → Prop} {c : Ctx} {q : List Nat} (hr : rel c.path q) (K : Prog)
    (φ : Item → Bool) : Goes rel q q (keep φ (pass K c none)) :=
  Goes.here (here_pass K c) (flat_pass K c).2 hr φ

theorem goes_check [MessageLimit] {rel : List Nat → List Nat → Prop} {c : Ctx} {q : List Nat} (hr : rel c.path q) (K : Prog)
    (loc : Nat) (ask : Ask) (φ : Item → Bool) : Goes rel q q (keep φ (check c loc ask (pass K (Ctx.inside c loc) none))) :=
  Goes.here (here_check (c := c) (here_pass K (Ctx.inside c loc)) ask) (flat_check (flat_pass K (Ctx.inside c loc)) ask).2 hr φ

/-- A destructor that runs whatever happened before, but does nothing that is told if an exception happened. -/
theorem goes_anyway {rel : List Nat → List Nat → Prop} {c : Ctx} {p q : List Nat} {x y : List Item × Exit} {φ : Item → Bool}
    (hx : Goes rel p q (keep φ x)) (hy : Here c.path y.1) (hr : rel c.path q)
    (h : x.2 = .normal ∨ ∃ l : List Nat, y.1 = l.map Item.act) : Goes rel p q (keep φ (anyway x y)) := by
  unfold Goes keep anyway at *
  dsimp only at hx ⊢
  rw [List.filter_append, placed_append, openAfter_append]
  have hacts : (∃ l : List Nat, y.1 = l.map Item.act) → ∀ r, Placed rel r (y.1.filter φ) ∧ openAfter r (y.1.filter φ) = r := by
    rintro ⟨l, hl⟩ r
    rw [hl]
    clear hl
    induction l with
    | nil => exact ⟨trivial, rfl⟩
    | cons a l ih =>
      rw [List.map_cons, List.filter_cons]
      split
      · exact ih
      · exact ih
  rcases h with h | h
  · rw [h] at hx ⊢
    dsimp only at hx ⊢
    obtain ⟨h1, h2⟩ := (hy.filter φ).placed (rel := rel) hr
    rw [hx.2]
    exact ⟨⟨hx.1, h1⟩, h2⟩
  · obtain ⟨g1, g2⟩ := hacts h (openAfter p (x.1.filter φ))
    rw [g2]
    exact ⟨⟨hx.1, g1⟩, hx.2⟩

/-! ## Sections that stay open between executions -/

/-- The sections that contain both the leaf before the `n`-th and the `n`-th. -/
def still : Prog → Nat → List Nat
  | .done, _ => []
  | .stmt _ k, n => still k n
  | .sec id _ b k, n =>
    if n < max 1 (leaves b) then (if n = 0 then [] else id :: still b n) else still k (n - max 1 (leaves b))
  | .capture _ k, n => still k n
  | .block b k, n => if n < leaves b then still b n else still k (n - leaves b)
  | .tryCatch _ _ _ k, n => still k n
  | .nested _ _ _ k, n => still k n
  | .guard _ k, n => still k n

theorem still_zero (K : Prog) : still K 0 = [] := by
  induction K with
  | done => rfl
  | sec id loc b k ihb ihk =>
    have : 0 < max 1 (leaves b) := by omega
    simp [still, this]
  | block b k ihb ihk =>
    simp only [still]
    split
    · exact ihb
    · simpa using ihk
  | stmt _ k ih | capture _ k ih | tryCatch _ _ _ k _ _ ih | nested _ _ _ k _ ih | guard _ k _ ih => exact ih

theorem still_leaves (K : Prog) : still K (leaves K) = [] := by
  induction K with
  | done => rfl
  | sec id loc b k ihb ihk =>
    rw [leaves, still]
    rw [if_neg (by omega), show max 1 (leaves b) + leaves k - max 1 (leaves b) = leaves k by omega]
    exact ihk
  | block b k ihb ihk =>
    rw [leaves, still]
    rw [if_neg (by omega), show leaves b + leaves k - leaves b = leaves k by omega]
    exact ihk
  | stmt _ k ih | capture _ k ih | tryCatch _ _ _ k _ _ ih | nested _ _ _ k _ ih | guard _ k _ ih => exact ih

theorem still_none (K : Prog) : ∀ m, leaves K = 0 → still K m = [] := by
  induction K with
  | done => intros; rfl
  | sec id loc b k ihb ihk => intro m h; simp only [leaves] at h; omega
  | block b k ihb ihk =>
    intro m h
    simp only [leaves] at h
    rw [still, if_neg (by omega)]
    exact ihk _ (by omega)
  | stmt _ k ih | capture _ k ih | tryCatch _ _ _ k _ _ ih | nested _ _ _ k _ ih | guard _ k _ ih =>
    intro m h; exact ih m h

/-- `still`, from the sections. -/
def Spec.Sections.still : Sections → Nat → List Nat
  | .none, _ => []
  | .one id inner rest, n =>
    if n < max 1 inner.leaves then (if n = 0 then [] else id :: inner.still n) else rest.still (n - max 1 inner.leaves)

theorem Spec.Sections.still_append (a b : Sections) : ∀ n, (a.append b).still n =
    if n < a.leaves then a.still n else b.still (n - a.leaves) := by
  induction a with
  | none => intro n; simp [Sections.append, Sections.leaves]
  | one id x r _ ih =>
    intro n
    have hl : (Sections.one id x r).leaves = max 1 x.leaves + r.leaves := rfl
    rw [Sections.append, Sections.still, Sections.still]
    by_cases h1 : n < max 1 x.leaves
    · have h2 : n < (Sections.one id x r).leaves := by omega
      rw [if_pos h1, if_pos h2, if_pos h1]
    · rw [if_neg h1, if_neg h1, ih, hl]
      by_cases h2 : n - max 1 x.leaves < r.leaves
      · rw [if_pos h2, if_pos (by omega)]
      · rw [if_neg h2, if_neg (by omega), Nat.sub_add_eq]

theorem still_sections (K : Prog) : ∀ n, still K n = (sections K).still n := by
  induction K with
  | done => intro n; rfl
  | stmt m k ih => exact ih
  | sec id loc b k ihb ihk =>
    intro n
    simp only [still, sections, Sections.still, ihb, ihk, leaves_sections]
  | capture l k ih => exact ih
  | block b k ihb ihk =>
    intro n
    simp only [still, sections, Sections.still_append, ihb, ihk, leaves_sections]
  | tryCatch t b h k _ _ ih => exact ih
  | nested l o a k _ ih => exact ih
  | guard c k _ ih => exact ih

theorem same_still {p q : Prog} (h : sections p = sections q) (n : Nat) : still p n = still q n := by
  rw [still_sections, still_sections, h]

/-- The prefix relation. -/
abbrev Prefix (a b : List Nat) : Prop := a <+: b

/-- An execution for the `n`-th leaf, as told: it starts with the sections open that contain this leaf and the one before,
and ends with those that contain this leaf and the next one. -/
theorem goes_told [MessageLimit] {K : Prog} (ht : Tidy K) : ∀ (c : Ctx) {n : Nat}, n < leaves K →
    Goes Prefix (c.path ++ still K n) (c.path ++ still K (n + 1)) (keep Item.reported (pass K c (some n))) := by
  have hpre : ∀ (c : Ctx) (q : List Nat), Prefix c.path (c.path ++ q) := fun c q => List.prefix_append ..
  induction K with
  | done => intro c n hn; simp [leaves] at hn
  | stmt m k ih =>
    intro c n hn
    simp only [pass, keep_andThen]
    exact (goes_stmt (hpre c _) m _).andThen (ih ht c hn)
  | capture caps k ih => intro c n hn; simp only [pass]; exact ih ht { c with caps := c.caps ++ caps } hn
  | block b k ihb ihk =>
    intro c n hn
    simp only [leaves] at hn
    simp only [pass, still]
    split
    · rename_i h
      rw [keep_andThen]
      refine (ihb ht.1 c h).andThen ?_
      split
      · exact goes_none (hpre c _) k _
      · rename_i h'
        rw [show n + 1 - leaves b = 0 by omega, still_zero, show n + 1 = leaves b by omega, still_leaves]
        exact goes_none (hpre c _) k _
    · rename_i h
      rw [if_neg (by omega), keep_andThen, show n + 1 - leaves b = n - leaves b + 1 by omega]
      exact (goes_none (hpre c _) b _).andThen (ihk ht.2 c (by omega))
  | tryCatch ty b h k ihb ihh ihk =>
    intro c n hn
    have hb := goes_none (rel := Prefix) (hpre c (still k n)) b Item.reported
    have hb' := here_pass b c
    simp only [pass, still]
    obtain ⟨⟨l, x⟩, hp⟩ : ∃ p, pass b c none = p := ⟨_, rfl⟩
    rw [hp] at hb hb' ⊢
    cases x with
    | normal =>
      rw [keep_andThen]
      exact Goes.andThen hb (ihk ht.2.2.2 c hn)
    | raised e a =>
      dsimp only
      split
      · rw [keep_andThen, keep_andThen]
        refine Goes.andThen (q := c.path ++ still k n) ?_ ((goes_none (hpre c _) h _).andThen (ihk ht.2.2.2 c hn))
        exact Goes.here (x := (l, .normal)) hb' (by intro e a h; cases h) (hpre c _) _
      · exact ⟨hb.1, hb.2⟩
  | nested loc o ask k iho ihk =>
    intro c n hn
    simp only [pass, keep_andThen, still]
    exact (goes_check (hpre c _) o loc ask _).andThen (ihk ht.2 c hn)
  | guard cl k ihc ihk =>
    intro c n hn
    simp only [pass, still]
    refine goes_anyway (c := c) (ihk ht.2.2 c hn) (here_pass cl c) (hpre c _) ?_
    rcases ht.2.1 with hbare | hcalm
    · obtain ⟨l, _, hl⟩ := bare_calm ⟨0, 0, 0, 0⟩ hbare ht.1.1
      exact Or.inr ⟨l, by rw [hl]⟩
    · exact Or.inl (calm_exit hcalm c _)
  | sec id loc b k ihb ihk =>
    intro c n hn
    simp only [leaves] at hn
    simp only [pass]
    split
    · rename_i h
      simp only [keep_andThen]
      have hin : Goes Prefix (c.path ++ still (.sec id loc b k) n) (c.path ++ [id] ++ still b n)
          (keep Item.reported ([.enter id (n == 0)], .normal)) := by
        by_cases h0 : n = 0
        · subst h0
          rw [still_zero, still_zero]
          simp [Goes, keep, Placed, openAfter, Item.reported, List.filter_cons]
        · have : still (.sec id loc b k) n = id :: still b n := by rw [still, if_pos h, if_neg h0]
          rw [this]
          simp [Goes, keep, Placed, openAfter, Item.reported, h0]
      have hbody : Goes Prefix (c.path ++ [id] ++ still b n) (c.path ++ [id] ++ still b (n + 1))
          (keep Item.reported (pass b (Ctx.inSection c id loc) (if leaves b = 0 then none else some n))) := by
        by_cases hl : leaves b = 0
        · rw [if_pos hl]
          have h0 : n = 0 := by omega
          subst h0
          have h1 : still b (0 + 1) = [] := by
            exact still_none b 1 hl
          rw [still_zero, h1]
          exact goes_none (c := Ctx.inSection c id loc) (List.prefix_append _ _) b _
        · rw [if_neg hl]
          exact ihb ht.1 (Ctx.inSection c id loc) (by omega)
      have hout : Goes Prefix (c.path ++ [id] ++ still b (n + 1)) (c.path ++ still (.sec id loc b k) (n + 1))
          (keep Item.reported ([.leave id (n + 1 == max 1 (leaves b))], .normal)) := by
        by_cases hl : n + 1 = max 1 (leaves b)
        · have h1 : still b (n + 1) = [] := by
            by_cases h0 : leaves b = 0
            · exact still_none b _ h0
            · rw [show n + 1 = leaves b by omega]; exact still_leaves b
          have h2 : still (.sec id loc b k) (n + 1) = [] := by
            rw [still, if_neg (by omega), show n + 1 - max 1 (leaves b) = 0 by omega, still_zero]
          rw [h1, h2, ← hl]
          simp [Goes, keep, Placed, openAfter, Item.reported, List.filter_cons]
        · have : still (.sec id loc b k) (n + 1) = id :: still b (n + 1) := by
            rw [still, if_pos (by omega), if_neg (by omega)]
          rw [this]
          simp [Goes, keep, Placed, openAfter, Item.reported, hl]
      exact hin.andThen (hbody.andThen (hout.andThen (goes_none (hpre c _) k _)))
    · rename_i h
      have e1 : still (.sec id loc b k) n = still k (n - max 1 (leaves b)) := by rw [still, if_neg h]
      have e2 : still (.sec id loc b k) (n + 1) = still k (n - max 1 (leaves b) + 1) := by
        rw [still, if_neg (by omega), show n + 1 - max 1 (leaves b) = n - max 1 (leaves b) + 1 by omega]
      rw [e1, e2]
      exact ihk ht.2 c (by omega)

/-- An execution, with all entries into sections. -/
theorem goes_exact [MessageLimit] {K : Prog} (ht : Tidy K) : ∀ (c : Ctx) (w : Option Nat),
    Goes Eq c.path c.path (pass K c w) := by
  have hkeep : ∀ x : List Item × Exit, keep (fun _ => true) x = x := fun x => by
    unfold keep; rw [List.filter_eq_self.2 fun _ _ => rfl]
  have hnone : ∀ (c : Ctx) (K : Prog), Goes Eq c.path c.path (pass K c none) := by
    intro c K
    have := goes_none (rel := Eq) (c := c) rfl K (fun _ => true)
    rwa [hkeep] at this
  induction K with
  | done => intro c w; exact ⟨trivial, rfl⟩
  | stmt m k ih =>
    intro c w
    simp only [pass]
    have := goes_stmt (rel := Eq) (c := c) rfl m (fun _ => true)
    rw [hkeep] at this
    exact this.andThen (ih ht c w)
  | capture caps k ih => intro c w; simp only [pass]; exact ih ht { c with caps := c.caps ++ caps } w
  | block b k ihb ihk =>
    intro c w
    rw [pass_block]
    exact (ihb ht.1 c _).andThen (ihk ht.2 c _)
  | tryCatch ty b h k ihb ihh ihk =>
    intro c w
    have hb := hnone c b
    have hb' := here_pass b c
    simp only [pass]
    obtain ⟨⟨l, x⟩, hp⟩ : ∃ p, pass b c none = p := ⟨_, rfl⟩
    rw [hp] at hb hb' ⊢
    cases x with
    | normal => exact Goes.andThen hb (ihk ht.2.2.2 c w)
    | raised e a =>
      dsimp only
      split
      · refine Goes.andThen (q := c.path) ?_ ((hnone c h).andThen (ihk ht.2.2.2 c w))
        have := Goes.here (x := (l, .normal)) (rel := Eq) hb' (by intro e a h; cases h) rfl (fun _ => true)
        rwa [hkeep] at this
      · exact hb
  | nested loc o ask k iho ihk =>
    intro c w
    simp only [pass]
    have := goes_check (rel := Eq) (c := c) rfl o loc ask (fun _ => true)
    rw [hkeep] at this
    exact this.andThen (ihk ht.2 c w)
  | guard cl k ihc ihk =>
    intro c w
    simp only [pass]
    rw [← hkeep (anyway _ _)]
    refine goes_anyway (c := c) (by rw [hkeep]; exact ihk ht.2.2 c w) (here_pass cl c) rfl ?_
    rcases ht.2.1 with hbare | hcalm
    · obtain ⟨l, _, hl⟩ := bare_calm ⟨0, 0, 0, 0⟩ hbare ht.1.1
      exact Or.inr ⟨l, by rw [hl]⟩
    · exact Or.inl (calm_exit hcalm c _)
  | sec id loc b k ihb ihk =>
    intro c w
    cases w with
    | none => exact hnone c _
    | some n =>
      simp only [pass]
      split
      · refine Goes.andThen (q := c.path ++ [id]) ⟨trivial, rfl⟩ ((ihb ht.1 (Ctx.inSection c id loc) _).andThen
          (Goes.andThen (q := c.path) ⟨trivial, ?_⟩ (hnone c k)))
        simp [openAfter, Ctx.inSection]
      · exact ihk ht.2 c _

/-! ## The whole story -/

/-- The executions of a body, one after the other. -/
theorem story_goes [MessageLimit] {rel : List Nat → List Nat → Prop} (φ : Item → Bool) (S : Nat → List Nat) {bodies : Nat → Prog}
    {c : Ctx} {m : Nat} (hpass : ∀ n, n < m → Goes rel (S n) (S (n + 1)) (keep φ (passNo (bodies n) c n))) :
    ∀ (k n : Nat) (seen : List Item), n + k = m → Placed rel [] (seen.filter φ) → openAfter [] (seen.filter φ) = S n →
      ∃ j, Goes rel [] (S j) (keep φ (story bodies c k n seen).1)
  | 0, n, seen, _, h1, h2 => ⟨n, h1, h2⟩
  | k + 1, n, seen, hm, h1, h2 => by
    have hp := hpass n (by omega)
    unfold story
    obtain ⟨⟨l, e⟩, hx⟩ : ∃ p, passNo (bodies n) c n = p := ⟨_, rfl⟩
    rw [hx] at hp ⊢
    obtain ⟨p1, p2⟩ := hp
    have g1 : Placed rel [] ((seen ++ l).filter φ) := by
      rw [List.filter_append, placed_append, h2]; exact ⟨h1, p1⟩
    have g2 : openAfter [] ((seen ++ l).filter φ) = openAfter (S n) (l.filter φ) := by
      rw [List.filter_append, openAfter_append, h2]
    cases e with
    | raised e a =>
      refine ⟨n, g1, ?_⟩
      show rel a.path (openAfter [] ((seen ++ l).filter φ))
      rw [g2]
      exact p2
    | normal =>
      have g3 : openAfter [] ((seen ++ l).filter φ) = S (n + 1) := g2.trans p2
      dsimp only
      split
      · exact ⟨n + 1, g1, g3⟩
      · exact story_goes φ S hpass k (n + 1) (seen ++ l) (by omega) g1 g3

theorem placed_leaves (rel : List Nat → List Nat → Prop) (l : List Nat) : ∀ p,
    Placed rel p (l.map fun id => Item.leave id true) := by
  induction l with
  | nil => intro p; trivial
  | cons a l ih => intro p; exact ih _

/-- Everything that happens before the last check of tests that should fail. -/
def allItems [MessageLimit] (t : TestCase) : List Item :=
  (story t.body.no (topCtx t.loc) (passCount t.body.first) 0 []).1.1 ++
    ending t.loc (story t.body.no (topCtx t.loc) (passCount t.body.first) 0 []).1.2

theorem caseStory_items [MessageLimit] (t : TestCase) (b : Bool) : caseStory t b =
    effective (allItems t ++ if b then [.assertion ((allItems t).any Item.isFailure)
      (Ctx.exactly (topCtx t.loc) t.loc) "expected test to fail".toList] else []) := rfl

/-- The sections of a test as told: every place is a prefix of the open sections. -/
theorem told_places [MessageLimit] {t : TestCase} (ht : Always Tidy t.body) (hsec : Alike t.body) (x : List Item)
    (hx : x = [] ∨ ∃ ok d, x = [.assertion ok (Ctx.exactly (topCtx t.loc) t.loc) d]) :
    Placed Prefix [] ((allItems t ++ x).filter Item.reported) := by
  have hpass : ∀ n, n < passCount t.body.first →
      Goes Prefix (if leaves t.body.first = 0 then [] else still t.body.first n) (if leaves t.body.first = 0 then [] else still t.body.first (n + 1))
        (keep Item.reported (passNo (t.body.no n) (topCtx t.loc) n)) := by
    intro n hn
    unfold passNo
    rw [← same_still (hsec n), ← same_still (hsec n), ← same_leaves (hsec n)]
    by_cases h : leaves (t.body.no n) = 0
    · rw [if_pos h, if_pos h, if_pos h]
      exact goes_none (c := topCtx t.loc) (List.prefix_refl _) _ _
    · rw [if_neg h, if_neg h, if_neg h]
      unfold passCount at hn
      rw [← same_leaves (hsec n)] at hn
      exact goes_told (ht n) (topCtx t.loc) (by omega)
  obtain ⟨j, h1, h2⟩ := story_goes Item.reported _ hpass (passCount t.body.first) 0 [] (by omega) trivial
    (by split <;> simp [openAfter, still_zero])
  rw [List.filter_append, placed_append]
  refine ⟨?_, ?_⟩
  · unfold allItems
    rw [List.filter_append, placed_append]
    refine ⟨h1, ?_⟩
    unfold keep at h2
    generalize story t.body.no (topCtx t.loc) (passCount t.body.first) 0 [] = y at h2 ⊢
    obtain ⟨⟨l, e⟩, cnt⟩ := y
    cases e with
    | normal => exact ⟨List.nil_prefix, trivial⟩
    | raised e a =>
      dsimp only at h2
      have hl : (a.path.reverse.map fun id => Item.leave id true).filter Item.reported =
          a.path.reverse.map fun id => Item.leave id true := by
        rw [List.filter_eq_self]
        intro z hz
        obtain ⟨w, _, rfl⟩ := List.mem_map.1 hz
        rfl
      show Placed Prefix _ ((ending t.loc (.raised e a)).filter Item.reported)
      unfold ending
      rw [List.filter_append, placed_append, hl]
      refine ⟨?_, placed_leaves ..⟩
      split
      · trivial
      · exact ⟨h2, trivial⟩
  · rcases hx with rfl | ⟨ok, d, rfl⟩
    · trivial
    · exact ⟨List.nil_prefix, trivial⟩

/-- The same with all entries into sections: the place of everything is exactly the open sections. -/
theorem exact_places [MessageLimit] {t : TestCase} (ht : Always Tidy t.body) (x : List Item)
    (hx : x = [] ∨ ∃ ok d, x = [.assertion ok (Ctx.exactly (topCtx t.loc) t.loc) d]) :
    Placed Eq [] (allItems t ++ x) := by
  have hkeep : ∀ x : List Item × Exit, keep (fun _ => true) x = x := fun x => by
    unfold keep; rw [List.filter_eq_self.2 fun _ _ => rfl]
  obtain ⟨j, h1, h2⟩ := story_goes (rel := Eq) (fun _ => true) (fun _ => []) (bodies := t.body.no) (c := topCtx t.loc)
    (m := passCount t.body.first) (fun n _ => by rw [hkeep]; exact goes_exact (ht n) (topCtx t.loc) _)
    (passCount t.body.first) 0 [] (by omega) trivial rfl
  rw [hkeep] at h1 h2
  have hend : openAfter [] (story t.body.no (topCtx t.loc) (passCount t.body.first) 0 []).1.1 =
      match (story t.body.no (topCtx t.loc) (passCount t.body.first) 0 []).1.2 with | .normal => [] | .raised _ a => a.path := by
    generalize story t.body.no (topCtx t.loc) (passCount t.body.first) 0 [] = y at h2 ⊢
    obtain ⟨⟨l, e⟩, cnt⟩ := y
    cases e with
    | normal => exact h2
    | raised e a => exact h2.symm
  rw [placed_append]
  have hopen : openAfter [] (allItems t) = [] := by
    unfold allItems
    rw [openAfter_append]
    exact (nested_ending t.loc _ _ hend).2
  refine ⟨?_, ?_⟩
  · unfold allItems
    rw [placed_append]
    refine ⟨h1, ?_⟩
    rw [hend]
    generalize story t.body.no (topCtx t.loc) (passCount t.body.first) 0 [] = y
    obtain ⟨⟨l, e⟩, cnt⟩ := y
    cases e with
    | normal => exact ⟨rfl, trivial⟩
    | raised e a =>
      show Placed Eq a.path (ending t.loc (.raised e a))
      unfold ending
      rw [placed_append]
      refine ⟨?_, placed_leaves ..⟩
      split
      · trivial
      · exact ⟨rfl, trivial⟩
  · rw [hopen]
    rcases hx with rfl | ⟨ok, d, rfl⟩
    · trivial
    · exact ⟨rfl, trivial⟩

/-! ## Leaving out items -/

/-- Leaving out some items that are not starts or ends of sections. -/
inductive Dropped : List Item → List Item → Prop
  | nil : Dropped [] []
  | keep (x : Item) {a b : List Item} (h : Dropped a b) : Dropped (x :: a) (x :: b)
  | drop (x : Item) {a b : List Item} (h : Dropped a b) (h1 : ∀ id f, x ≠ .enter id f) (h2 : ∀ id f, x ≠ .leave id f) :
    Dropped a (x :: b)

theorem Dropped.refl : ∀ l : List Item, Dropped l l
  | [] => .nil
  | x :: l => .keep x (Dropped.refl l)

theorem Dropped.placed {rel : List Nat → List Nat → Prop} {a b : List Item} (h : Dropped a b) :
    ∀ {p : List Nat}, Placed rel p b → Placed rel p a := by
  induction h with
  | nil => exact id
  | keep x h ih =>
    intro p hp
    cases x with
    | enter | leave | act | interrupted => exact ih hp
    | assertion | skip => exact ⟨hp.1, ih hp.2⟩
  | drop x h h1 h2 ih =>
    intro p hp
    cases x with
    | enter id f => exact absurd rfl (h1 id f)
    | leave id f => exact absurd rfl (h2 id f)
    | act | interrupted => exact ih hp
    | assertion | skip => exact ih hp.2

theorem Dropped.trans {a b c : List Item} (h : Dropped a b) (h' : Dropped b c) : Dropped a c := by
  induction h' generalizing a with
  | nil => exact h
  | keep x h' ih =>
    cases h with
    | keep _ h => exact .keep x (ih h)
    | drop _ h h1 h2 => exact .drop x (ih h) h1 h2
  | drop x h' h1 h2 ih => exact .drop x (ih h) h1 h2

theorem Dropped.filter {a b : List Item} (h : Dropped a b) (φ : Item → Bool) : Dropped (a.filter φ) (b.filter φ) := by
  induction h with
  | nil => exact .nil
  | keep x h ih =>
    rw [List.filter_cons, List.filter_cons]
    split
    · exact .keep x ih
    · exact ih
  | drop x h h1 h2 ih =>
    rw [List.filter_cons]
    split
    · exact .drop x ih h1 h2
    · exact ih

theorem dropped_filter {l : List Item} {φ : Item → Bool} (h1 : ∀ id f, .enter id f ∈ l → φ (.enter id f) = true)
    (h2 : ∀ id f, .leave id f ∈ l → φ (.leave id f) = true) : Dropped (l.filter φ) l := by
  induction l with
  | nil => exact .nil
  | cons x l ih =>
    have ih := ih (fun id f h => h1 id f (by simp [h])) (fun id f h => h2 id f (by simp [h]))
    rw [List.filter_cons]
    by_cases hx : φ x = true
    · rw [if_pos hx]; exact .keep x ih
    · rw [if_neg hx]
      refine .drop x ih ?_ ?_
      · rintro id f rfl; exact hx (h1 id f (by simp))
      · rintro id f rfl; exact hx (h2 id f (by simp))

theorem dropped_effective (l : List Item) : ∀ p : Phase, Dropped (effectiveFrom p l) l := by
  induction l with
  | nil => intro p; cases p <;> exact .nil
  | cons x l ih =>
    intro p
    rw [effectiveFrom_cons]
    split
    · rename_i h
      refine .drop x (ih _) ?_ ?_
      · rintro id f rfl; exact absurd h.2 (by simp [Item.isAssertion])
      · rintro id f rfl; exact absurd h.2 (by simp [Item.isAssertion])
    · exact .keep x (ih _)

/-- What is visible from verbosity *high* on. -/
theorem dropped_visible {v : Nat} (hv : 2 ≤ v) (l : List Item) :
    Dropped (l.filter (Item.visible v)) (l.filter Item.reported) := by
  have : l.filter (Item.visible v) = (l.filter Item.reported).filter (Item.visible v) := by
    rw [List.filter_filter]
    congr 1
    funext x
    cases hx : x.reported <;> simp [Item.visible, hx]
  rw [this]
  refine dropped_filter ?_ ?_
  · intro id f hm
    have := (List.mem_filter.1 hm).2
    simp only [Item.visible, this, Item.level, Bool.true_and]
    exact decide_eq_true hv
  · intro id f hm
    have := (List.mem_filter.1 hm).2
    simp only [Item.visible, this, Item.level, Bool.true_and]
    exact decide_eq_true hv

theorem toldInside_iff (rel : List Nat → List Nat → Prop) (log : List Event) : ∀ p,
    ToldInside rel p log ↔ Placed rel p (log.filterMap observed) := by
  induction log with
  | nil => intro p; exact Iff.rfl
  | cons e log ih =>
    intro p
    cases e <;> simp only [ToldInside, observed, List.filterMap_cons, Placed, ih]

end Verif.Run
