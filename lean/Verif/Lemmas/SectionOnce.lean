import Verif.Lemmas.SectionPlaces
/-!
# Bodies in which each section is executed once
-/
namespace Verif.Run
open Verif.Run.Spec

/-! ## All starts are first starts and all ends last ends -/

/-- Sections start for the first time and end for the last. -/
def Flagged (l : List Item) : Prop := ∀ x ∈ l, ∀ id, x ≠ .enter id false ∧ x ≠ .leave id false

theorem Flagged.append {a b : List Item} (h : Flagged a) (h' : Flagged b) : Flagged (a ++ b) := by
  intro x hx
  rcases List.mem_append.1 hx with hx | hx
  · exact h x hx
  · exact h' x hx

theorem Here.flagged {p : List Nat} {l : List Item} (h : Here p l) : Flagged l := by
  intro x hx id
  constructor
  · rintro rfl; exact h _ hx
  · rintro rfl; exact h _ hx

theorem flagged_andThen {x y : List Item × Exit} (hx : Flagged x.1) (hy : Flagged y.1) : Flagged (andThen x y).1 := by
  unfold andThen
  cases x.2 with
  | normal => exact hx.append hy
  | raised => exact hx

theorem flagged_pass [MessageLimit] {K : Prog} (ho : Once K) : ∀ c w, Flagged (pass K c w).1 := by
  induction K with
  | done => intro c w x hx; simp [pass] at hx
  | stmt m k ih => intro c w; simp only [pass]; exact flagged_andThen (here_stmt c m).flagged (ih ho c w)
  | capture caps k ih => intro c w; simp only [pass]; exact ih ho { c with caps := c.caps ++ caps } w
  | block b k ihb ihk => intro c w; rw [pass_block]; exact flagged_andThen (ihb ho.1 c _) (ihk ho.2 c _)
  | tryCatch ty b h k ihb ihh ihk =>
    intro c w
    have hb := (here_pass b c).flagged
    simp only [pass]
    obtain ⟨⟨l, x⟩, hp⟩ : ∃ p, pass b c none = p := ⟨_, rfl⟩
    rw [hp] at hb ⊢
    cases x with
    | normal => exact flagged_andThen hb (ihk ho c w)
    | raised e a =>
      dsimp only
      split
      · exact flagged_andThen hb (flagged_andThen (here_pass h c).flagged (ihk ho c w))
      · exact hb
  | nested loc o ask k iho ihk =>
    intro c w
    simp only [pass]
    exact flagged_andThen (here_check (c := c) (here_pass o (Ctx.inside c loc)) ask).flagged (ihk ho c w)
  | guard cl k ihc ihk => intro c w; exact (ihk ho c w).append (here_pass cl c).flagged
  | sec id loc b k ihb ihk =>
    intro c w
    cases w with
    | none => exact (here_pass (.sec id loc b k) c).flagged
    | some n =>
      simp only [pass]
      split
      · rename_i h
        have hl := ho.1
        have h0 : n = 0 := by omega
        have hm : max 1 (leaves b) = 1 := by omega
        subst h0
        rw [hm]
        refine flagged_andThen ?_ (flagged_andThen (ihb ho.2.1 _ _) (flagged_andThen ?_ (here_pass k c).flagged))
        · intro x hx id'; simp only [List.mem_singleton] at hx; subst hx; simp
        · intro x hx id'; simp only [List.mem_singleton] at hx; subst hx; simp
      · exact ihk ho.2.2 c _

theorem flagged_story [MessageLimit] {bodies : Nat → Prog} (ho : ∀ n, Once (bodies n)) (c : Ctx) : ∀ (k n : Nat) (seen : List Item), Flagged seen →
    Flagged (story bodies c k n seen).1.1
  | 0, _, seen, h => h
  | k + 1, n, seen, h => by
    have hp : Flagged (passNo (bodies n) c n).1 := flagged_pass (ho n) c _
    unfold story
    obtain ⟨⟨l, e⟩, hx⟩ : ∃ p, passNo (bodies n) c n = p := ⟨_, rfl⟩
    rw [hx] at hp ⊢
    cases e with
    | raised e a => exact h.append hp
    | normal =>
      dsimp only
      split
      · exact h.append hp
      · exact flagged_story ho c k (n + 1) (seen ++ l) (h.append hp)

theorem flagged_ending [MessageLimit] (loc : Nat) (e : Exit) : Flagged (ending loc e) := by
  intro x hx id
  cases e with
  | normal => simp only [ending, List.mem_singleton] at hx; subst hx; simp
  | raised e a =>
    simp only [ending, List.mem_append, List.mem_map] at hx
    rcases hx with hx | ⟨y, _, rfl⟩
    · split at hx
      · cases hx
      · simp only [List.mem_singleton] at hx; subst hx; simp
    · simp

theorem flagged_all [MessageLimit] {t : TestCase} (ho : Always Once t.body) : Flagged (allItems t) :=
  (flagged_story ho _ _ _ _ (by intro x hx; cases hx)).append (flagged_ending _ _)

/-! ## Each section is entered once -/

/-- The sections entered. -/
def enters (l : List Item) : List Nat := l.filterMap fun x => match x with
  | .enter id _ => some id
  | _ => none

theorem enters_append (a b : List Item) : enters (a ++ b) = enters a ++ enters b := List.filterMap_append ..

theorem Here.enters {p : List Nat} {l : List Item} (h : Here p l) : enters l = [] := by
  unfold Run.enters
  rw [List.filterMap_eq_nil_iff]
  intro x hx
  have := h x hx
  cases x with
  | enter => exact this.elim
  | _ => rfl

/-- The sections on the way to a leaf. -/
def chain : Prog → Nat → List Nat
  | .done, _ => []
  | .stmt _ k, n => chain k n
  | .sec id _ b k, n =>
    if n < max 1 (leaves b) then id :: (if leaves b = 0 then [] else chain b n) else chain k (n - max 1 (leaves b))
  | .capture _ k, n => chain k n
  | .block b k, n => if n < leaves b then chain b n else chain k (n - leaves b)
  | .tryCatch _ _ _ k, n => chain k n
  | .nested _ _ _ k, n => chain k n
  | .guard _ k, n => chain k n

/-- `chain`, from the sections. -/
def Spec.Sections.chain : Sections → Nat → List Nat
  | .none, _ => []
  | .one id inner rest, n =>
    if n < max 1 inner.leaves then id :: (if inner.leaves = 0 then [] else inner.chain n)
    else rest.chain (n - max 1 inner.leaves)

theorem Spec.Sections.chain_append (a b : Sections) : ∀ n, (a.append b).chain n =
    if n < a.leaves then a.chain n else b.chain (n - a.leaves) := by
  induction a with
  | none => intro n; simp [Sections.append, Sections.leaves]
  | one id x r _ ih =>
    intro n
    have hl : (Sections.one id x r).leaves = max 1 x.leaves + r.leaves := rfl
    rw [Sections.append, Sections.chain, Sections.chain]
    by_cases h1 : n < max 1 x.leaves
    · have h2 : n < (Sections.one id x r).leaves := by omega
      rw [if_pos h1, if_pos h2, if_pos h1]
    · rw [if_neg h1, if_neg h1, ih, hl]
      by_cases h2 : n - max 1 x.leaves < r.leaves
      · rw [if_pos h2, if_pos (by omega)]
      · rw [if_neg h2, if_neg (by omega), Nat.sub_add_eq]

theorem chain_sections (K : Prog) : ∀ n, chain K n = (sections K).chain n := by
  induction K with
  | done => intro n; rfl
  | stmt m k ih => exact ih
  | sec id loc b k ihb ihk =>
    intro n
    simp only [chain, sections, Sections.chain, ihb, ihk, leaves_sections]
  | capture l k ih => exact ih
  | block b k ihb ihk =>
    intro n
    simp only [chain, sections, Sections.chain_append, ihb, ihk, leaves_sections]
  | tryCatch t b h k _ _ ih => exact ih
  | nested l o a k _ ih => exact ih
  | guard c k _ ih => exact ih

theorem same_chain {p q : Prog} (h : sections p = sections q) (n : Nat) : chain p n = chain q n := by
  rw [chain_sections, chain_sections, h]

theorem enters_andThen_none {x y : List Item × Exit} {l : List Nat} (hx : enters x.1 = []) (hy : (enters y.1).Sublist l) :
    (enters (andThen x y).1).Sublist l := by
  unfold andThen
  cases x.2 with
  | normal => rw [enters_append, hx]; exact hy
  | raised => rw [hx]; exact List.nil_sublist _

theorem enters_andThen {x y : List Item × Exit} {l l' : List Nat} (hx : (enters x.1).Sublist l) (hy : (enters y.1).Sublist l') :
    (enters (andThen x y).1).Sublist (l ++ l') := by
  unfold andThen
  cases x.2 with
  | normal => rw [enters_append]; exact hx.append hy
  | raised => exact hx.trans (List.sublist_append_left ..)

theorem enters_pass [MessageLimit] {K : Prog} : ∀ c {n}, n < leaves K → (enters (pass K c (some n)).1).Sublist (chain K n) := by
  induction K with
  | done => intro c n hn; simp [leaves] at hn
  | stmt m k ih => intro c n hn; simp only [pass]; exact enters_andThen_none (here_stmt c m).enters (ih c hn)
  | capture caps k ih => intro c n hn; simp only [pass]; exact ih { c with caps := c.caps ++ caps } hn
  | block b k ihb ihk =>
    intro c n hn
    rw [leaves] at hn
    rw [pass, chain]
    split
    · rename_i h
      have := enters_andThen (ihb c h) (l' := []) (y := pass k c none) (by rw [(here_pass k c).enters]; exact List.nil_sublist _)
      rwa [List.append_nil] at this
    · exact enters_andThen_none (here_pass b c).enters (ihk c (by omega))
  | tryCatch ty b h k ihb ihh ihk =>
    intro c n hn
    have hb := (here_pass b c).enters
    simp only [pass]
    obtain ⟨⟨l, x⟩, hp⟩ : ∃ p, pass b c none = p := ⟨_, rfl⟩
    rw [hp] at hb ⊢
    cases x with
    | normal => exact enters_andThen_none hb (ihk c hn)
    | raised e a =>
      dsimp only
      split
      · exact enters_andThen_none hb (enters_andThen_none (here_pass h c).enters (ihk c hn))
      · rw [hb]; exact List.nil_sublist _
  | nested loc o ask k iho ihk =>
    intro c n hn
    simp only [pass]
    exact enters_andThen_none (here_check (c := c) (here_pass o (Ctx.inside c loc)) ask).enters (ihk c hn)
  | guard cl k ihc ihk =>
    intro c n hn
    simp only [pass, anyway]
    rw [enters_append, (here_pass cl c).enters, List.append_nil]
    exact ihk c hn
  | sec id loc b k ihb ihk =>
    intro c n hn
    rw [leaves] at hn
    rw [pass, chain]
    split
    · rename_i h
      have hbody : (enters (pass b (Ctx.inSection c id loc) (if leaves b = 0 then none else some n)).1).Sublist
          (if leaves b = 0 then [] else chain b n) := by
        split
        · rw [(here_pass b _).enters]; exact List.nil_sublist _
        · exact ihb _ (by omega)
      have hrest : (enters (andThen ([.leave id (n + 1 == max 1 (leaves b))], .normal) (pass k c none)).1).Sublist [] :=
        enters_andThen_none rfl (by rw [(here_pass k c).enters]; exact List.nil_sublist _)
      have := enters_andThen (x := ([.enter id (n == 0)], .normal)) (l := [id]) (List.Sublist.refl _)
        (enters_andThen hbody hrest)
      simpa using this
    · exact ihk c (by omega)

/-- If each section is executed once, the ways to the leaves are all the sections. -/
theorem chain_all {K : Prog} (ho : Once K) : (List.range (leaves K)).flatMap (chain K) = sectionIds K := by
  induction K with
  | done => rfl
  | stmt m k ih => exact ih ho
  | capture caps k ih => exact ih ho
  | tryCatch ty b h k ihb ihh ihk => exact ihk ho
  | nested loc o ask k iho ihk => exact ihk ho
  | guard cl k ihc ihk => exact ihk ho
  | block b k ihb ihk =>
    rw [leaves, List.range_add, List.flatMap_append, sectionIds, ← ihb ho.1, ← ihk ho.2, List.flatMap_map]
    congr 1
    · rw [List.flatMap_def, List.flatMap_def]
      congr 1
      refine List.map_congr_left fun n hn => ?_
      rw [chain, if_pos (List.mem_range.1 hn)]
    · rw [List.flatMap_def, List.flatMap_def]
      congr 1
      refine List.map_congr_left fun n hn => ?_
      rw [chain, if_neg (by omega), show leaves b + n - leaves b = n by omega]
  | sec id loc b k ihb ihk =>
    have hm : max 1 (leaves b) = 1 := by have := ho.1; omega
    rw [leaves, List.range_add, List.flatMap_append, sectionIds, ← ihb ho.2.1, ← ihk ho.2.2, List.flatMap_map]
    congr 1
    · rw [hm]
      simp only [List.range_one, List.flatMap_cons, List.flatMap_nil, List.append_nil, chain, hm]
      rw [if_pos (by omega)]
      congr 1
      by_cases h0 : leaves b = 0
      · simp [h0]
      · have : leaves b = 1 := by have := ho.1; omega
        simp [this]
    · rw [List.flatMap_def, List.flatMap_def]
      congr 1
      refine List.map_congr_left fun n hn => ?_
      rw [chain, if_neg (by omega), show max 1 (leaves b) + n - max 1 (leaves b) = n by omega]

theorem enters_story [MessageLimit] {body : Prog} {bodies : Nat → Prog}
    (hsec : ∀ n, sections (bodies n) = sections body) (c : Ctx) : ∀ (k n : Nat) (seen : List Item), n + k ≤ passCount body →
    (enters (story bodies c k n seen).1.1).Sublist (enters seen ++ (List.range' n k).flatMap fun n =>
      if leaves body = 0 then [] else chain body n)
  | 0, n, seen, _ => by simp [story]
  | k + 1, n, seen, hn => by
    have hp : (enters (passNo (bodies n) c n).1).Sublist (if leaves body = 0 then [] else chain body n) := by
      unfold passNo
      unfold passCount at hn
      rw [← same_leaves (hsec n), ← same_chain (hsec n)]
      rw [← same_leaves (hsec n)] at hn
      split
      · rw [(here_pass (bodies n) c).enters]; exact List.nil_sublist _
      · exact enters_pass c (by omega)
    unfold story
    obtain ⟨⟨l, e⟩, hx⟩ : ∃ p, passNo (bodies n) c n = p := ⟨_, rfl⟩
    rw [hx] at hp ⊢
    rw [List.range'_succ, List.flatMap_cons]
    have hone : (enters (seen ++ l)).Sublist (enters seen ++ (if leaves body = 0 then [] else chain body n)) := by
      rw [enters_append]; exact (List.Sublist.refl _).append hp
    have hone' := hone.trans (List.sublist_append_left _ ((List.range' (n + 1) k).flatMap fun n =>
      if leaves body = 0 then [] else chain body n))
    rw [List.append_assoc] at hone'
    cases e with
    | raised e a => exact hone'
    | normal =>
      dsimp only
      split
      · exact hone'
      · have := enters_story hsec c k (n + 1) (seen ++ l) (by omega)
        refine this.trans ?_
        rw [← List.append_assoc]
        exact hone.append (List.Sublist.refl _)

theorem enters_all [MessageLimit] {t : TestCase} (ho : Always Once t.body) (hsec : Alike t.body) :
    (enters (allItems t)).Sublist (sectionIds t.body.first) := by
  have hend : enters (ending t.loc (story t.body.no (topCtx t.loc) (passCount t.body.first) 0 []).1.2) = [] := by
    cases (story t.body.no (topCtx t.loc) (passCount t.body.first) 0 []).1.2 with
    | normal => rfl
    | raised e a =>
      unfold ending enters
      rw [List.filterMap_append, List.filterMap_map]
      cases e.isAbort <;> simp [Function.comp]
  unfold allItems
  rw [enters_append, hend, List.append_nil]
  have h := enters_story hsec (topCtx t.loc) (passCount t.body.first) 0 [] (by omega)
  rw [← List.range_eq_range'] at h
  by_cases h0 : leaves t.body.first = 0
  · simp only [h0, if_true] at h
    refine h.trans ?_
    rw [show List.flatMap (fun _ : Nat => ([] : List Nat)) (List.range (passCount t.body.first)) = [] from
      List.flatMap_eq_nil_iff.2 fun _ _ => rfl]
    exact List.nil_sublist _
  · simp only [h0, if_false] at h
    have hc : passCount t.body.first = leaves t.body.first := by unfold passCount; omega
    rw [hc, chain_all (K := t.body.first) (ho 0)] at h
    rw [hc]
    exact h

/-! ## What is inside sections entered once -/

/-- Where a section is not open and not entered, nothing happens in it. -/
theorem not_inside {k : Nat} (l : List Item) : ∀ p, k ∉ p → k ∉ enters l → Placed Eq p l → ∀ x ∈ l, k ∉ x.path := by
  induction l with
  | nil => intro p _ _ _ x hx; cases hx
  | cons y l ih =>
    intro p hp he hpl x hx
    have hrest : ∀ q, k ∉ q → Placed Eq q l → ∀ x ∈ l, k ∉ x.path := fun q hq hpl =>
      ih q hq (by
        intro h
        refine he ?_
        have : enters (y :: l) = enters [y] ++ enters l := enters_append [y] l
        rw [this]
        exact List.mem_append.2 (Or.inr h)) hpl
    rcases List.mem_cons.1 hx with rfl | hx'
    · cases x with
      | assertion ok c d => rw [show (Item.assertion ok c d).path = c.path from rfl, hpl.1]; exact hp
      | skip c m => rw [show (Item.skip c m).path = c.path from rfl, hpl.1]; exact hp
      | _ => exact List.not_mem_nil
    · cases y with
      | enter id f =>
        refine hrest (p ++ [id]) ?_ hpl x hx'
        intro h
        rcases List.mem_append.1 h with h | h
        · exact hp h
        · refine he ?_
          rw [List.mem_singleton] at h
          subst h
          exact List.mem_cons_self
      | leave id f => exact hrest p.dropLast (fun h => hp (List.dropLast_subset p h)) hpl x hx'
      | act | interrupted => exact hrest p hp hpl x hx'
      | assertion | skip => exact hrest p hp hpl.2 x hx'

/-- The assertions in a section. -/
def within (k : Nat) (l : List Item) : List Item := l.filter fun x => decide (k ∈ x.path) && x.isAssertion

theorem within_append (k : Nat) (a b : List Item) : within k (a ++ b) = within k a ++ within k b := List.filter_append ..

theorem within_nil {k : Nat} {l : List Item} (h : ∀ x ∈ l, k ∉ x.path) : within k l = [] := by
  unfold within
  rw [List.filter_eq_nil_iff]
  intro x hx
  simp [h x hx]

/-- If each section is entered once, what ends with a section is everything in the section. -/
theorem lefts_once (l : List Item) : ∀ (seen : List Item) (st : List (Nat × List Item)),
    (enters (seen ++ l)).Nodup → Placed Eq [] (seen ++ l) → openAfter [] seen = (st.map (·.1)).reverse →
    (st.map (·.1)).Nodup → (∀ o ∈ st, o.1 ∈ enters seen) →
    (∀ o ∈ st, o.2.filter Item.isAssertion = within o.1 seen) →
    ∀ x ∈ lefts seen st l, x.inside.filter Item.isAssertion = within x.id (seen ++ l) := by
  induction l with
  | nil =>
    intro seen st _ _ _ _ _ _ x hx
    cases st <;> cases hx
  | cons y l ih =>
    intro seen st hnd hpl hop hst hent hin x hx
    have happ : seen ++ y :: l = (seen ++ [y]) ++ l := by simp
    rw [happ] at hnd hpl ⊢
    have hpl2 := (placed_append Eq [] (seen ++ [y]) l).1 hpl
    have hseen := (placed_append Eq [] seen [y]).1 hpl2.1
    have hopen : openAfter [] (seen ++ [y]) = openAfter (openAfter [] seen) [y] := openAfter_append ..
    have hent' : ∀ o ∈ st, o.1 ∈ enters (seen ++ [y]) := fun o ho => by
      rw [enters_append]; exact List.mem_append.2 (Or.inl (hent o ho))
    -- items that are not sections
    have plain : openAfter (openAfter [] seen) [y] = openAfter [] seen →
        lefts seen st (y :: l) = lefts (seen ++ [y]) (st.map fun o => (o.1, o.2 ++ [y])) l →
        (y.isAssertion = true → y.path = openAfter [] seen) →
        x.inside.filter Item.isAssertion = within x.id ((seen ++ [y]) ++ l) := by
      intro h1 h2 h3
      rw [h2] at hx
      have hmap : (st.map fun o : Nat × List Item => (o.1, o.2 ++ [y])).map (·.1) = st.map (·.1) := by
        rw [List.map_map]; rfl
      refine ih (seen ++ [y]) _ hnd hpl ?_ (by rw [hmap]; exact hst) ?_ ?_ x hx
      · rw [hopen, h1, hmap, hop]
      · intro o ho
        obtain ⟨o', ho', rfl⟩ := List.mem_map.1 ho
        exact hent' o' ho'
      · intro o ho
        obtain ⟨o', ho', rfl⟩ := List.mem_map.1 ho
        dsimp only
        rw [List.filter_append, hin o' ho', within_append]
        congr 1
        by_cases hy : y.isAssertion = true
        · have hm : o'.1 ∈ y.path := by
            rw [h3 hy, hop, List.mem_reverse]
            exact List.mem_map.2 ⟨o', ho', rfl⟩
          simp [within, hy, hm]
        · simp [within, hy]
    cases y with
    | act a => exact plain rfl rfl (by simp [Item.isAssertion])
    | interrupted a => exact plain rfl rfl (by simp [Item.isAssertion])
    | skip c m => exact plain rfl rfl (by simp [Item.isAssertion])
    | assertion ok c d => exact plain rfl rfl (fun _ => hseen.2.1)
    | enter id f =>
      have hne : id ∉ enters seen := by
        intro h
        rw [enters_append, enters_append] at hnd
        have := (List.nodup_append.1 (List.nodup_append.1 hnd).1).2.2 id h id (by simp [enters])
        exact this rfl
      refine ih (seen ++ [.enter id f]) ((id, []) :: st) hnd hpl ?_ ?_ ?_ ?_ x hx
      · rw [hopen, hop]; simp [openAfter]
      · rw [List.map_cons, List.nodup_cons]
        refine ⟨?_, hst⟩
        intro h
        obtain ⟨o, ho, rfl⟩ := List.mem_map.1 h
        exact hne (hent o ho)
      · intro o ho
        rcases List.mem_cons.1 ho with rfl | ho
        · rw [enters_append]; exact List.mem_append.2 (Or.inr (by simp [enters]))
        · exact hent' o ho
      · intro o ho
        rw [within_append]
        rcases List.mem_cons.1 ho with rfl | ho
        · rw [within_nil (not_inside seen [] (by simp) hne hseen.1)]
          rfl
        · rw [hin o ho]
          simp [within, Item.isAssertion]
    | leave id f =>
      cases st with
      | nil =>
        refine ih (seen ++ [.leave id f]) [] hnd hpl ?_ hst (by simp) (by simp) x hx
        rw [hopen, hop]; simp [openAfter]
      | cons o st =>
        have hw : ∀ k, within k (seen ++ [.leave id f]) = within k seen := fun k => by
          rw [within_append]; simp [within, Item.isAssertion]
        have hopen' : openAfter [] (seen ++ [.leave id f]) = (st.map (·.1)).reverse := by
          rw [hopen, hop]; simp [openAfter]
        simp only [List.map_cons, List.nodup_cons] at hst
        rcases List.mem_append.1 (show x ∈ (if f then [(⟨o.1, skipsTest seen, o.2⟩ : Left)] else []) ++
          lefts (seen ++ [.leave id f]) st l from hx) with hx | hx
        · split at hx
          · rw [List.mem_singleton] at hx
            subst hx
            dsimp only
            rw [within_append, hw, hin o (by simp), within_nil (k := o.1) (l := l), List.append_nil]
            rw [hopen'] at hpl2
            refine not_inside l _ ?_ ?_ hpl2.2
            · rw [List.mem_reverse]; exact hst.1
            · intro h
              rw [enters_append] at hnd
              exact (List.nodup_append.1 hnd).2.2 o.1 (hent' o (by simp)) o.1 h rfl
          · cases hx
        · refine ih (seen ++ [.leave id f]) st hnd hpl hopen' hst.2 (fun o' ho' => hent' o' (by simp [ho'])) ?_ x hx
          intro o' ho'
          rw [hw, hin o' (by simp [ho'])]

theorem Dropped.enters {a b : List Item} (h : Dropped a b) : enters a = enters b := by
  induction h with
  | nil => rfl
  | keep x h ih => unfold Run.enters at ih ⊢; rw [List.filterMap_cons, List.filterMap_cons, ih]
  | drop x h h1 h2 ih =>
    rw [ih]
    unfold Run.enters
    rw [List.filterMap_cons]
    cases x with
    | enter id f => exact absurd rfl (h1 id f)
    | _ => rfl

/-- What is appended to a test that should fail. -/
theorem extra_items [MessageLimit] (t : TestCase) (b : Bool) : ∃ x, caseStory t b = effective (allItems t ++ x) ∧
    (x = [] ∨ ∃ ok d, x = [.assertion ok (Ctx.exactly (topCtx t.loc) t.loc) d]) := by
  refine ⟨_, caseStory_items t b, ?_⟩
  cases b with
  | true => exact Or.inr ⟨_, _, rfl⟩
  | false => exact Or.inl rfl

/-- In a test whose sections are executed once, all that happens in a section is told at its end. -/
theorem lefts_all [MessageLimit] {t : TestCase} (ht : Always Tidy t.body) (hsec : Alike t.body)
    (ho : Always Once t.body) (hn : (sectionIds t.body.first).Nodup) (b : Bool) :
    ∀ x ∈ lefts [] [] (caseStory t b), x.inside.filter Item.isAssertion = within x.id (caseStory t b) := by
  obtain ⟨y, hy, hy'⟩ := extra_items t b
  have hd : Dropped (caseStory t b) (allItems t ++ y) := by rw [hy]; exact dropped_effective _ .fresh
  have he : enters (caseStory t b) = enters (allItems t) := by
    rw [hd.enters, enters_append]
    have : enters y = [] := by rcases hy' with rfl | ⟨ok, d, rfl⟩ <;> rfl
    rw [this, List.append_nil]
  refine lefts_once (caseStory t b) [] [] ?_ (hd.placed (exact_places ht y hy')) rfl List.nodup_nil (by simp) (by simp)
  rw [List.nil_append, he]
  exact hn.sublist (enters_all ho hsec)

theorem isFailure_assertion (x : Item) : (x.isFailure && x.isAssertion) = x.isFailure := by
  cases x with
  | assertion ok c d => cases ok <;> rfl
  | _ => rfl

theorem told_all {special : Bool} {x : Left} {l : List Item} (h : x.inside.filter Item.isAssertion = within x.id l) :
    Left.told special x = (x.id, x.skipped, allOf special x.id l) := by
  have ha : (l.filter fun x' => decide (x.id ∈ x'.path)).filter Item.isAssertion = within x.id l := by
    rw [List.filter_filter]
    unfold within
    congr 1
    funext x'
    exact Bool.and_comm ..
  have hf : ∀ l : List Item, l.filter Item.isFailure = (l.filter Item.isAssertion).filter Item.isFailure := by
    intro l
    rw [List.filter_filter]
    congr 1
    funext x'
    exact (isFailure_assertion x').symm
  unfold Left.told allOf
  dsimp only
  rw [hf x.inside, hf (l.filter _), ha, h]

/-- In a test whose sections are executed once, the starts and ends of all sections are told. -/
theorem exact_told [MessageLimit] {t : TestCase} (ht : Always Tidy t.body) (ho : Always Once t.body) (x : List Item)
    (hx : x = [] ∨ ∃ ok d, x = [.assertion ok (Ctx.exactly (topCtx t.loc) t.loc) d]) :
    Placed Eq [] ((allItems t ++ x).filter Item.reported) := by
  have hfl : Flagged (allItems t ++ x) := by
    refine (flagged_all ho).append ?_
    rcases hx with rfl | ⟨ok, d, rfl⟩
    · intro y hy; cases hy
    · intro y hy id; rw [List.mem_singleton] at hy; subst hy; simp
  refine (dropped_filter ?_ ?_).placed (exact_places ht x hx)
  · intro id f hm
    cases f with
    | true => rfl
    | false => exact absurd rfl (hfl _ hm id).1
  · intro id f hm
    cases f with
    | true => rfl
    | false => exact absurd rfl (hfl _ hm id).2

/-- From what happens to what is told. -/
theorem told_of_items [MessageLimit] {rel : List Nat → List Nat → Prop} {t : TestCase} {v : Nat} (hv : 2 ≤ v) {b : Bool}
    {log : List Event} (hlog : log.filterMap observed = (caseStory t b).filter (Item.visible v))
    (h : ∀ x, (x = [] ∨ ∃ ok d, x = [.assertion ok (Ctx.exactly (topCtx t.loc) t.loc) d]) →
      Placed rel [] ((allItems t ++ x).filter Item.reported)) : ToldInside rel [] log := by
  obtain ⟨x, hx, hx'⟩ := extra_items t b
  rw [toldInside_iff, hlog, hx]
  exact ((dropped_visible hv _).trans ((dropped_effective _ .fresh).filter _)).placed (h x hx')

end Verif.Run
