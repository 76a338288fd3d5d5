import Verif.Lemmas.Sections
import Verif.Lemmas.CalmExit
/-! # One pass through a test body does what `pass` says -/
namespace Verif.Run
open Spec

/-- The section bookkeeping before a pass that is to reach leaf `w`. -/
def Mode (w : Option Nat) (leaf : Bool) (lv : Level) (inner : List Level) (K : Prog) : Prop :=
  match w with
  | some n => n < leaves K ∧ leaf = false ∧ (lv.prev, inner) = enc K lv.cur n
  | none => Untargeted leaf lv inner (nsec K)

/-- The section bookkeeping after a pass (or part of it) that ended normally. -/
def Post (K : Prog) (d : Nat) (anc : List Level) (lv : Level) (inner : List Level) (leaf : Bool)
    (levels : List Level) (w : Option Nat) (s' : TS) : Prop :=
  ∃ lv' inner', Shape d s'.info.sections.levels anc lv' inner' ∧
    lv'.cur = lv.cur + nsec K ∧ lv'.max = max lv.max (lv.cur + nsec K) ∧
    (nsec K = 0 → s'.info.sections.levels = levels) ∧
    (0 < nsec K → d < s'.info.sections.levels.length) ∧
    match w with
    | some n => s'.info.sections.leaf = true ∧ (lv'.prev, inner'.map zeroCur) = enc K lv.cur (n + 1)
    | none => s'.info.sections.leaf = leaf ∧ lv'.prev = lv.prev ∧ inner' = inner

/-- What holds when a pass through `K` started in `s` ends by an exception. -/
def PostRaise (K : Prog) (s : TS) (c : Ctx) (s' : TS) (a : Ctx) : Prop :=
  leaves K = 0 → SameLevels s s' ∧ a.path = c.path

theorem Untargeted.mono {leaf : Bool} {lv : Level} {inner : List Level} {n m : Nat}
    (h : Untargeted leaf lv inner n) (hm : m ≤ n) : Untargeted leaf lv inner m :=
  h.imp id fun h i h1 h2 => h i h1 (by omega)

theorem Level.next_max (lv : Level) : lv.next.max = Max.max lv.max (lv.cur + 1) := by
  simp only [Level.next]; split <;> omega

theorem wanted_false {lv : Level} {d : Nat} {inner : List Level} (h1 : lv.cur + 1 ≠ lv.prev + 1)
    (h2 : ¬ (lv.cur + 1 = lv.prev ∧ inner ≠ [])) :
    wanted lv.next (d + 1) (d + 1 + inner.length) = false := by
  unfold wanted
  have e1 : lv.next.cur = lv.cur + 1 := rfl
  have e2 : lv.next.prev = lv.prev := rfl
  rw [e1, e2, decide_eq_false h1, Bool.false_or]
  apply decide_eq_false
  rintro ⟨g1, g2⟩
  refine h2 ⟨g1, ?_⟩
  rintro rfl
  simp at g2

/-- How the leaf asked for is split between a block and what follows it. -/
def wantedIn (b : Prog) : Option Nat → Option Nat
  | none => none
  | some n => if n < leaves b then some n else none

/-- How the leaf asked for is split between a block and what follows it. -/
def wantedAfter (b : Prog) : Option Nat → Option Nat
  | none => none
  | some n => if n < leaves b then none else some (n - leaves b)

theorem pass_block [MessageLimit] (b k : Prog) (c : Ctx) (w : Option Nat) :
    pass (.block b k) c w = andThen (pass b c (wantedIn b w)) (pass k c (wantedAfter b w)) := by
  cases w with
  | none => simp [pass, wantedIn, wantedAfter]
  | some n =>
    simp only [pass, wantedIn, wantedAfter]
    split <;> rfl

theorem block_mode {w : Option Nat} {leaf : Bool} {lv : Level} {inner : List Level} {b k : Prog}
    (h : Mode w leaf lv inner (.block b k)) : Mode (wantedIn b w) leaf lv inner b := by
  cases w with
  | none =>
    simp only [Mode, wantedIn, nsec] at h ⊢
    exact h.mono (by omega)
  | some n =>
    obtain ⟨h1, h2, h3⟩ := h
    simp only [enc, leaves] at h1 h3
    simp only [wantedIn]
    split
    · rename_i hn
      rw [if_pos hn] at h3
      exact ⟨hn, h2, h3⟩
    · rename_i hn
      rw [if_neg hn] at h3
      right
      intro i i1 i2
      have hg := enc_ge k (lv.cur + nsec b) (n - leaves b)
      rw [← h3] at hg
      simp only at hg
      refine ⟨by omega, ?_⟩
      rintro ⟨i3, i4⟩
      have := hg.2 i4
      omega

theorem block_mid {w : Option Nat} {leaf : Bool} {lv : Level} {inner anc levels : List Level}
    {b k : Prog} {d : Nat} {s₁ : TS} (hm : Mode w leaf lv inner (.block b k))
    (h : Post b d anc lv inner leaf levels (wantedIn b w) s₁) :
    ∃ lv₁ inner₁, Shape d s₁.info.sections.levels anc lv₁ inner₁ ∧ lv₁.cur ≤ lv₁.max ∧
      Mode (wantedAfter b w) s₁.info.sections.leaf lv₁ inner₁ k ∧
      ∀ s₂, Post k d anc lv₁ inner₁ s₁.info.sections.leaf s₁.info.sections.levels
        (wantedAfter b w) s₂ → Post (.block b k) d anc lv inner leaf levels w s₂ := by
  obtain ⟨lv₁, inner₁, sh, c1, m1, z1, p1, h1⟩ := h
  refine ⟨lv₁, inner₁, sh, by omega, ?_, ?_⟩
  · cases w with
    | none =>
      simp only [wantedIn, wantedAfter, Mode, nsec] at h1 hm ⊢
      obtain ⟨e1, e2, e3⟩ := h1
      rcases hm with hm | hm
      · exact Or.inl (e1.trans hm)
      · right
        intro i i1 i2
        rw [e2, e3]
        exact hm i (by omega) (by omega)
    | some n =>
      simp only [wantedIn, wantedAfter] at h1 ⊢
      obtain ⟨g1, g2, g3⟩ := hm
      simp only [enc, leaves] at g1 g3
      by_cases hn : n < leaves b
      · simp only [if_pos hn] at h1 ⊢
        exact Or.inl h1.1
      · simp only [if_neg hn] at g3 h1 ⊢
        obtain ⟨e1, e2, e3⟩ := h1
        refine ⟨by omega, e1.trans g2, ?_⟩
        rw [e2, e3, c1]
        exact g3
  · rintro s₂ ⟨lv₂, inner₂, sh2, c2, m2, z2, p2, h2⟩
    refine ⟨lv₂, inner₂, sh2, by simp only [nsec]; omega, by simp only [nsec]; omega, ?_, ?_, ?_⟩
    · intro hz
      simp only [nsec] at hz
      rw [z2 (by omega), z1 (by omega)]
    · intro hp
      simp only [nsec] at hp
      by_cases hk : 0 < nsec k
      · exact p2 hk
      · rw [z2 (by omega)]
        exact p1 (by omega)
    · cases w with
      | none =>
        simp only [wantedIn, wantedAfter] at h1 h2 ⊢
        exact ⟨h2.1.trans h1.1, h2.2.1.trans h1.2.1, h2.2.2.trans h1.2.2⟩
      | some n =>
        simp only [wantedIn, wantedAfter, enc] at h1 h2 ⊢
        by_cases hn : n < leaves b
        · simp only [if_pos hn] at h1 h2
          refine ⟨h2.1.trans h1.1, ?_⟩
          rw [h2.2.1, h2.2.2, h1.2]
          by_cases hn' : n + 1 < leaves b
          · rw [if_pos hn']
          · rw [if_neg hn', enc_full' b _ _ (by omega)]
            have : n + 1 - leaves b = 0 := by omega
            rw [this, enc_zero]
        · simp only [if_neg hn] at h1 h2
          refine ⟨h2.1, ?_⟩
          have hn' : ¬ (n + 1 < leaves b) := by omega
          rw [h2.2, c1, if_neg hn']
          congr 1
          omega

/-- Leaving a section whose body ended normally. -/
theorem finish_section {s : TS} {d n : Nat} {anc inner innerb levels : List Level} {lv lvE lvb : Level}
    {id loc : Nat} {b k : Prog} (hd : s.info.sections.depth = d + 1) (hn : n < max 1 (leaves b))
    (hE : lvE.prev = lv.cur + 1) (hlv : levels = (anc ++ [lvE]) ++ inner)
    (hin : leaves b = 0 → inner = []) (hanc : anc.length = d)
    (hmax : lvb.max ≤ nsec b) (hcur : lvb.cur = 0)
    (h : Post b (d + 1) (anc ++ [lvE]) lvb innerb false levels
      (if leaves b = 0 then none else some n) s) :
    (finishLevel s.info.sections).2 = (n + 1 == max 1 (leaves b)) ∧
    (finishLevel s.info.sections).1.leaf = true ∧
    ∃ inner₃, (finishLevel s.info.sections).1.levels = anc ++ lvE :: inner₃ ∧
      (lvE.prev, inner₃.map zeroCur) = enc (.sec id loc b k) lv.cur (n + 1) := by
  obtain ⟨lv', inner', sh, c1, m1, z1, p1, h1⟩ := h
  by_cases hb : leaves b = 0
  · have nb := (leaves_pos b).mp hb
    have h0 : n = 0 := by omega
    subst h0
    have e1 : s.info.sections.levels = anc ++ [lvE] := by rw [z1 nb, hlv, hin hb]; simp
    have e2 : finishLevel s.info.sections = ({ s.info.sections with leaf := true }, true) := by
      unfold finishLevel
      rw [if_pos (by rw [hd, e1]; simp [hanc])]
    rw [e2]
    refine ⟨by simp [hb], rfl, [], e1, ?_⟩
    simp only [enc, hb, hE]
    simp [enc_zero]
  · have nb : 0 < nsec b := by
      have := leaves_pos b
      omega
    rw [if_neg hb] at h1
    obtain ⟨hl, he⟩ := h1
    rw [hcur] at he m1
    have hmx : lv'.max = nsec b := by omega
    have hlen := p1 nb
    have e1 : s.info.sections.levels = (anc ++ [lvE]) ++ lv' :: inner' := by
      rcases sh.2 with h | ⟨h, _, _⟩
      · exact h
      · rw [h] at hlen
        simp [hanc] at hlen
    have hne : s.info.sections.depth ≠ s.info.sections.levels.length := by omega
    have hdrop : s.info.sections.levels.drop s.info.sections.depth = lv' :: inner' := by
      rw [e1, hd]
      exact List.drop_left' (by simp [hanc])
    unfold finishLevel
    rw [if_neg hne, hdrop]
    by_cases hlast : n + 1 < leaves b
    · have hall : ¬ ((lv' :: inner').all (fun child => child.prev == child.max) = true) := by
        rw [List.all_eq_true]
        intro hall
        rcases enc_unfinished b 0 (n + 1) hlast with hu | ⟨l, hl', hu⟩
        · rw [← he] at hu
          have := hall lv' (by simp)
          simp only [beq_iff_eq] at this
          simp only at hu
          omega
        · rw [← he] at hl'
          simp only [List.mem_map] at hl'
          obtain ⟨l0, hl0, rfl⟩ := hl'
          have := hall l0 (by simp [hl0])
          simp only [beq_iff_eq] at this
          exact hu this
      rw [if_neg hall]
      refine ⟨?_, hl, lv' :: inner', by simp [e1], ?_⟩
      · symm
        rw [beq_eq_false_iff_ne]
        omega
      · simp only [enc, hE]
        rw [if_neg (by omega), if_pos (by omega), ← he]
        simp [zeroCur, hmx]
    · have hn1 : n + 1 = leaves b := by omega
      rw [enc_full' b 0 _ hn1] at he
      simp only [Nat.zero_add, Prod.mk.injEq, List.map_eq_nil_iff] at he
      obtain ⟨he1, rfl⟩ := he
      have hall : ([lv'].all (fun child => child.prev == child.max) = true) := by
        simp [he1, hmx]
      rw [if_pos hall]
      refine ⟨?_, hl, [], ?_, ?_⟩
      · symm
        rw [beq_iff_eq]
        omega
      · simp only [e1, List.append_assoc, List.singleton_append]
        rw [show anc ++ [lvE, lv'] = (anc ++ [lvE]) ++ [lv'] by simp, List.dropLast_concat]
      · simp only [enc, hE]
        rw [if_neg (by omega), if_neg (by omega)]
        have : n + 1 - max 1 (leaves b) = 0 := by omega
        rw [this, enc_zero]
        rfl

/-- What holds of a section that is met and not entered, and of what follows. -/
theorem skip_section {w w' : Option Nat} {leaf : Bool} {lv : Level} {inner anc levels : List Level}
    {id loc : Nat} {b k : Prog} {d : Nat} {levels₁ : List Level}
    (hsh : Shape d levels anc lv inner) (h1 : levels₁ = anc ++ lv.next :: inner)
    (hw : (w = none ∧ w' = none) ∨ (∃ n, w = some n ∧ w' = some (n - max 1 (leaves b)) ∧
      ¬ n < max 1 (leaves b)))
    {s₂ : TS} (h : Post k d anc lv.next inner leaf levels₁ w' s₂) :
    Post (.sec id loc b k) d anc lv inner leaf levels w s₂ := by
  obtain ⟨lv', inner', sh, c1, m1, z1, p1, h2⟩ := h
  have hc : lv.next.cur = lv.cur + 1 := rfl
  have hp : lv.next.prev = lv.prev := rfl
  rw [Level.next_max] at m1
  refine ⟨lv', inner', sh, by simp only [nsec]; omega, by simp only [nsec]; omega, ?_, ?_, ?_⟩
  · simp only [nsec]; omega
  · intro _
    by_cases hk : 0 < nsec k
    · exact p1 hk
    · rw [z1 (by omega), h1]
      simp [hsh.1]
  · rcases hw with ⟨rfl, rfl⟩ | ⟨n, rfl, rfl, hn⟩
    · exact h2
    · refine ⟨h2.1, ?_⟩
      rw [h2.2, hc]
      simp only [enc]
      rw [if_neg (by omega), if_neg (by omega)]
      congr 1
      omega

theorem bind_bind {α β γ : Type} (x : Outcome α) (g : α → Outcome β) (f : β → Outcome γ) :
    (x >>= fun a => g a >>= f) = (x >>= g) >>= f := by
  cases x <;> rfl

/-- A check whose operand does what it should. -/
theorem check_good [MessageLimit] {cfg : Cfg} (hv : cfg.verbosity = 3) {s s₁ : TS} {R : Rep} {c : Ctx} (h : At s R c)
    {loc : Nat} (hin : Inside s s₁ (R.flag true) c loc) {x : List Item × Exit} {o : Outcome (TS × Res)}
    {P : TS → Prop} {Q : TS → Ctx → Prop} (ho : Good s₁ (R.flag true) (Ctx.inside c loc) x P Q o)
    (hP : ∀ t R', At t R' (Ctx.inside c loc) → P t → SameLevels s₁ t)
    (hQ : ∀ t a, Q t a → SameLevels s₁ t ∧ a.path = c.path) (ask : Ask) :
    GoodStmt s R c (check c loc ask x) (o >>= fun p => answer cfg false ask p.2.thrown p.1) := by
  obtain ⟨l, x⟩ := x
  have hplace : ((R.flag true).adds l).place c loc = placeAfter c loc l := by
    rw [Rep.flag_adds]
    unfold Rep.place placeAfter Rep.flag
    dsimp only
    cases l.any Item.isMacro <;> rfl
  have key : ∀ {o}, GoodStmt s ((R.flag true).adds l) c (answered (((R.flag true).adds l).place c loc) c loc ask x) o →
      GoodStmt s R c (check c loc ask (l, x)) o := by
    intro o ho
    rw [hplace, Rep.flag_adds] at ho
    exact Good.seq (l := l) ho.unflag rfl rfl (fun _ h => h) (fun _ _ h => h)
  cases x with
  | normal =>
    obtain ⟨u, e1, a1, l1, p1⟩ := ho
    rw [e1]
    refine key (answer_normal hv h ⟨a1, l1.trans hin.locs, ?_, hin.same.trans (hP u _ a1 p1)⟩ ask)
    rw [a1.caps, h.caps]
    rfl
  | raised e a =>
    obtain ⟨u, e1, t1, q1⟩ := ho
    rw [e1]
    obtain ⟨sl, ha⟩ := hQ u a q1
    exact key (answer_raised hv h hin.locs hin.caps (hin.same.trans sl) t1 ha ask e)

/-- User statements after an exception. -/
theorem Thrown.acts {s s' : TS} {R : Rep} {c a : Ctx} (h : Thrown s s' R c a) (l : List Nat) :
    Thrown s { s' with log := s'.log ++ l.map Event.user } (R.adds (l.map Item.act)) c a := by
  induction l generalizing s' R with
  | nil => simpa [Rep.adds] using h
  | cons x xs ih =>
    have h1 : Thrown s { s' with log := s'.log ++ [Event.user x] } (R.add (.act x)) c a :=
      { core := by
          show _ = R.core.step (.neutral (.user x) ⟨rfl, rfl, rfl⟩)
          rw [← h.core]; rfl
        inCheck := h.inCheck, unhandled := h.unhandled, caps := h.caps, locs := h.locs, cur := h.cur
        ids := h.ids, deeper := h.deeper, hcur := by cases hh : s'.held <;> simpa [hh, Rep.add] using h.hcur
        hcaps := by cases hh : s'.held <;> simpa [hh] using h.hcaps
        hlast := by cases hh : s'.held <;> simpa [hh] using h.hlast }
    simpa [Rep.adds] using ih h1

/-- Executing a tidy body, within the limits, does what `pass` says, and moves the section bookkeeping on by one leaf. -/
theorem exec_pass [MessageLimit] {cfg : Cfg} (hv : cfg.verbosity = 3) (K : Prog) :
    ∀ (s : TS) (R : Rep) (c : Ctx) (w : Option Nat) (anc : List Level) (lv : Level)
      (inner : List Level), Tidy K → At s R c → s.info.locations.length + secDepth K ≤ cfg.maxNested + 1 →
      c.caps.length + capDepth K ≤ cfg.maxCaptures →
      Shape c.path.length s.info.sections.levels anc lv inner → lv.cur ≤ lv.max →
      Mode w s.info.sections.leaf lv inner K →
      Good s R c (pass K c w)
        (Post K c.path.length anc lv inner s.info.sections.leaf s.info.sections.levels w)
        (PostRaise K s c) (exec cfg false K s) := by
  induction K with
  | done =>
    intro s R c w anc lv inner _ h _ _ hsh hcur hm
    refine ⟨s, rfl, ?_, rfl, lv, inner, hsh, rfl, ?_, fun _ => rfl, ?_, ?_⟩
    · simpa [pass, Rep.adds] using h
    · simp only [nsec]; omega
    · simp [nsec]
    · cases w with
      | some n => exact absurd hm.1 (by simp [leaves])
      | none => exact ⟨rfl, rfl, rfl⟩
  | stmt m k ih =>
    intro s R c w anc lv inner ht h hd hc hsh hcur hm
    simp only [secDepth, capDepth] at hd hc
    have hs := exec_stmt_good hv h (by omega) m
    have hP : ∀ s', Post (.stmt m k) c.path.length anc lv inner s.info.sections.leaf
        s.info.sections.levels w s' ↔ Post k c.path.length anc lv inner s.info.sections.leaf
        s.info.sections.levels w s' := fun _ => Iff.rfl
    simp only [exec, pass]
    unfold andThen
    cases hx : (passStmt c m).2 with
    | normal =>
      unfold GoodStmt Good at hs
      rw [hx] at hs
      obtain ⟨s1, e1, a1, l1, sl⟩ := hs
      simp only [e1, Outcome.bind_ok]
      have := ih s1 _ c w anc lv inner ht a1 (by rw [l1]; exact hd) hc (by rw [sl.levels]; exact hsh) hcur
        (by rw [sl.leaf]; exact hm)
      rw [sl.leaf, sl.levels] at this
      refine this.seq (by rw [a1.caps, h.caps]) l1 (fun _ h => h) ?_
      intro t a hq hz
      obtain ⟨q1, q2⟩ := hq hz
      exact ⟨sl.trans q1, q2⟩
    | raised e a =>
      unfold GoodStmt Good at hs
      rw [hx] at hs
      obtain ⟨s1, e1, a1, sl⟩ := hs
      simp only [e1, Outcome.bind_ok, Outcome.pure_eq]
      unfold Good
      simp only [hx]
      exact ⟨s1, rfl, a1, fun _ => sl⟩
  | capture caps k ih =>
    intro s R c w anc lv inner ht h hd hc hsh hcur hm
    simp only [secDepth, capDepth] at hd hc
    have hroom : s.info.captures.length + caps.length ≤ cfg.maxCaptures := by rw [h.caps]; omega
    simp only [exec, pass, addCaptures_ok caps h.held hroom, Outcome.bind_ok]
    obtain ⟨s1, hs1⟩ : ∃ s1 : TS, s1 = { s with info :=
      { s.info with captures := s.info.captures ++ caps } } := ⟨_, rfl⟩
    rw [← hs1]
    have a1 : At s1 R { c with caps := c.caps ++ caps } := by
      rw [hs1]
      exact { core := h.core, cur := h.cur, ids := h.ids, caps := by simp [h.caps], last := h.last
              room := h.room, held := h.held, inCheck := h.inCheck, unhandled := h.unhandled
              depth := h.depth }
    have hlv : s1.info.sections = s.info.sections := by rw [hs1]
    have hloc : s1.info.locations = s.info.locations := by rw [hs1]
    have := ih s1 R { c with caps := c.caps ++ caps } w anc lv inner ht a1 (by rw [hloc]; exact hd)
      (by simp only [List.length_append]; omega) (by rw [hlv]; exact hsh) hcur (by rw [hlv]; exact hm)
    have hcap1 : s1.info.captures = c.caps ++ caps := by rw [hs1]; simp [h.caps]
    unfold Good at this ⊢
    cases hx : (pass k { c with caps := c.caps ++ caps } w).2 with
    | normal =>
      simp only [hx] at this ⊢
      obtain ⟨s2, e2, a2, l2, p2⟩ := this
      simp only [e2, Outcome.bind_ok, ne_eq, not_true_eq_false, decide_false, Bool.or_false,
        popCaptures_normal a2.caps, Outcome.pure_eq]
      refine ⟨_, rfl, ?_, l2.trans hloc, ?_⟩
      · exact { core := a2.core, cur := a2.cur, ids := a2.ids, caps := rfl, last := a2.last
                room := a2.room, held := a2.held, inCheck := a2.inCheck, unhandled := a2.unhandled
                depth := a2.depth }
      · rw [hlv] at p2; exact p2
    | raised e a =>
      simp only [hx] at this ⊢
      obtain ⟨s2, e2, t2, q2⟩ := this
      simp only [e2, Outcome.bind_ok, ne_eq, reduceCtorEq, not_false_eq_true, decide_true, Bool.or_true,
        popCaptures_thrown (t2.caps.trans hcap1), Outcome.pure_eq]
      refine ⟨_, rfl, ?_, ?_⟩
      · exact { core := t2.core, inCheck := t2.inCheck, unhandled := t2.unhandled
                caps := h.caps.symm, locs := t2.locs.trans hloc, cur := t2.cur, ids := t2.ids
                deeper := t2.deeper, hcur := t2.hcur, hcaps := t2.hcaps, hlast := t2.hlast }
      · intro hz
        obtain ⟨q3, q4⟩ := q2 hz
        exact ⟨⟨by rw [← hlv]; exact q3.levels, by rw [← hlv]; exact q3.depth,
          by rw [← hlv]; exact q3.leaf⟩, q4⟩
  | block b k ihb ihk =>
    intro s R c w anc lv inner ht h hd hc hsh hcur hm
    simp only [secDepth, capDepth] at hd hc
    have hb := ihb s R c (wantedIn b w) anc lv inner ht.1 h (by omega) (by omega) hsh hcur
      (block_mode hm)
    rw [pass_block]
    unfold Good at hb
    simp only [exec]
    unfold andThen
    cases hx : (pass b c (wantedIn b w)).2 with
    | normal =>
      simp only [hx] at hb
      obtain ⟨s1, e1, a1, l1, p1⟩ := hb
      simp only [e1, Outcome.bind_ok]
      obtain ⟨lv1, inner1, sh1, le1, m1, post⟩ := block_mid hm p1
      have := ihk s1 _ c (wantedAfter b w) anc lv1 inner1 ht.2 a1 (by rw [l1]; omega) (by omega) sh1 le1 m1
      refine this.seq (by rw [a1.caps, h.caps]) l1 post ?_
      intro t a hq hz
      simp only [leaves] at hz
      obtain ⟨q1, q2⟩ := hq (by omega)
      have hz' : nsec b = 0 := (leaves_pos b).mp (by omega)
      refine ⟨SameLevels.trans ⟨?_, ?_, ?_⟩ q1, q2⟩
      · obtain ⟨_, _, _, _, _, z, _, _⟩ := p1
        exact z hz'
      · rw [a1.depth, h.depth]
      · obtain ⟨_, _, _, _, _, z, _, hw⟩ := p1
        have : wantedIn b w = none := by
          cases w with
          | none => rfl
          | some n => simp only [wantedIn, (leaves_pos b).mpr hz', Nat.not_lt_zero, if_false]
        rw [this] at hw
        exact hw.1
    | raised e a =>
      simp only [hx] at hb
      obtain ⟨s1, e1, t1, q1⟩ := hb
      simp only [e1, Outcome.bind_ok, Outcome.pure_eq]
      unfold Good
      simp only [hx]
      refine ⟨s1, rfl, t1, fun hz => q1 ?_⟩
      simp only [leaves] at hz
      omega
  | tryCatch ty b hh k ihb ihh ihk =>
    intro s R c w anc lv inner ht h hd hc hsh hcur hm
    simp only [secDepth, capDepth] at hd hc
    obtain ⟨⟨tb, zb⟩, ⟨th, zh⟩, hn, tk⟩ := ht
    have nb : nsec b = 0 := (leaves_pos b).mp zb
    have nh : nsec hh = 0 := (leaves_pos hh).mp zh
    have unt : ∀ K, nsec K = 0 → ∀ l, Mode none l lv inner K := by
      intro K hK l
      simp only [Mode, hK]
      exact Or.inr fun i i1 i2 => by omega
    have same : ∀ (K : Prog) (u s' : TS), nsec K = 0 → At u R c → ∀ R', At s' R' c →
        Post K c.path.length anc lv inner u.info.sections.leaf u.info.sections.levels none s' →
        SameLevels u s' := by
      rintro K u s' hK hu R' hs' ⟨_, _, _, _, _, z, _, hw⟩
      exact ⟨z hK, by rw [hs'.depth, hu.depth], hw.1⟩
    have hb := ihb s R c none anc lv inner tb h (by omega) (by omega) hsh hcur (unt b nb _)
    -- what follows, once the state is again at `c`
    have hk : ∀ (s1 : TS) (l : List Item), At s1 (R.adds l) c → SameLevels s s1 →
        s1.info.locations = s.info.locations →
        Good s R c (l ++ (pass k c w).1, (pass k c w).2)
          (Post (.tryCatch ty b hh k) c.path.length anc lv inner s.info.sections.leaf
            s.info.sections.levels w) (PostRaise (.tryCatch ty b hh k) s c) (exec cfg false k s1) := by
      intro s1 l a1 sl l1
      have := ihk s1 _ c w anc lv inner tk a1 (by rw [l1]; omega) (by omega) (by rw [sl.levels]; exact hsh)
        hcur (by rw [sl.leaf]; exact hm)
      rw [sl.leaf, sl.levels] at this
      refine this.seq (by rw [a1.caps, h.caps]) l1 (fun _ h => h) ?_
      intro t a hq hz
      obtain ⟨q1, q2⟩ := hq hz
      exact ⟨sl.trans q1, q2⟩
    unfold Good at hb
    simp only [exec, pass]
    obtain ⟨⟨l, x⟩, hpb⟩ : ∃ p, pass b c none = p := ⟨_, rfl⟩
    rw [hpb] at hb ⊢
    cases x with
    | normal =>
      obtain ⟨s1, e1, a1, l1, p1⟩ := hb
      simp only [e1, Outcome.bind_ok, andThen]
      exact hk s1 l a1 (same b s s1 nb h _ a1 p1) l1
    | raised e a =>
      obtain ⟨s1, e1, t1, q1⟩ := hb
      obtain ⟨sl, hap⟩ := q1 zb
      simp only [e1, Outcome.bind_ok]
      cases hcat : catches ty e with
      | false =>
        simp only [Bool.false_eq_true, if_false, Outcome.pure_eq]
        exact ⟨s1, rfl, t1, fun _ => ⟨sl, hap⟩⟩
      | true =>
        simp only [if_true]
        have hlen : (R.adds l).opened.length = c.path.length := by
          rw [← hap, ← t1.ids]; simp
        have hcur1 : s1.info.sections.current = (R.adds l).opened := by
          rw [t1.cur, ← hlen, List.take_length]
        -- the handler starts without anything held
        have hun : exec cfg false hh s1 = exec cfg false hh (unhold s1) := by
          rcases hn with hbare | hnot
          · have := bare_held hbare h.held e1
            have e : s1 = unhold s1 := by
              unfold unhold; cases s1; simp_all
            rw [← e]
          · refine notifies_unhold hnot ?_
            intro i hi
            have := t1.hcur
            rw [hi] at this
            simp only [Option.getD_some] at this
            rw [this, hcur1]
            exact Nat.le_refl _
        have a1 : At (unhold s1) (R.adds l) c :=
          { core := t1.core, cur := hcur1, ids := by rw [t1.ids, hap], caps := by
              exact t1.caps.trans h.caps
            last := by
              show s1.info.locations.getLastD _ = _
              rw [t1.locs]; exact h.last
            room := by
              show _ ≤ s1.info.locations.length
              rw [t1.locs]; exact h.room
            held := rfl, inCheck := t1.inCheck, unhandled := t1.unhandled
            depth := sl.depth.trans h.depth }
        have sl1 : SameLevels s (unhold s1) := ⟨sl.levels, sl.depth, sl.leaf⟩
        have hhd := ihh (unhold s1) (R.adds l) c none anc lv inner th a1
          (by show s1.info.locations.length + _ ≤ _; rw [t1.locs]; omega) (by omega)
          (by rw [sl1.levels]; exact hsh) hcur (unt hh nh _)
        rw [hun]
        unfold Good at hhd
        obtain ⟨⟨l', x'⟩, hph⟩ : ∃ p, pass hh c none = p := ⟨_, rfl⟩
        rw [hph] at hhd ⊢
        cases x' with
        | normal =>
          obtain ⟨s2, e2, a2, l2, p2⟩ := hhd
          simp only [e2, Outcome.bind_ok, andThen]
          rw [← Rep.adds_append] at a2
          have sl2 : SameLevels (unhold s1) s2 := by
            obtain ⟨_, _, _, _, _, z, _, hw⟩ := p2
            exact ⟨z nh, by rw [a2.depth, a1.depth], hw.1⟩
          have := hk s2 (l ++ l') a2 (sl1.trans sl2) (l2.trans t1.locs)
          rw [List.append_assoc] at this
          exact this
        | raised e' a' =>
          obtain ⟨s2, e2, t2, q2⟩ := hhd
          obtain ⟨sl2, hap2⟩ := q2 zh
          simp only [e2, Outcome.bind_ok, andThen, Outcome.pure_eq]
          refine ⟨s2, rfl, ?_, fun _ => ⟨sl1.trans sl2, hap2⟩⟩
          dsimp only
          rw [Rep.adds_append]
          exact t2.start t1.caps t1.locs
  | nested loc o ask k iho ihk =>
    intro s R c w anc lv inner ht h hd hc hsh hcur hm
    simp only [secDepth, capDepth] at hd hc
    obtain ⟨⟨to, zo⟩, tk⟩ := ht
    have no : nsec o = 0 := (leaves_pos o).mp zo
    have hin := check_started h loc
    simp only [exec, pass, checkEnter_ok loc h.held (show s.info.locations.length < cfg.maxNested + 2 by omega),
      Outcome.bind_ok]
    obtain ⟨s1, hs1⟩ : ∃ s1 : TS, s1 = { s with info := s.info.addLoc (loc, .inCheck), inCheck := true } :=
      ⟨_, rfl⟩
    rw [← hs1] at hin ⊢
    have hop := iho s1 (R.flag true) (Ctx.inside c loc) none anc lv inner to hin.at_
      (by rw [hin.locs]; simp only [List.length_append, List.length_cons, List.length_nil]; omega)
      (show c.caps.length + _ ≤ _ by omega) (by rw [hin.same.levels]; exact hsh) hcur
      (by simp only [Mode, no]; exact Or.inr fun i i1 i2 => by omega)
    have hs := check_good hv h hin hop
      (by
        rintro t R' at' ⟨_, _, _, _, _, z, _, hw⟩
        exact ⟨z no, by rw [at'.depth, hin.at_.depth], hw.1⟩)
      (fun t a hq => hq zo) ask
    rw [bind_bind]
    generalize check c loc ask (pass o (Ctx.inside c loc) none) = x at hs ⊢
    obtain ⟨l, x⟩ := x
    unfold andThen
    cases x with
    | normal =>
      obtain ⟨s2, e2, a2, l2, sl⟩ := hs
      simp only [e2, Outcome.bind_ok]
      have := ihk s2 _ c w anc lv inner tk a2 (by rw [l2]; omega) (by omega) (by rw [sl.levels]; exact hsh) hcur
        (by rw [sl.leaf]; exact hm)
      rw [sl.leaf, sl.levels] at this
      refine this.seq (by rw [a2.caps, h.caps]) l2 (fun _ h => h) ?_
      intro t a hq hz
      obtain ⟨q1, q2⟩ := hq hz
      exact ⟨sl.trans q1, q2⟩
    | raised e a =>
      obtain ⟨s2, e2, t2, sl⟩ := hs
      simp only [e2, Outcome.bind_ok, Outcome.pure_eq]
      exact ⟨s2, rfl, t2, fun _ => sl⟩
  | guard cl k ihc ihk =>
    intro s R c w anc lv inner ht h hd hc hsh hcur hm
    simp only [secDepth, capDepth] at hd hc
    obtain ⟨⟨cc, zc⟩, hor, tk⟩ := ht
    have nc : nsec cl = 0 := (leaves_pos cl).mp zc
    have hk := ihk s R c w anc lv inner tk h (by omega) (by omega) hsh hcur hm
    unfold Good at hk
    simp only [exec, pass, anyway]
    cases hx : (pass k c w).2 with
    | normal =>
      simp only [hx] at hk
      obtain ⟨s1, e1, a1, l1, lv1, inner1, sh1, c1, m1, z1, p1, w1⟩ := hk
      simp only [e1, Outcome.bind_ok, ne_eq, not_true_eq_false, decide_false, Bool.or_false]
      have hcl := ihc s1 _ c none anc lv1 inner1 (calm_tidy cc) a1 (by rw [l1]; omega) (by omega) sh1
        (by omega) (by simp only [Mode, nc]; exact Or.inr fun i i1 i2 => by omega)
      unfold Good at hcl
      simp only [calm_exit cc c none] at hcl
      obtain ⟨s2, e2, a2, l2, _, _, _, _, _, z2, _, w2⟩ := hcl
      simp only [e2, Outcome.bind_ok, Outcome.pure_eq]
      rw [← Rep.adds_append] at a2
      refine ⟨s2, rfl, a2, l2.trans l1, lv1, inner1, ?_, c1, m1, ?_, ?_, ?_⟩
      · rw [z2 nc]; exact sh1
      · rw [z2 nc]; exact z1
      · rw [z2 nc]; exact p1
      · rw [w2.1]; exact w1
    | raised e a =>
      simp only [hx] at hk
      obtain ⟨s1, e1, t1, q1⟩ := hk
      rcases hor with hb | hk'
      · obtain ⟨l, r1, r2⟩ := bare_calm cfg hb cc
        simp only [e1, Outcome.bind_ok, r1, r2, Outcome.pure_eq]
        refine ⟨_, rfl, ?_, fun hz => ⟨⟨(q1 hz).1.levels, (q1 hz).1.depth, (q1 hz).1.leaf⟩, (q1 hz).2⟩⟩
        dsimp only
        rw [Rep.adds_append]
        exact t1.acts l
      · rw [calm_exit hk' c w] at hx
        cases hx
  | sec id loc b k ihb ihk =>
    intro s R c w anc lv inner ht h hd hc hsh hcur hm
    simp only [secDepth, capDepth] at hd hc
    have hroom := h.room
    have hdlt : c.path.length < cfg.maxNested := by omega
    -- the section is met but not entered
    have hskip : ∀ w', (s.info.sections.leaf = true ∨
          wanted lv.next (c.path.length + 1) (c.path.length + 1 + inner.length) = false) →
        ((w = none ∧ w' = none) ∨ (∃ n, w = some n ∧ w' = some (n - max 1 (leaves b)) ∧
          ¬ n < max 1 (leaves b))) →
        Mode w' s.info.sections.leaf lv.next inner k → pass (.sec id loc b k) c w = pass k c w' →
        Good s R c (pass (.sec id loc b k) c w)
          (Post (.sec id loc b k) c.path.length anc lv inner s.info.sections.leaf
            s.info.sections.levels w) (PostRaise (.sec id loc b k) s c)
          (exec cfg false (.sec id loc b k) s) := by
      intro w' hw1 hw2 hm' hp
      obtain ⟨s1, e1, s2, e2, a2, l2, cap2, lev2, leaf2⟩ := not_entered h hsh hdlt id loc hw1
      rw [hp]
      simp only [exec, e1, Outcome.bind_ok, Bool.false_eq_true, if_false, e2]
      have hk := ihk s2 R c w' anc lv.next inner ht.2 a2 (by rw [l2]; omega) (by omega)
        ⟨hsh.1, Or.inl lev2⟩ (by rw [Level.next_max]; simp only [Level.next]; omega)
        (by rw [leaf2]; exact hm')
      rw [leaf2] at hk
      have := hk.seq (s := s) (R := R) (l := []) (c := c)
        (P' := Post (.sec id loc b k) c.path.length anc lv inner s.info.sections.leaf
            s.info.sections.levels w) (Q' := PostRaise (.sec id loc b k) s c)
        (by rw [cap2]) l2 (fun t ht => skip_section hsh lev2 hw2 ht)
        (fun t a _ hz => by simp only [leaves] at hz; omega)
      simpa using this
    cases w with
    | none =>
      refine hskip none ?_ (Or.inl ⟨rfl, rfl⟩) ?_ (by simp [pass])
      · rcases hm with hm | hm
        · exact Or.inl hm
        · right
          have := hm (lv.cur + 1) (by omega) (by simp only [nsec]; omega)
          exact wanted_false this.1 this.2
      · rcases hm with hm | hm
        · exact Or.inl hm
        · right
          intro i i1 i2
          simp only [Level.next, nsec] at i1 i2 hm ⊢
          exact hm i (by omega) (by omega)
    | some n =>
      by_cases hn : n < max 1 (leaves b)
      · -- the section is entered
        obtain ⟨m1, m2, m3⟩ := hm
        have hw : wanted lv.next (c.path.length + 1) (c.path.length + 1 + inner.length) = true ∧
            decide (lv.cur = lv.prev) = (n == 0) ∧ (n = 0 → inner = []) ∧
            (n ≠ 0 → inner = { cur := 0, prev := (enc b 0 n).1, max := nsec b } :: (enc b 0 n).2)
            := by
          simp only [enc] at m3
          by_cases h0 : n = 0
          · rw [if_pos h0] at m3
            simp only [Prod.mk.injEq] at m3
            refine ⟨?_, ?_, fun _ => m3.2, fun h => absurd h0 h⟩
            · simp [wanted, Level.next, m3.1]
            · simp [m3.1, h0]
          · rw [if_neg h0, if_pos hn] at m3
            simp only [Prod.mk.injEq] at m3
            refine ⟨?_, ?_, fun h => absurd h h0, fun _ => m3.2⟩
            · simp [wanted, Level.next, m3.1, m3.2]
            · have h1 : ¬ (lv.cur = lv.prev) := by omega
              simp [h1, h0]
        obtain ⟨hw1, hw2, hw3, hw4⟩ := hw
        obtain ⟨s1, e1, a1, l1, cap1, lev1, leaf1⟩ := entered hv h hsh (by omega) id loc m2 hw1
        rw [hw2] at a1
        simp only [exec, e1, Outcome.bind_ok, if_true]
        have hin : (Ctx.inSection c id loc).path.length = c.path.length + 1 := by
          simp [Ctx.inSection]
        obtain ⟨lvE, hlvE⟩ : ∃ l : Level, l = { lv.next with prev := lv.cur + 1 } := ⟨_, rfl⟩
        rw [← hlvE] at lev1
        -- the levels the body sees
        obtain ⟨lvb, innerb, shb, cb, mb, modeb⟩ : ∃ lvb innerb,
            Shape (c.path.length + 1) s1.info.sections.levels (anc ++ [lvE]) lvb innerb ∧
            lvb.cur = 0 ∧ lvb.max ≤ nsec b ∧
            Mode (if leaves b = 0 then none else some n) false lvb innerb b := by
          by_cases h0 : n = 0
          · refine ⟨{}, [], ⟨by simp [hsh.1], Or.inr ⟨?_, rfl, rfl⟩⟩, rfl, Nat.zero_le _, ?_⟩
            · rw [lev1, hw3 h0]
            · split
              · rename_i hb
                right
                intro i i1 i2
                rw [(leaves_pos b).mp hb] at i2
                omega
              · rw [h0]
                refine ⟨by omega, rfl, ?_⟩
                rw [enc_zero]
          · refine ⟨{ cur := 0, prev := (enc b 0 n).1, max := nsec b }, (enc b 0 n).2,
              ⟨by simp [hsh.1], Or.inl ?_⟩, ?_, ?_, ?_⟩
            · rw [lev1, hw4 h0]; simp
            · rfl
            · exact Nat.le_refl _
            · rw [if_neg (by omega)]
              exact ⟨by omega, rfl, rfl⟩
        have hb := ihb s1 _ (Ctx.inSection c id loc) (if leaves b = 0 then none else some n)
          (anc ++ [lvE]) lvb innerb ht.1 a1
          (by rw [l1]; simp only [List.length_append, List.length_cons, List.length_nil]; omega)
          (by simp only [Ctx.inSection]; omega) (by rw [hin]; exact shb) (by omega)
          (by rw [leaf1]; exact modeb)
        have hpass : pass (.sec id loc b k) c (some n) =
            andThen ([.enter id (n == 0)], .normal)
              (andThen (pass b (Ctx.inSection c id loc) (if leaves b = 0 then none else some n))
                (andThen ([.leave id (n + 1 == max 1 (leaves b))], .normal) (pass k c none))) := by
          simp only [pass, if_pos hn]
        rw [hpass]
        generalize pass b (Ctx.inSection c id loc) (if leaves b = 0 then none else some n) = pb at hb ⊢
        obtain ⟨lb, xb⟩ := pb
        unfold Good at hb
        have hadd : ∀ R : Rep, ∀ i, R.add i = R.adds [i] := fun _ _ => rfl
        cases xb with
        | normal =>
          obtain ⟨s2, e2, a2, l2, p2⟩ := hb
          simp only [e2, Outcome.bind_ok, ne_eq, not_true_eq_false, decide_false, Bool.or_false]
          have hloc2 : s2.info.locations = s.info.locations ++ [(loc, .sectionScope)] := l2.trans l1
          obtain ⟨s3, e3, a3, l3, cap3, lev3, leaf3⟩ := leave_normal hv a2 hloc2 h.room h.last
          rw [leaf1, hin] at p2
          have hdep2 : s2.info.sections.depth = c.path.length + 1 := by rw [a2.depth, hin]
          obtain ⟨f1, f2, inner3, f3, f4⟩ := finish_section (id := id) (loc := loc) (k := k)
            hdep2 hn (by rw [hlvE]) (by rw [lev1]; simp) (fun hz => hw3 (by omega)) hsh.1 mb cb p2
          simp only [e3, Outcome.bind_ok]
          rw [f1, hadd] at a3
          rw [hadd] at a3
          dsimp only at a3
          rw [← Rep.adds_append, ← Rep.adds_append] at a3
          have hEc : lvE.cur = lv.cur + 1 := by rw [hlvE]; rfl
          have hEm : lvE.max = max lv.max (lv.cur + 1) := by rw [hlvE]; exact Level.next_max lv
          have hk := ihk s3 _ c none anc lvE inner3 ht.2 a3 (by rw [l3]; omega) (by omega)
            ⟨hsh.1, Or.inl (lev3.trans f3)⟩ (by omega) (Or.inl (leaf3.trans f2))
          have := hk.seq (s := s) (R := R) (c := c)
            (P' := Post (.sec id loc b k) c.path.length anc lv inner s.info.sections.leaf
              s.info.sections.levels (some n)) (Q' := PostRaise (.sec id loc b k) s c)
            (by rw [a3.caps, h.caps]) l3 ?_
            (fun t a _ hz => by simp only [leaves] at hz; omega)
          · simpa [andThen] using this
          · rintro t ⟨lv', inner', sh', c', mx', z', p', lf', pr', in'⟩
            refine ⟨lv', inner', sh', by simp only [nsec]; omega, by simp only [nsec]; omega,
              by simp only [nsec]; omega, ?_, ?_, ?_⟩
            · intro _
              by_cases hk0 : 0 < nsec k
              · exact p' hk0
              · rw [z' (by omega), lev3, f3]
                simp [hsh.1]
            · exact lf'.trans (leaf3.trans f2)
            · rw [pr', in']; exact f4
        | raised e a =>
          obtain ⟨s2, e2, t2, q2⟩ := hb
          simp only [e2, Outcome.bind_ok, ne_eq, reduceCtorEq, not_false_eq_true, decide_true, Bool.or_true]
          obtain ⟨s3, e3, t3⟩ := leave_thrown (cfg := cfg) t2 l1 cap1
          simp only [e3, Outcome.bind_ok, Outcome.pure_eq]
          rw [hadd] at t3
          dsimp only at t3
          rw [← Rep.adds_append] at t3
          refine ⟨s3, rfl, ?_, fun hz => by simp only [leaves] at hz; omega⟩
          simpa [andThen] using t3
      · -- the leaf is in a later section
        obtain ⟨m1, m2, m3⟩ := hm
        simp only [enc, leaves] at m1 m3
        rw [if_neg (by omega), if_neg hn] at m3
        have hg := enc_ge k (lv.cur + 1) (n - max 1 (leaves b))
        rw [← m3] at hg
        simp only at hg
        refine hskip (some (n - max 1 (leaves b))) (Or.inr ?_) (Or.inr ⟨n, rfl, rfl, hn⟩) ?_ ?_
        · refine wanted_false (by omega) ?_
          rintro ⟨g1, g2⟩
          have := hg.2 g2
          omega
        · exact ⟨by omega, m2, m3⟩
        · simp only [pass, if_neg hn]

end Verif.Run
