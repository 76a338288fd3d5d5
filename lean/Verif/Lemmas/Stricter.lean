import Verif.Spec.Stricter
import Verif.Lemmas.Infos
import Verif.Lemmas.RunCase
/-! # Lemmas for C100 -/
namespace Verif.Run.Stricter
open Verif.Run Verif.Run.Spec
open Verif.Run.Neutral (Like LikeR LikeO like_iff)

/-- Alike in everything C97 and C99 ask for. -/
structure Both (s t : TS) : Prop where
  kept : Like true s t
  counted : Like false s t

theorem Both.rfl {s : TS} : Both s s := ⟨.rfl, .rfl⟩

/-- The verdict is final. -/
def Stable (c : Verif.Run.Core) : Prop :=
  c.state = .skipped ∨ (c.state = .failed ∧ (c.mayFail || c.shouldFail) = false) ∨ c.state = .allowedFail

theorem Stable.step {c : Verif.Run.Core} (h : Stable c) (p : Prim) :
    (c.step p).state = c.state ∧ (c.step p).mayFail = c.mayFail ∧ (c.step p).shouldFail = c.shouldFail ∧ c.log <+: (c.step p).log := by
  obtain ⟨a, f, al, m, sf, st, log⟩ := c
  simp only [Stable] at h
  cases p with
  | neutral e he => exact ⟨rfl, rfl, rfl, List.prefix_append _ _⟩
  | skip ctx msg =>
    rcases h with rfl | ⟨rfl, _⟩ | rfl <;> exact ⟨rfl, rfl, rfl, List.prefix_append _ _⟩
  | assertion ok ctx data =>
    rcases h with rfl | ⟨rfl, hm⟩ | rfl
    · exact ⟨rfl, rfl, rfl, List.prefix_refl _⟩
    · cases ok
      · simp [Verif.Run.Core.step, hm, raiseTo]
      · exact ⟨rfl, rfl, rfl, List.prefix_append _ _⟩
    · cases ok
      · cases m <;> cases sf <;> exact ⟨rfl, rfl, rfl, List.prefix_append _ _⟩
      · exact ⟨rfl, rfl, rfl, List.prefix_append _ _⟩

theorem Stable.steps (ps : List Prim) : ∀ {c : Verif.Run.Core}, Stable c →
    (c.steps ps).state = c.state ∧ (c.steps ps).mayFail = c.mayFail ∧ (c.steps ps).shouldFail = c.shouldFail ∧ c.log <+: (c.steps ps).log := by
  induction ps with
  | nil => intro c _; exact ⟨rfl, rfl, rfl, List.prefix_refl _⟩
  | cons p ps ih =>
    intro c h
    have h1 := h.step p
    have h2 : Stable (c.step p) := by
      unfold Stable
      rw [h1.1, h1.2.1, h1.2.2.1]
      exact h
    have h3 := ih h2
    exact ⟨h3.1.trans h1.1, h3.2.1.trans h1.2.1, h3.2.2.1.trans h1.2.2.1, h1.2.2.2.trans h3.2.2.2⟩

/-- The executions have gone different ways, and the verdict is final and the same. -/
structure Split (s t : TS) : Prop where
  state : s.state = t.state
  may : s.mayFail = t.mayFail
  should : s.shouldFail = t.shouldFail
  stable : Stable (Verif.Run.core s)
  log : s.state = .skipped ∨ Forked (s.log.filterMap essence) (t.log.filterMap essence)

theorem Split.stable' {s t : TS} (h : Split s t) : Stable (Verif.Run.core t) := by
  have := h.stable
  simp only [Stable, Verif.Run.core] at this ⊢
  rw [← h.state, ← h.may, ← h.should]
  exact this

theorem prefix_filterMap {α β : Type} (f : α → Option β) {a b : List α} (h : a <+: b) : a.filterMap f <+: b.filterMap f := by
  obtain ⟨c, rfl⟩ := h
  rw [List.filterMap_append]
  exact List.prefix_append _ _

theorem forked_of_prefix {a b a' b' : List Essence} (h : Forked a b) (ha : a <+: a') (hb : b <+: b') : Forked a' b' := by
  obtain ⟨pre, d, d', x, m, h1, h2⟩ := h
  exact ⟨pre, d, d', x, m, h1.trans ha, h2.trans hb⟩

theorem Split.reach {s t s' t' : TS} (h : Split s t) (hs : Reach s s') (ht : Reach t t') : Split s' t' := by
  obtain ⟨ps, hps⟩ := hs
  obtain ⟨qs, hqs⟩ := ht
  have h1 := h.stable.steps ps
  have h2 := h.stable'.steps qs
  rw [← hps] at h1
  rw [← hqs] at h2
  obtain ⟨a1, a2, a3, a4⟩ := h1
  obtain ⟨b1, b2, b3, b4⟩ := h2
  simp only [Verif.Run.core] at a1 a2 a3 a4 b1 b2 b3 b4
  refine ⟨by rw [a1, b1, h.state], by rw [a2, b2, h.may], by rw [a3, b3, h.should], ?_, ?_⟩
  · have := h.stable
    simp only [Stable, Verif.Run.core] at this ⊢
    rw [a1, a2, a3]
    exact this
  · rw [a1]
    rcases h.log with h | h
    · exact .inl h
    · exact .inr (forked_of_prefix h (prefix_filterMap _ a4) (prefix_filterMap _ b4))

/-- What the two ways of going on lead to. -/
def Related (s : TS) (r : Res) (t : TS) (r' : Res) : Prop := (r = r' ∧ Both s t) ∨ Split s t

theorem both_of {β : Type} {x y : Outcome (TS × β)} (h : LikeR true x y) (g : LikeR false x y) {s t : TS} {r r' : β}
    (hx : x = .ok (s, r)) (hy : y = .ok (t, r')) : r = r' ∧ Both s t := by
  subst hx
  subst hy
  rcases h.elim with ⟨s1, t1, b, e1, e2, hl⟩ | ⟨e, _⟩ | ⟨e, _⟩
  · rcases g.elim with ⟨s2, t2, b2, f1, f2, gl⟩ | ⟨e, _⟩ | ⟨e, _⟩
    · cases e1
      cases e2
      cases f1
      cases f2
      exact ⟨Eq.refl _, hl, gl⟩
    · cases e
    · cases e
  · cases e
  · cases e

theorem both_ofO {x y : Outcome TS} (h : LikeO true x y) (g : LikeO false x y) {s t : TS} (hx : x = .ok s) (hy : y = .ok t) : Both s t := by
  subst hx
  subst hy
  rcases h.elim with ⟨s1, t1, e1, e2, hl⟩ | ⟨e, _⟩ | ⟨e, _⟩
  · rcases g.elim with ⟨s2, t2, f1, f2, gl⟩ | ⟨e, _⟩ | ⟨e, _⟩
    · cases e1
      cases e2
      cases f1
      cases f2
      exact ⟨hl, gl⟩
    · cases e
    · cases e
  · cases e
  · cases e

/-- A failure in both, with texts that may differ. -/
theorem split_failed (cfg : Cfg) (fl : Bool) (d d' : Text) {s t : TS} (h : Both s t) :
    Split (reportAssertion (full cfg) fl false d s) (reportAssertion (full cfg) fl false d' t) := by
  have hk := like_iff.mp h.kept
  rw [Neutral.ess_true] at hk
  obtain ⟨-, -, -, -, -, -, -, -, hm, hs, -, hst, hlog⟩ := hk
  have e1 := core_reportAssertion (fl := fl) cfg false d s
  have e2 := core_reportAssertion (fl := fl) cfg false d' t
  generalize reportAssertion (full cfg) fl false d s = s' at e1 ⊢
  generalize reportAssertion (full cfg) fl false d' t = t' at e2 ⊢
  simp only [Verif.Run.Core.steps, List.foldl_cons, List.foldl_nil, Verif.Run.Core.step] at e1 e2
  by_cases hsk : s.state = .skipped
  · have hsk' : t.state = .skipped := hst ▸ hsk
    rw [if_pos (show (Verif.Run.core s).state = _ from hsk)] at e1
    rw [if_pos (show (Verif.Run.core t).state = _ from hsk')] at e2
    simp only [Verif.Run.core, Verif.Run.Core.mk.injEq] at e1 e2
    refine ⟨by rw [e1.2.2.2.2.2.1, e2.2.2.2.2.2.1, hst], by rw [e1.2.2.2.1, e2.2.2.2.1, hm], by rw [e1.2.2.2.2.1, e2.2.2.2.2.1, hs], ?_,
      .inl (by rw [e1.2.2.2.2.2.1, hsk])⟩
    exact .inl (by simp only [Verif.Run.core]; rw [e1.2.2.2.2.2.1, hsk])
  · have hsk' : ¬ t.state = .skipped := hst ▸ hsk
    rw [if_neg (show ¬ (Verif.Run.core s).state = _ from hsk)] at e1
    rw [if_neg (show ¬ (Verif.Run.core t).state = _ from hsk')] at e2
    simp only [Bool.false_eq_true, if_false] at e1 e2
    have hfork : ∀ c c' : Ctx, Forked ((s.log ++ [Event.assertionFailed c d s.shouldFail s.mayFail]).filterMap essence)
        ((t.log ++ [Event.assertionFailed c' d' t.shouldFail t.mayFail]).filterMap essence) := by
      intro c c'
      rw [List.filterMap_append, List.filterMap_append, hlog, hm, hs]
      exact ⟨_, d, d', _, _, List.prefix_refl _, List.prefix_refl _⟩
    by_cases hmay : (s.mayFail || s.shouldFail) = true
    · have hmay' : (t.mayFail || t.shouldFail) = true := by rw [← hm, ← hs]; exact hmay
      rw [if_pos (show ((Verif.Run.core s).mayFail || (Verif.Run.core s).shouldFail) = true from hmay)] at e1
      rw [if_pos (show ((Verif.Run.core t).mayFail || (Verif.Run.core t).shouldFail) = true from hmay')] at e2
      simp only [Verif.Run.core, Verif.Run.Core.mk.injEq] at e1 e2
      have key : ∀ x : CaseState, raiseTo .allowedFail x = .allowedFail := by intro x; cases x <;> rfl
      rw [key] at e1 e2
      refine ⟨by rw [e1.2.2.2.2.2.1, e2.2.2.2.2.2.1], by rw [e1.2.2.2.1, e2.2.2.2.1, hm], by rw [e1.2.2.2.2.1, e2.2.2.2.2.1, hs], ?_, .inr ?_⟩
      · exact .inr (.inr e1.2.2.2.2.2.1)
      · rw [e1.2.2.2.2.2.2, e2.2.2.2.2.2.2]
        exact hfork _ _
    · have hmay' : ¬ (t.mayFail || t.shouldFail) = true := by rw [← hm, ← hs]; exact hmay
      rw [if_neg (show ¬ ((Verif.Run.core s).mayFail || (Verif.Run.core s).shouldFail) = true from hmay)] at e1
      rw [if_neg (show ¬ ((Verif.Run.core t).mayFail || (Verif.Run.core t).shouldFail) = true from hmay')] at e2
      simp only [Verif.Run.core, Verif.Run.Core.mk.injEq] at e1 e2
      have key : ∀ x : CaseState, x ≠ .allowedFail → raiseTo .failed x = .failed := by intro x hx; cases x <;> first | rfl | exact absurd (Eq.refl _) hx
      refine ⟨by rw [e1.2.2.2.2.2.1, e2.2.2.2.2.2.1, hst], by rw [e1.2.2.2.1, e2.2.2.2.1, hm], by rw [e1.2.2.2.2.1, e2.2.2.2.2.1, hs], ?_, .inr ?_⟩
      · simp only [Stable, Verif.Run.core]
        rw [e1.2.2.2.2.2.1, e1.2.2.2.1, e1.2.2.2.2.1]
        by_cases ha : s.state = .allowedFail
        · exact .inr (.inr (by rw [ha]; rfl))
        · exact .inr (.inl ⟨key _ ha, by simpa using hmay⟩)
      · rw [e1.2.2.2.2.2.2, e2.2.2.2.2.2.2]
        exact hfork _ _

/-- Checks that pass, with other texts. -/
theorem both_passed (cfg : Cfg) (fl : Bool) (d d' : Text) {s t : TS} (h : Both s t) :
    Both (reportAssertion cfg fl true d s) (reportAssertion cfg fl true d' t) := by
  have hd : ∀ kc, Like kc (reportAssertion cfg fl true d' t) (reportAssertion cfg fl true d t) := by
    intro kc
    unfold reportAssertion
    split
    · exact .rfl
    · exact (Neutral.like_emit_none cfg 3 (by rfl) _).trans (Neutral.like_emit_none cfg 3 (by rfl) _).symm
  exact ⟨(Neutral.assertion_like cfg fl true d h.kept).trans (hd _).symm, (Neutral.assertion_like cfg fl true d h.counted).trans (hd _).symm⟩

theorem both_endCheck {fl : Bool} {r r1 r2 : Res} {s t s' t' : TS} (h : Both s t) (hx : endCheck fl r s = .ok (s', r1))
    (hy : endCheck fl r t = .ok (t', r2)) : Related s' r1 t' r2 :=
  .inl (both_of (Neutral.endCheck_like fl r h.kept) (Neutral.endCheck_like fl r h.counted) hx hy)

theorem split_endCheck {fl : Bool} {r r' r1 r2 : Res} {s t s' t' : TS} (h : Split s t) (hx : endCheck fl r s = .ok (s', r1))
    (hy : endCheck fl r' t = .ok (t', r2)) : Related s' r1 t' r2 :=
  .inr (h.reach (reach_endCheck hx).1 (reach_endCheck hy).1)

section
variable [MessageLimit]

theorem both_answer (cfg : Cfg) {fl : Bool} {a : Ask} {ev : Option Exn} {s t s' t' : TS} {r r' : Res} (h : Both s t)
    (hx : answer cfg fl a ev s = .ok (s', r)) (hy : answer cfg fl a ev t = .ok (t', r')) : Related s' r t' r' :=
  .inl (both_of (Neutral.answer_like cfg fl a ev h.kept) (Neutral.answer_like cfg fl a ev h.counted) hx hy)

theorem matches_true {cfg : Cfg} {fl : Bool} {type : Nat} {name desc : Text} {e : Exn} (hc : e.types.contains type = true) {s : TS} :
    answer cfg fl (.throwsMatches type name true desc false) (some e) s = answer cfg fl (.throwsMatches type name true desc true) (some e) s := by
  unfold answer
  dsimp only
  rw [if_pos hc, if_pos hc, if_neg (by decide), if_neg (by decide)]

theorem matches_false {cfg : Cfg} {fl : Bool} {type : Nat} {name desc : Text} {e : Exn} (hc : e.types.contains type = true) :
    ∃ d r r', (∀ s, answer cfg fl (.throwsMatches type name false desc false) (some e) s =
        endCheck fl r (notify cfg (reportAssertion cfg fl false d s))) ∧
      ∀ s, answer cfg fl (.throwsMatches type name false desc true) (some e) s =
        endCheck fl r' (notify cfg (reportAssertion cfg fl false d s)) := by
  refine ⟨joined ("could not match caught ".toList ++ name ++ " with expected content: ".toList) desc, maybeAbort false, maybeAbort true,
    fun s => ?_, fun s => ?_⟩
  · unfold answer
    dsimp only
    rw [if_pos hc, if_pos (by rfl)]
  · unfold answer
    dsimp only
    rw [if_pos hc, if_pos (by rfl)]

theorem matches_other {cfg : Cfg} {fl : Bool} {type : Nat} {name desc : Text} {matched : Bool} {e : Exn}
    (hc : ¬ e.types.contains type = true) :
    ∃ d r r', (∀ s, answer cfg fl (.throwsMatches type name matched desc false) (some e) s =
        endCheck fl r (notify cfg (reportAssertion cfg fl false d s))) ∧
      ∀ s, answer cfg fl (.throwsMatches type name matched desc true) (some e) s =
        endCheck fl r' (notify cfg (reportAssertion cfg fl false d s)) := by
  refine ⟨otherMessage (name ++ " expected but other std::exception thrown; message: ".toList)
    (name ++ " expected but other unknown exception thrown".toList) e, maybeAbort false, maybeAbort true, fun s => ?_, fun s => ?_⟩
  · unfold answer
    dsimp only
    rw [if_neg hc]
  · unfold answer
    dsimp only
    rw [if_neg hc]

theorem answer_related (cfg : Cfg) {fl : Bool} {a b : Ask} (hab : StricterAsk a b) {ev : Option Exn} {s t s' t' : TS} {r r' : Res}
    (h : Both s t) (hx : answer (full cfg) fl a ev s = .ok (s', r)) (hy : answer (full cfg) fl b ev t = .ok (t', r')) :
    Related s' r t' r' := by
  have caught : ∀ {d : Text} {x y : Res}, endCheck fl x (notify (full cfg) (reportAssertion (full cfg) fl false d s)) = .ok (s', r) →
      endCheck fl y (notify (full cfg) (reportAssertion (full cfg) fl false d t)) = .ok (t', r') → Related s' r t' r' :=
    fun hx hy => split_endCheck ((split_failed cfg fl _ _ h).reach (reach_notify cfg _) (reach_notify cfg _)) hx hy
  cases hab with
  | same => exact both_answer (full cfg) h hx hy
  | @check ok d d' =>
    cases ev with
    | some e => exact both_endCheck h hx hy
    | none =>
      cases ok with
      | true => exact both_endCheck (both_passed _ _ _ _ h) hx hy
      | false => exact split_endCheck (split_failed cfg fl _ _ h) hx hy
  | @throwsAs type name =>
    cases ev with
    | none => exact split_endCheck (split_failed cfg fl _ _ h) hx hy
    | some e =>
      by_cases hc : e.types.contains type = true
      · refine both_answer (full cfg) (a := .throwsAs type name true) h ?_ hy
        simpa only [answer, hc, if_true] using hx
      · simp only [answer, hc, if_false, Bool.false_eq_true] at hx hy
        exact caught hx hy
  | @throwsMatches type name matched desc =>
    cases ev with
    | none => exact split_endCheck (split_failed cfg fl _ _ h) hx hy
    | some e =>
      by_cases hc : e.types.contains type = true
      · cases matched with
        | true =>
          refine both_answer (full cfg) (a := .throwsMatches type name true desc true) h ?_ hy
          exact (matches_true hc).symm.trans hx
        | false =>
          obtain ⟨d, r1, r2, h1, h2⟩ := matches_false (cfg := full cfg) (fl := fl) (name := name) (desc := desc) hc
          exact caught ((h1 s).symm.trans hx) ((h2 t).symm.trans hy)
      · obtain ⟨d, r1, r2, h1, h2⟩ := matches_other (cfg := full cfg) (fl := fl) (name := name) (desc := desc) (matched := matched) hc
        exact caught ((h1 s).symm.trans hx) ((h2 t).symm.trans hy)
  | @nothrow text =>
    cases ev with
    | none => exact both_answer (full cfg) (a := .nothrow text true) h hx hy
    | some e => exact caught hx hy

omit [MessageLimit] in
theorem checkEnter_both {cfg : Cfg} {fl : Bool} {loc : Nat} {s t s' t' : TS} (h : Both s t) (hx : checkEnter cfg fl loc s = .ok s')
    (hy : checkEnter cfg fl loc t = .ok t') : Both s' t' :=
  both_ofO (Neutral.checkEnter_like cfg fl loc h.kept) (Neutral.checkEnter_like cfg fl loc h.counted) hx hy

omit [MessageLimit] in
theorem stmt_asks {m n : Stmt} (h : StricterStmt m n) : m = n ∨
    ∃ loc a b ev, m.asks = some (loc, a, ev) ∧ n.asks = some (loc, b, ev) ∧ StricterAsk a b := by
  cases h with
  | same => exact .inl (Eq.refl _)
  | @check loc ev d d' =>
    cases ev with
    | val ok => exact .inr ⟨_, _, _, _, rfl, rfl, .check⟩
    | exc e => exact .inr ⟨_, _, _, _, rfl, rfl, .check⟩
  | throwsAs => exact .inr ⟨_, _, _, _, rfl, rfl, .throwsAs⟩
  | throwsMatches => exact .inr ⟨_, _, _, _, rfl, rfl, .throwsMatches⟩
  | nothrow => exact .inr ⟨_, _, _, _, rfl, rfl, .nothrow⟩

theorem stmt_related (cfg : Cfg) {fl : Bool} {m n : Stmt} (hmn : StricterStmt m n) {s t s' t' : TS} {r r' : Res}
    (h : Both s t) (hx : execStmt (full cfg) fl m s = .ok (s', r)) (hy : execStmt (full cfg) fl n t = .ok (t', r')) :
    Related s' r t' r' := by
  rcases stmt_asks hmn with rfl | ⟨loc, a, b, ev, hm, hn, hab⟩
  · exact .inl (both_of (Neutral.execStmt_like _ fl m h.kept) (Neutral.execStmt_like _ fl m h.counted) hx hy)
  · rw [execStmt_asks hm] at hx
    rw [execStmt_asks hn] at hy
    obtain ⟨s1, e1, hx⟩ := bind_eq_ok hx
    obtain ⟨t1, f1, hy⟩ := bind_eq_ok hy
    exact answer_related cfg hab (checkEnter_both h e1 f1) hx hy

/-- How code goes on after a part of it. -/
def goOn (cfg : Cfg) (fl : Bool) (k : Prog) (s : TS) : Res → Outcome (TS × Res)
  | .normal => exec cfg fl k s
  | .raised e => .ok (s, .raised e)

theorem reach_goOn {cfg : Cfg} {fl : Bool} {k : Prog} {s s' : TS} {r r' : Res} (h : goOn (full cfg) fl k s r = .ok (s', r')) : Reach s s' := by
  cases r with
  | normal => exact reach_exec h
  | raised e => cases h; exact Reach.refl _

theorem goOn_related {cfg : Cfg} {fl : Bool} {p q : Prog}
    (ih : ∀ {s t s' t' : TS} {r r' : Res}, Both s t → exec (full cfg) fl p s = .ok (s', r) → exec (full cfg) fl q t = .ok (t', r') →
      Related s' r t' r') {s t s' t' : TS} {r0 r0' r r' : Res} (h : Related s r0 t r0') (hx : goOn (full cfg) fl p s r0 = .ok (s', r))
    (hy : goOn (full cfg) fl q t r0' = .ok (t', r')) : Related s' r t' r' := by
  rcases h with ⟨rfl, h⟩ | h
  · cases r0 with
    | normal => exact ih h hx hy
    | raised e => cases hx; cases hy; exact .inl ⟨rfl, h⟩
  · exact .inr (h.reach (reach_goOn hx) (reach_goOn hy))

theorem exec_related (cfg : Cfg) {p q : Prog} (h : Stricter p q) : ∀ (fl : Bool) {s t s' t' : TS} {r r' : Res}, Both s t →
    exec (full cfg) fl p s = .ok (s', r) → exec (full cfg) fl q t = .ok (t', r') → Related s' r t' r' := by
  induction h with
  | done => intro fl s t s' t' r r' h hx hy; cases hx; cases hy; exact .inl ⟨rfl, h⟩
  | @stmt m n p q hmn _ ih =>
    intro fl s t s' t' r r' h hx hy
    rw [exec] at hx hy
    obtain ⟨⟨s1, r1⟩, e1, hx⟩ := bind_eq_ok hx
    obtain ⟨⟨t1, r2⟩, f1, hy⟩ := bind_eq_ok hy
    refine goOn_related (ih fl) (stmt_related cfg hmn h e1 f1) ?_ ?_
    · cases r1 <;> exact hx
    · cases r2 <;> exact hy
  | @sec id loc b c p q _ _ ihb ihk =>
    intro fl s t s' t' r r' h hx hy
    rw [exec] at hx hy
    obtain ⟨⟨s1, en⟩, e1, hx⟩ := bind_eq_ok hx
    obtain ⟨⟨t1, en'⟩, f1, hy⟩ := bind_eq_ok hy
    obtain ⟨rfl, h1⟩ := both_of (Neutral.enterSection_like _ fl id loc h.kept) (Neutral.enterSection_like _ fl id loc h.counted) e1 f1
    have leave : ∀ {en u : Bool} {s t s' t' : TS}, Both s t → leaveSection (full cfg) en u s = .ok s' →
        leaveSection (full cfg) en u t = .ok t' → Both s' t' :=
      fun h hx hy => both_ofO (Neutral.leaveSection_like _ _ _ h.kept) (Neutral.leaveSection_like _ _ _ h.counted) hx hy
    cases en with
    | false =>
      simp only [Bool.false_eq_true, if_false] at hx hy
      obtain ⟨s2, e2, hx⟩ := bind_eq_ok hx
      obtain ⟨t2, f2, hy⟩ := bind_eq_ok hy
      exact ihk fl (leave h1 e2 f2) hx hy
    | true =>
      simp only [if_true] at hx hy
      obtain ⟨⟨s2, r1⟩, e2, hx⟩ := bind_eq_ok hx
      obtain ⟨⟨t2, r2⟩, f2, hy⟩ := bind_eq_ok hy
      obtain ⟨s3, e3, hx⟩ := bind_eq_ok hx
      obtain ⟨t3, f3, hy⟩ := bind_eq_ok hy
      have h3 : Related s3 r1 t3 r2 := by
        rcases ihb fl h1 e2 f2 with ⟨rfl, h2⟩ | h2
        · exact .inl ⟨rfl, leave h2 e3 f3⟩
        · exact .inr (h2.reach (reach_leaveSection e3) (reach_leaveSection f3))
      refine goOn_related (ihk fl) h3 ?_ ?_
      · cases r1 <;> exact hx
      · cases r2 <;> exact hy
  | @capture caps p q _ ih =>
    intro fl s t s' t' r r' h hx hy
    rw [exec] at hx hy
    obtain ⟨s1, e1, hx⟩ := bind_eq_ok hx
    obtain ⟨t1, f1, hy⟩ := bind_eq_ok hy
    obtain ⟨⟨s2, r1⟩, e2, hx⟩ := bind_eq_ok hx
    obtain ⟨⟨t2, r2⟩, f2, hy⟩ := bind_eq_ok hy
    obtain ⟨s3, e3, hx⟩ := bind_eq_ok hx
    obtain ⟨t3, f3, hy⟩ := bind_eq_ok hy
    cases hx
    cases hy
    have h1 : Both s1 t1 := by
      refine ⟨?_, ((Neutral.like_addCaptures _ fl caps e1).trans h.counted).trans (Neutral.like_addCaptures _ fl caps f1).symm⟩
      have := Neutral.addCaptures_like (full cfg) fl caps h.kept
      rw [e1, f1] at this
      rcases this.elim with ⟨_, _, g1, g2, hl⟩ | ⟨g, _⟩ | ⟨g, _⟩
      · cases g1; cases g2; exact hl
      · cases g
      · cases g
    rcases ih fl h1 e2 f2 with ⟨rfl, h2⟩ | h2
    · refine .inl ⟨rfl, ?_, ((Neutral.like_popCaptures e3).trans h2.counted).trans (Neutral.like_popCaptures f3).symm⟩
      have := Neutral.popCaptures_like caps.length (fl || decide (r ≠ .normal)) h2.kept
      rw [e3, f3] at this
      rcases this.elim with ⟨_, _, g1, g2, hl⟩ | ⟨g, _⟩ | ⟨g, _⟩
      · cases g1; cases g2; exact hl
      · cases g
      · cases g
    · exact .inr (h2.reach (reach_popCaptures e3) (reach_popCaptures f3))
  | @block b c p q _ _ ihb ihk =>
    intro fl s t s' t' r r' h hx hy
    rw [exec] at hx hy
    obtain ⟨⟨s1, r1⟩, e1, hx⟩ := bind_eq_ok hx
    obtain ⟨⟨t1, r2⟩, f1, hy⟩ := bind_eq_ok hy
    refine goOn_related (ihk fl) (ihb fl h e1 f1) ?_ ?_
    · cases r1 <;> exact hx
    · cases r2 <;> exact hy
  | @tryCatch type b c g d p q _ _ _ ihb ihh ihk =>
    intro fl s t s' t' r r' h hx hy
    rw [exec] at hx hy
    obtain ⟨⟨s1, r1⟩, e1, hx⟩ := bind_eq_ok hx
    obtain ⟨⟨t1, r2⟩, f1, hy⟩ := bind_eq_ok hy
    have rest : ∀ {h k : Prog} {s s' : TS} {r0 r : Res}, (match r0 with
        | .normal => exec (full cfg) fl k s
        | .raised e => if catches type e then (do
            let (s, r) ← exec (full cfg) fl h s
            match r with
            | .normal => exec (full cfg) fl k s
            | .raised e => return (s, .raised e)) else return (s, .raised e)) = Outcome.ok (s', r) → Reach s s' := by
      intro h k s s' r0 r hx
      cases r0 with
      | normal => exact reach_exec hx
      | raised e =>
        dsimp only at hx
        split at hx
        · obtain ⟨⟨s2, r2⟩, e2, hx⟩ := bind_eq_ok hx
          refine (reach_exec e2).trans (reach_goOn (k := k) (r := r2) (r' := r) (fl := fl) (cfg := cfg) ?_)
          cases r2 <;> exact hx
        · cases hx; exact Reach.refl _
    rcases ihb fl h e1 f1 with ⟨rfl, h1⟩ | h1
    · cases r1 with
      | normal => exact ihk fl h1 hx hy
      | raised e =>
        dsimp only at hx hy
        by_cases hc : catches type e = true
        · rw [if_pos hc] at hx hy
          obtain ⟨⟨s2, r1⟩, e2, hx⟩ := bind_eq_ok hx
          obtain ⟨⟨t2, r2⟩, f2, hy⟩ := bind_eq_ok hy
          refine goOn_related (ihk fl) (ihh fl h1 e2 f2) ?_ ?_
          · cases r1 <;> exact hx
          · cases r2 <;> exact hy
        · rw [if_neg hc] at hx hy
          cases hx
          cases hy
          exact .inl ⟨rfl, h1⟩
    · exact .inr (h1.reach (rest hx) (rest hy))
  | @nested loc b c a a' p q ha _ _ ihb ihk =>
    intro fl s t s' t' r r' h hx hy
    rw [exec] at hx hy
    obtain ⟨s1, e1, hx⟩ := bind_eq_ok hx
    obtain ⟨t1, f1, hy⟩ := bind_eq_ok hy
    obtain ⟨⟨s2, r1⟩, e2, hx⟩ := bind_eq_ok hx
    obtain ⟨⟨t2, r2⟩, f2, hy⟩ := bind_eq_ok hy
    obtain ⟨⟨s3, r3⟩, e3, hx⟩ := bind_eq_ok hx
    obtain ⟨⟨t3, r4⟩, f3, hy⟩ := bind_eq_ok hy
    have h3 : Related s3 r3 t3 r4 := by
      rcases ihb fl (checkEnter_both h e1 f1) e2 f2 with ⟨rfl, h2⟩ | h2
      · exact answer_related cfg ha h2 e3 f3
      · exact .inr (h2.reach (reach_answer e3) (reach_answer f3))
    refine goOn_related (ihk fl) h3 ?_ ?_
    · cases r3 <;> exact hx
    · cases r4 <;> exact hy
  | @guard b c p q _ _ ihb ihk =>
    intro fl s t s' t' r r' h hx hy
    rw [exec] at hx hy
    obtain ⟨⟨s1, r1⟩, e1, hx⟩ := bind_eq_ok hx
    obtain ⟨⟨t1, r2⟩, f1, hy⟩ := bind_eq_ok hy
    obtain ⟨⟨s2, r3⟩, e2, hx⟩ := bind_eq_ok hx
    obtain ⟨⟨t2, r4⟩, f2, hy⟩ := bind_eq_ok hy
    cases r3 with
    | raised e => cases hx
    | normal =>
      cases r4 with
      | raised e => cases hy
      | normal =>
        cases hx
        cases hy
        rcases ihk fl h e1 f1 with ⟨rfl, h1⟩ | h1
        · rcases ihb _ h1 e2 f2 with ⟨_, h2⟩ | h2
          · exact .inl ⟨rfl, h2⟩
          · exact .inr h2
        · exact .inr (h1.reach (reach_exec e2) (reach_exec f2))

theorem runLoop_related (cfg : Cfg) {bs cs : Nat → Prog} (hb : ∀ n, Stricter (bs n) (cs n)) : ∀ (fuel fuel' n : Nat) {s t s' t' : TS}
    {r r' : Res}, Both s t → runLoop (full cfg) bs fuel n s = some (.ok (s', r)) → runLoop (full cfg) cs fuel' n t = some (.ok (t', r')) →
      Related s' r t' r'
  | 0, _, _, _, _, _, _, _, _, _, h, _ => by cases h
  | _ + 1, 0, _, _, _, _, _, _, _, _, _, h => by cases h
  | fuel + 1, fuel' + 1, n, s, t, s', t', r, r', h, hx, hy => by
    have sec : ∀ {x y : SecState} {s t : TS}, Both s t → x.current.map (·.id) = y.current.map (·.id) → x.levels = y.levels →
        x.depth = y.depth → x.leaf = y.leaf → Both (setSections x s) (setSections y t) :=
      fun h h1 h2 h3 h4 => ⟨Neutral.sections_like h.kept h1 h2 h3 h4, Neutral.sections_like h.counted h1 h2 h3 h4⟩
    have hr : Both (resetPass s) (resetPass t) := by
      have h' := like_iff.mp h.kept
      exact sec h h'.1 (by rw [h'.2.1]) h'.2.2.1 rfl
    have loop : ∀ {bs : Nat → Prog} {fuel : Nat} {s1 s' : TS} {r1 r : Res}, (match (Outcome.ok (s1, r1) : Outcome (TS × Res)) with
        | .abort => some .abort
        | .ub => some .ub
        | .ok (s, .raised e) => some (.ok (s, .raised e))
        | .ok (s, .normal) =>
          if !(clearFinished s).info.sections.levels.isEmpty && decide ((clearFinished s).state ≠ .skipped) then
            runLoop (full cfg) bs fuel (n + 1) (clearFinished s)
          else some (.ok (clearFinished s, .normal))) = some (Outcome.ok (s', r)) → Reach s1 s' := by
      intro bs fuel s1 s' r1 r hx
      cases r1 with
      | raised e => cases hx; exact Reach.refl _
      | normal =>
        dsimp only at hx
        refine (Reach.of_core (core_clearFinished s1)).trans ?_
        split at hx
        · exact reach_runLoop hx
        · cases hx; exact Reach.refl _
    rw [runLoop] at hx hy
    cases ex : exec (full cfg) false (bs n) (resetPass s) with
    | abort => rw [ex] at hx; cases hx
    | ub => rw [ex] at hx; cases hx
    | ok x1 =>
      cases ey : exec (full cfg) false (cs n) (resetPass t) with
      | abort => rw [ey] at hy; cases hy
      | ub => rw [ey] at hy; cases hy
      | ok y1 =>
        obtain ⟨s1, r1⟩ := x1
        obtain ⟨t1, r2⟩ := y1
        rw [ex] at hx
        rw [ey] at hy
        rcases exec_related cfg (hb n) false hr ex ey with ⟨rfl, h1⟩ | h1
        · cases r1 with
          | raised e => cases hx; cases hy; exact .inl ⟨rfl, h1⟩
          | normal =>
            dsimp only at hx hy
            have hc : Both (clearFinished s1) (clearFinished t1) := by
              have h' := like_iff.mp h1.kept
              unfold clearFinished
              rw [h'.2.1]
              split
              · split
                · exact sec h1 rfl rfl h'.2.2.1 h'.2.2.2.1
                · exact h1
              · exact h1
            have hc' := like_iff.mp hc.kept
            rw [hc'.2.1, hc'.2.2.2.2.2.2.2.2.2.2.2.1] at hx
            split at hy
            · rename_i hcond
              rw [if_pos hcond] at hx
              exact runLoop_related cfg hb fuel fuel' (n + 1) hc hx hy
            · rename_i hcond
              rw [if_neg hcond] at hx
              cases hx
              cases hy
              exact .inl ⟨rfl, hc⟩
        · exact .inr (h1.reach (loop hx) (loop hy))

/-- What can be said of the final states. -/
def Ends (x y : TS) : Prop :=
  Both x y ∨ (x.state = y.state ∧ (x.state = .skipped ∨ Forked (x.log.filterMap essence) (y.log.filterMap essence)))

omit [MessageLimit] in
private theorem should_stable (cfg : Cfg) {s : TS} (h : Stable (Verif.Run.core s)) :
    (checkShouldFail (full cfg) s).state = s.state ∧ s.log <+: (checkShouldFail (full cfg) s).log := by
  unfold checkShouldFail
  split
  · rename_i hs
    have h' : Stable (Verif.Run.core (setInCheck true (setShouldFail false s))) := by
      rcases h with h | ⟨_, h⟩ | h
      · exact .inl h
      · exfalso
        simp only [Verif.Run.core, hs, Bool.or_true] at h
        cases h
      · exact .inr (.inr h)
    have e := core_reportAssertion (fl := false) cfg (decide (s.state = .allowedFail)) "expected test to fail".toList
      (setInCheck true (setShouldFail false s))
    have hh := h'.steps [.assertion (decide (s.state = .allowedFail)) (assertionCtx false (registerAssertion
      (decide (s.state = .allowedFail)) (setInCheck true (setShouldFail false s)))) "expected test to fail".toList]
    rw [← e] at hh
    exact ⟨hh.1, hh.2.2.2⟩
  · exact ⟨rfl, List.prefix_refl _⟩

theorem run_related {cfg : Cfg} {fuel fuel' : Nat} {t u : TestCase} (h : StricterTest t u) {x y : TS}
    (hx : run (full cfg) fuel t = some (.ok x)) (hy : run (full cfg) fuel' u = some (.ok y)) : Ends x y := by
  obtain ⟨tags, s, r, ht, hl, rfl⟩ := run_parts hx
  obtain ⟨tags', s', r', ht', hl', rfl⟩ := run_parts hy
  rw [h.id, ht] at ht'
  cases ht'
  have hi : initState (full cfg) u tags = initState (full cfg) t tags := by simp only [initState, freshState, h.id, h.loc]
  rw [hi] at hl'
  rcases runLoop_related cfg h.body fuel fuel' 0 Both.rfl hl hl' with ⟨rfl, hb⟩ | hb
  · exact .inl ⟨Neutral.finish_like _ h.id hb.kept r, Neutral.finish_like _ h.id hb.counted r⟩
  · have h1 := hb.reach (reach_afterLoop cfg s r) (reach_afterLoop cfg s' r')
    have a := should_stable cfg h1.stable
    have b := should_stable cfg h1.stable'
    have ha : ∀ (t : TestCase) (s : TS), (endCase (full cfg) t s).state = s.state ∧ s.log <+: (endCase (full cfg) t s).log := by
      intro t s
      unfold endCase emit
      split
      · exact ⟨rfl, List.prefix_append _ _⟩
      · exact ⟨rfl, List.prefix_refl _⟩
    refine .inr ⟨by rw [(ha t _).1, (ha u _).1, a.1, b.1, h1.state], ?_⟩
    rcases h1.log with h2 | h2
    · exact .inl (by rw [(ha t _).1, a.1, h2])
    · exact .inr (forked_of_prefix h2 (prefix_filterMap _ (a.2.trans (ha t _).2)) (prefix_filterMap _ (b.2.trans (ha u _).2)))

end
end Verif.Run.Stricter
