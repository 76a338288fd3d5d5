import Verif.Spec.Infos
import Verif.Lemmas.Neutral
/-! # Lemmas for C99 -/
namespace Verif.Run.Neutral
open Verif.Run Verif.Run.Spec

theorem ess_false : ess false = unnoted := by
  funext e
  cases e <;> rfl

variable [MessageLimit]

omit [MessageLimit] in
/-- Like `Sim.bind`, with the results at hand. -/
theorem Sim.bindWith {kc : Bool} {β γ : Type} {x y : Outcome (TS × β)} (h : Sim kc x y) {f g : TS × β → Outcome (TS × γ)}
    (hf : ∀ s t b, x = .ok (s, b) → y = .ok (t, b) → Like kc s t → Sim kc (f (s, b)) (g (t, b))) : Sim kc (x >>= f) (y >>= g) := by
  intro t b hy
  obtain ⟨⟨t1, b1⟩, h1, hy⟩ := bind_eq_ok hy
  obtain ⟨s1, rfl, hl⟩ := h t1 b1 h1
  exact hf s1 t1 b1 rfl h1 hl t b hy

omit [MessageLimit] in
theorem LikeO.bindWith {kc : Bool} {β : Type} {x y : Outcome TS} (h : LikeO kc x y) {f g : TS → Outcome (TS × β)}
    (hf : ∀ s t, x = .ok s → y = .ok t → Like kc s t → Sim kc (f s) (g t)) : Sim kc (x >>= f) (y >>= g) := by
  rcases h.elim with ⟨s, t, rfl, rfl, hl⟩ | ⟨rfl, rfl⟩ | ⟨rfl, rfl⟩
  · exact hf s t rfl rfl hl
  · intro _ _ h; cases h
  · intro _ _ h; cases h

omit [MessageLimit] in
theorem like_pushCapture (c : Text) (s : TS) : Like false (pushCapture c s) s := by simp [like_iff, pushCapture]

omit [MessageLimit] in
/-- Captures are added without changing anything else. -/
theorem like_addCaptures (cfg : Cfg) (fl : Bool) : ∀ (l : List Text) {s t : TS}, addCaptures cfg fl l s = .ok t → Like false t s
  | [], _, _, h => by cases h; exact .rfl
  | c :: l, s, t, h => by
    unfold addCaptures at h
    split at h
    · cases h
    · exact ((like_addCaptures cfg fl l h).trans (like_pushCapture c _)).trans (like_arrive cfg fl s)

omit [MessageLimit] in
/-- They can be added where there are no more captures than elsewhere. -/
theorem addCaptures_room (cfg : Cfg) (fl : Bool) : ∀ (l : List Text) {s t t' : TS},
    s.info.captures.length ≤ t.info.captures.length → addCaptures cfg fl l t = .ok t' → ∃ s', addCaptures cfg fl l s = .ok s'
  | [], s, _, _, _, _ => ⟨s, rfl⟩
  | c :: l, s, t, t', hc, h => by
    unfold addCaptures at h ⊢
    split at h
    · cases h
    · rename_i hn
      rw [if_neg (by omega)]
      refine addCaptures_room cfg fl l ?_ h
      simp only [pushCapture, arrive_info, List.length_append]
      omega

omit [MessageLimit] in
theorem like_popCaptures {n : Nat} {u : Bool} {s t : TS} (h : popCaptures n u s = .ok t) : Like false t s := by
  unfold popCaptures at h
  dsimp only at h
  split at h
  · cases h
    exact Like.trans (t := hold u s) (by simp [like_iff]) (like_hold u s)
  · cases h

omit [MessageLimit] in
private theorem caps_of {s t : TS} (h : scope s = scope t) : s.info.captures = t.info.captures := congrArg Prod.fst h

theorem exec_notes (cfg : Cfg) {p q : Prog} (h : Notes p q) : ∀ (fl : Bool) {s t : TS}, Like false s t →
    s.info.captures.length ≤ t.info.captures.length → Sim false (exec cfg fl p s) (exec cfg fl q t) := by
  induction h with
  | done => intro fl s t h _; exact .ok _ h
  | @more caps p q _ ih =>
    intro fl s t h hc t' b hy
    rw [exec] at hy
    obtain ⟨t1, h1, hy⟩ := bind_eq_ok hy
    obtain ⟨⟨t2, r2⟩, h2, hy⟩ := bind_eq_ok hy
    obtain ⟨t3, h3, hy⟩ := bind_eq_ok hy
    cases hy
    have hcap : t1.info.captures = t.info.captures ++ caps := congrArg Prod.fst (addCaptures_scope h1)
    obtain ⟨s2, e2, l2⟩ := ih fl (h.trans (like_addCaptures cfg fl caps h1).symm) (by rw [hcap, List.length_append]; omega) t2 _ h2
    exact ⟨s2, e2, l2.trans (like_popCaptures h3).symm⟩
  | @stmt m p q _ ih =>
    intro fl s t h hc
    rw [exec, exec]
    refine (execStmt_like cfg fl m h).sim.bindWith fun s' t' r e1 e2 h => ?_
    cases r with
    | normal => exact ih fl h (by rw [caps_of (execStmt_scope e1), caps_of (execStmt_scope e2)]; exact hc)
    | raised e => exact .ok _ h
  | @sec id loc b c p q _ _ ihb ihk =>
    intro fl s t h hc
    rw [exec, exec]
    refine (enterSection_like cfg fl id loc h).sim.bindWith fun s1 t1 en e1 e2 h => ?_
    have c1 : s1.info.captures = s.info.captures := by
      have := congrArg Prod.fst (enterSection_scope e1)
      cases en <;> exact this
    have c2 : t1.info.captures = t.info.captures := by
      have := congrArg Prod.fst (enterSection_scope e2)
      cases en <;> exact this
    cases en with
    | false =>
      refine (leaveSection_like cfg false fl h).bindWith fun s2 t2 e1 e2 h => ihk fl h ?_
      rw [caps_of (leaveSection_scope e1), caps_of (leaveSection_scope e2), c1, c2]
      exact hc
    | true =>
      refine (ihb fl h (by rw [c1, c2]; exact hc)).bindWith fun s2 t2 r f1 f2 h => ?_
      refine (leaveSection_like cfg true _ h).bindWith fun s3 t3 e1 e2 h => ?_
      have g1 : s3.info.captures = s2.info.captures := congrArg Prod.fst (leaveSection_scope e1)
      have g2 : t3.info.captures = t2.info.captures := congrArg Prod.fst (leaveSection_scope e2)
      cases r with
      | normal =>
        refine ihk fl h ?_
        rw [g1, g2, caps_of (exec_scope _ f1), caps_of (exec_scope _ f2), c1, c2]
        exact hc
      | raised e => exact .ok _ h
  | @capture caps p q _ ih =>
    intro fl s t h hc t' b hy
    rw [exec] at hy ⊢
    obtain ⟨t1, h1, hy⟩ := bind_eq_ok hy
    obtain ⟨⟨t2, r2⟩, h2, hy⟩ := bind_eq_ok hy
    obtain ⟨t3, h3, hy⟩ := bind_eq_ok hy
    cases hy
    obtain ⟨s1, g1⟩ := addCaptures_room cfg fl caps hc h1
    have hcap : t1.info.captures = t.info.captures ++ caps := congrArg Prod.fst (addCaptures_scope h1)
    have hcap' : s1.info.captures = s.info.captures ++ caps := congrArg Prod.fst (addCaptures_scope g1)
    obtain ⟨s2, g2, l2⟩ := ih fl (((like_addCaptures cfg fl caps g1).trans h).trans (like_addCaptures cfg fl caps h1).symm)
      (by rw [hcap, hcap', List.length_append, List.length_append]; omega) t2 _ h2
    have c2 : s2.info.captures = s.info.captures ++ caps := (caps_of (exec_scope _ g2)).trans hcap'
    have hp : ∃ s3, popCaptures caps.length (fl || decide (b ≠ .normal)) s2 = .ok s3 := by
      unfold popCaptures
      dsimp only
      rw [hold_info, if_pos (by rw [c2, List.length_append]; omega)]
      exact ⟨_, rfl⟩
    obtain ⟨s3, g3⟩ := hp
    refine ⟨s3, ?_, ((like_popCaptures g3).trans l2).trans (like_popCaptures h3).symm⟩
    rw [g1, Outcome.bind_ok, g2, Outcome.bind_ok]
    dsimp only
    rw [g3]
    rfl
  | @block b c p q _ _ ihb ihk =>
    intro fl s t h hc
    rw [exec, exec]
    refine (ihb fl h hc).bindWith fun s1 t1 r e1 e2 h => ?_
    cases r with
    | normal => exact ihk fl h (by rw [caps_of (exec_scope _ e1), caps_of (exec_scope _ e2)]; exact hc)
    | raised e => exact .ok _ h
  | @tryCatch type b c g d p q _ _ _ ihb ihh ihk =>
    intro fl s t h hc
    rw [exec, exec]
    refine (ihb fl h hc).bindWith fun s1 t1 r e1 e2 h => ?_
    have hc1 : s1.info.captures.length ≤ t1.info.captures.length := by
      rw [caps_of (exec_scope _ e1), caps_of (exec_scope _ e2)]; exact hc
    cases r with
    | normal => exact ihk fl h hc1
    | raised e =>
      dsimp only
      split
      · refine (ihh fl h hc1).bindWith fun s2 t2 r f1 f2 h => ?_
        cases r with
        | normal => exact ihk fl h (by rw [caps_of (exec_scope _ f1), caps_of (exec_scope _ f2)]; exact hc1)
        | raised e => exact .ok _ h
      · exact .ok _ h
  | @nested loc b c ask p q _ _ ihb ihk =>
    intro fl s t h hc
    rw [exec, exec]
    refine (checkEnter_like cfg fl loc h).bindWith fun s1 t1 e1 e2 h => ?_
    have i1 := checkEnter_scope e1
    have i2 := checkEnter_scope e2
    have hc1 : s1.info.captures.length ≤ t1.info.captures.length := by
      rw [i1, i2]; exact hc
    refine (ihb fl h hc1).bindWith fun s2 t2 r f1 f2 h => ?_
    refine (answer_like cfg fl ask r.thrown h).sim.bindWith fun s3 t3 r g1 g2 h => ?_
    cases r with
    | normal =>
      refine ihk fl h ?_
      have a1 := answer_scope g1 (x := s) (l := (loc, .inCheck)) ((exec_scope _ f1).trans (scope_info i1))
      have a2 := answer_scope g2 (x := t) (l := (loc, .inCheck)) ((exec_scope _ f2).trans (scope_info i2))
      rw [caps_of a1, caps_of a2]
      exact hc
    | raised e => exact .ok _ h
  | @guard b c p q _ _ ihb ihk =>
    intro fl s t h hc
    rw [exec, exec]
    refine (ihk fl h hc).bindWith fun s1 t1 r e1 e2 h => ?_
    refine (ihb _ h (by rw [caps_of (exec_scope _ e1), caps_of (exec_scope _ e2)]; exact hc)).bind fun s t r' h => ?_
    cases r' with
    | normal => exact .ok _ h
    | raised e => intro _ _ h; cases h

theorem run_notes {cfg : Cfg} {fuel : Nat} {t u : TestCase} (h : NotesTest t u) {y : TS} (hy : run cfg fuel u = some (.ok y)) :
    ∃ x, run cfg fuel t = some (.ok x) ∧ Like false x y :=
  run_sim h.id h.loc (fun n cfg _ _ hl hc => exec_notes cfg (h.body n) false hl hc) hy

end Verif.Run.Neutral

namespace Verif.Reg.Neutral
open Verif.Reg Verif.Reg.Spec Verif.Run.Spec Verif.Run.Neutral

theorem essOut_false : essOut false = unnotedOut := by
  funext o
  cases o <;> simp only [essOut, unnotedOut, ess_false]

theorem main_notes [Run.MessageLimit] {lim : Limits} {fuel maxArgs : Nat} {reporters : List Text} {init : Nat → Nat → Nat}
    {config : Cli.Config} {argv0 : Text} {argv : List Text} {cs ds : List Case}
    (h : List.Forall₂ (fun c d : Case => NotesTest c.test d.test) cs ds) {code : Nat} {out : List Out}
    (hr : main lim fuel maxArgs reporters init config argv0 argv ds = some (.ok (code, out))) :
    ∃ out', main lim fuel maxArgs reporters init config argv0 argv cs = some (.ok (code, out')) ∧
      out'.filterMap unnotedOut = out.filterMap unnotedOut := by
  rw [← essOut_false]
  exact main_sim (kc := false) (h.imp fun _ _ hcd => ⟨hcd.id, run_notes hcd⟩) hr

end Verif.Reg.Neutral
