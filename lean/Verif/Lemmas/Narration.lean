import Verif.Spec.Narration
import Verif.Lemmas.Document
import Verif.Props.Program
/-!
# From events to lines and messages
-/
namespace Verif.Events
open Verif.Events.Spec Verif.Report Verif.Report.Spec

/-! ## The flags of failures -/

private theorem failure_visible : ∀ x : Run.Spec.Item, x.isFailure = true → x.visible 3 = true := by
  intro x hx
  cases x <;> first | cases hx | skip
  rename_i ok _ _
  cases ok <;> first | rfl | cases hx

/-- The failures in the log of a test are marked as expected if the test should fail and its body does, and as allowed if it may
fail. -/
theorem flags_exact [Run.MessageLimit] {cfg : Run.Cfg} {fuel : Nat} {t : Run.TestCase} {s : Run.TS}
    {ps : List Filter.ParsedTag} (hf : Props.Fits cfg t ps) (ht : Run.Spec.Always Run.Spec.Tidy t.body)
    (hfuel : Run.Spec.passCount t.body.first ≤ fuel) (h : Run.run cfg fuel t = some (.ok s)) :
    ∀ x ∈ s.log.filterMap logFlags,
      x = (ps.contains .shouldFail && (Run.Spec.happens t).any Run.Spec.Item.isFailure, ps.contains .mayFail) := by
  rw [Run.run_hide] at h
  obtain ⟨u, hr, hl⟩ := Props.C19_meaning (cfg := Run.full cfg) (t := t) (tags := ps) ⟨hf.alike, hf.sections, hf.captures, hf.tags⟩ ht hfuel
  rw [hr] at h
  cases h
  rw [show (Run.hide cfg.verbosity u).log = Run.Spec.shown cfg.verbosity u.log from rfl, flags_filter]
  obtain ⟨ps', b, hps', hb, hm, h1, h2, rfl⟩ := Run.run_body rfl hr
  obtain rfl : ps = ps' := by
    have : Outcome.ok ps = Outcome.ok ps' := hf.tags.symm.trans hps'
    cases this; rfl
  obtain ⟨_, _, _, hcases⟩ := Run.final_core (cfg := Run.full cfg) rfl t hb
  have hsplit := Run.log_split (cfg := Run.full cfg) rfl t hb
  have hbody : ∀ x ∈ b.log.filterMap logFlags, x = (ps.contains .shouldFail, ps.contains .mayFail) ∧
      b.log.any Run.Spec.isFailure = true := by
    intro x hx
    obtain ⟨e, he, hf⟩ := List.mem_filterMap.1 hx
    have hfe : Run.Spec.isFailure e = true := by cases e <;> first | rfl | cases hf
    refine ⟨?_, List.any_eq_true.2 ⟨e, he, hfe⟩⟩
    obtain ⟨ctx, data, rfl⟩ := hm.flags e he hfe
    cases hf
    rw [← h1, ← h2]; rfl
  have hstate : b.state = Run.stateOf (b.mayFail || b.shouldFail) b.log := hb.state
  have hstory : Run.Spec.caseStory t (ps.contains .shouldFail) = Run.Spec.effective (Run.Spec.happens t ++
      if ps.contains .shouldFail then [.assertion ((Run.Spec.happens t).any Run.Spec.Item.isFailure)
        (Run.Spec.Ctx.exactly (Run.Spec.topCtx t.loc) t.loc) "expected test to fail".toList] else []) := rfl
  rw [hstory] at hl
  have hv : (Run.full cfg).verbosity = 3 := rfl
  rw [hv] at hl
  intro x hx
  rw [hsplit, List.filterMap_append] at hx
  simp only [List.filterMap_cons, List.filterMap_nil, logFlags, List.append_nil] at hx
  rcases hcases with ⟨e0, _, _, _, _, e⟩ | ⟨⟨e0, e1⟩, _, _, _, _, c, d, e⟩ | ⟨⟨e0, e1⟩, _, _, _, _, c, d, e⟩
  · rw [e] at hx
    obtain ⟨rfl, hany⟩ := hbody x hx
    rcases e0 with e0 | e0
    · rw [h2] at e0
      rw [e0]; rfl
    · rw [e0, Run.stateOf, if_pos hany] at hstate
      split at hstate <;> cases hstate
  · rw [e, List.filterMap_append] at hx
    simp only [List.filterMap_cons, List.filterMap_nil, logFlags, List.append_nil] at hx
    obtain ⟨rfl, hany⟩ := hbody x hx
    have hsh : ps.contains .shouldFail = true := by rw [← h2]; exact e0
    rw [hsh] at hl ⊢
    cases hfl : (Run.Spec.happens t).any Run.Spec.Item.isFailure with
    | true => rfl
    | false =>
      exfalso
      rw [if_pos rfl, hfl] at hl
      have hfail := Run.any_observed hl Run.Spec.isFailure Run.Spec.Item.isFailure (fun e => by cases e <;> rfl)
        failure_visible
      cases hsk : Run.Spec.skipsTest (Run.Spec.happens t) with
      | true =>
        rw [(Run.skips_failures hsk _).1, hsplit, e] at hfail
        simp [hany] at hfail
      | false =>
        rw [(Run.clean_kept hsk hfl _).1, hsplit, e] at hl
        simp only [List.filterMap_append, List.filter_append] at hl
        have h : (b.log.filterMap Run.Spec.observed ++ [Run.Spec.Item.assertion true c d]) ++ [] =
          (Run.Spec.happens t).filter (Run.Spec.Item.visible 3) ++ [Run.Spec.Item.assertion false
            (Run.Spec.Ctx.exactly (Run.Spec.topCtx t.loc) t.loc) "expected test to fail".toList] := hl
        rw [List.append_nil] at h
        have := List.append_inj_right' h rfl
        simp at this
  · have hnone : b.log.any Run.Spec.isFailure = false := by
      cases hany : b.log.any Run.Spec.isFailure with
      | false => rfl
      | true =>
        rw [e1, Run.stateOf, if_pos hany] at hstate
        split at hstate <;> cases hstate
    have hsh : ps.contains .shouldFail = true := by rw [← h2]; exact e0
    rw [e, List.filterMap_append] at hx
    simp only [List.filterMap_cons, List.filterMap_nil, logFlags, List.mem_append, List.mem_singleton] at hx
    rcases hx with hx | rfl
    · rw [(hbody x hx).2] at hnone; cases hnone
    · rw [hsh] at hl ⊢
      rw [h1]
      cases hfl : (Run.Spec.happens t).any Run.Spec.Item.isFailure with
      | false => rfl
      | true =>
        exfalso
        rw [if_pos rfl, hfl] at hl
        have hfail := Run.any_observed hl Run.Spec.isFailure Run.Spec.Item.isFailure (fun e => by cases e <;> rfl)
          failure_visible
        cases hsk : Run.Spec.skipsTest (Run.Spec.happens t) with
        | true =>
          rw [(Run.skips_failures hsk _).1, hsplit, e] at hfail
          simp [Run.Spec.isFailure] at hfail
        | false =>
          rw [Run.fails_kept hsk hfl, hsplit, e] at hl
          simp only [List.filterMap_append, List.filter_append] at hl
          have h : (b.log.filterMap Run.Spec.observed ++ [Run.Spec.Item.assertion false c d]) ++ [] =
            (Run.Spec.happens t).filter (Run.Spec.Item.visible 3) ++ [Run.Spec.Item.assertion true
              (Run.Spec.Ctx.exactly (Run.Spec.topCtx t.loc) t.loc) "expected test to fail".toList] := hl
          rw [List.append_nil] at h
          have := List.append_inj_right' h rfl
          simp at this

/-! ## The events of a test -/

/-- What is told about a test: at verbosity *high* or more its start and its end, and what happens in between. -/
theorem parts_of_test [Run.MessageLimit] {src : Source} {cfg : Run.Cfg} {fuel : Nat} {t : Run.TestCase} {s : Run.TS}
    (hr : Run.run cfg fuel t = some (.ok s)) {es : List Event} (h : Tells src t s es) :
    ∃ mid counts state d, es = (if 2 ≤ cfg.verbosity then [.caseStarted (declared src t) (src.loc t.loc)] else []) ++ mid ++
        (if 2 ≤ cfg.verbosity then [.caseEnded (declared src t) (src.loc t.loc) counts state d false false] else []) ∧
      ∀ e ∈ mid, ∃ x, heard e = some x := by
  by_cases hv : 2 ≤ cfg.verbosity
  · obtain ⟨mid, a, f, al, hl, hin⟩ := Run.run_log_state hv hr
    obtain ⟨rest, state, d, hes, hst⟩ := h.ends mid a f al _ hl
    have told := h.told
    rw [hl] at told
    rw [hes, List.cons_append, List.cons_append, List.map_cons, List.map_append] at told
    obtain ⟨e1, e2, h12, t1, t2⟩ := told.cons_inv
    obtain ⟨e3, e4, rfl, t3, t4⟩ := t2.append_inv
    obtain ⟨e5, e6, rfl, t5, t6⟩ := t4.cons_inv
    cases t6
    cases t1
    cases t5
    rw [List.singleton_append, List.cons.injEq, List.append_nil] at h12
    obtain ⟨-, h2⟩ := h12
    obtain ⟨h2, -⟩ := List.append_inj' h2 rfl
    rw [← h2] at t3
    refine ⟨rest, ⟨a, f, al⟩, state, d, ?_, inner_told hin t3⟩
    rw [if_pos hv, if_pos hv]
    exact hes
  · refine ⟨es, ⟨0, 0, 0⟩, .success, ⟨[], 0⟩, by rw [if_neg hv, if_neg hv]; simp, inner_told ?_ h.told⟩
    intro e he
    rw [Run.run_hide] at hr
    cases hu : Run.run (Run.full cfg) fuel t with
    | none => rw [hu] at hr; cases hr
    | some o =>
      rw [hu] at hr
      cases o with
      | abort => cases hr
      | ub => cases hr
      | ok u =>
        obtain ⟨mid, a, f, al, hl, hin⟩ := Run.run_log_state (cfg := Run.full cfg) (show 2 ≤ 3 by omega) hu
        simp only [Run.omapo, Run.omap_ok, Option.some.injEq, Outcome.ok.injEq] at hr
        subst hr
        rw [show (Run.hide cfg.verbosity u).log = Run.Spec.shown cfg.verbosity u.log from rfl, Run.Spec.shown,
          List.mem_filter, hl] at he
        obtain ⟨hm, hlev⟩ := he
        simp only [List.cons_append, List.mem_cons, List.mem_append, List.not_mem_nil, or_false] at hm
        rcases hm with rfl | hm | rfl
        · exact absurd (of_decide_eq_true hlev) hv
        · exact hin e hm
        · exact absurd (of_decide_eq_true hlev) hv

theorem map_heard {β : Type} (f : Event → β) (g : Heard → β) {es : List Event}
    (h : ∀ e ∈ es, ∃ x, heard e = some x ∧ f e = g x) : es.map f = (es.filterMap heard).map g := by
  induction es with
  | nil => rfl
  | cons e es ih =>
    obtain ⟨x, h1, h2⟩ := h e (by simp)
    rw [List.map_cons, List.filterMap_cons_some h1, List.map_cons, h2, ih fun e he => h e (by simp [he])]

/-! ## Lines -/

/-- Without lists, lines do not depend on what was told before. -/
theorem toldAll_unlisted (rl : Report.Limits) {es : List Console.Event}
    (h : ∀ e ∈ es, ∀ n, Console.told rl n e = Console.told rl 0 e) (n : Nat) :
    Console.toldAll rl n es = es.flatMap (Console.told rl 0) := by
  induction es generalizing n with
  | nil => rfl
  | cons e es ih =>
    rw [Console.toldAll, List.flatMap_cons, h e (by simp), ih fun e he => h e (by simp [he])]

/-- An event about a test, with the right flags. -/
structure Right (id : Id) (loc : Location) (expected allowed : Bool) (e : Event) : Prop where
  about : About id loc e
  flags : ∀ x, failedFlags e = some x → x = (expected, allowed)

theorem lines_of_heard (rl : Report.Limits) {id : Id} {loc : Location} {expected allowed : Bool} {e : Event}
    (h : Right id loc expected allowed e) {x : Heard} (hx : heard e = some x) :
    Console.told rl 0 e.console = x.lines id (Console.failureKind expected allowed) := by
  obtain ⟨h1, h2⟩ := h
  cases e <;> cases hx
  all_goals first | rfl | skip
  · cases h1
    have := h2 _ rfl
    cases this
    rfl
  · cases h1; rfl
  · cases h1; rfl

theorem message_of_heard (rl : Report.Limits) {id : Id} {loc : Location} {expected allowed : Bool} {e : Event}
    (h : Right id loc expected allowed e) {x : Heard} (hx : heard e = some x) :
    TeamCity.told rl e.report = [x.message id (!expected && !allowed)] := by
  obtain ⟨h1, h2⟩ := h
  cases e <;> cases hx
  all_goals first | rfl | skip
  · cases h1
    have := h2 _ rfl
    cases this
    cases expected <;> cases allowed <;> rfl
  · cases h1; rfl
  · cases h1; rfl

end Verif.Events
