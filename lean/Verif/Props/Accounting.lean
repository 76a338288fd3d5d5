import Verif.Props.Sections
/-!
# C25–C28, C30, C45: counts, final states, verbosity, exception macros
-/
namespace Verif.Props
open Verif Verif.Run Verif.Run.Spec

/-- A failure which nobody expected and which is not allowed. -/
def isRealFailure : Event → Bool
  | .assertionFailed _ _ expected allowed => !(expected || allowed)
  | _ => false

/-- A failure which was expected (`[!shouldfail]`) or is allowed (`[!mayfail]`). -/
def isTolerated : Event → Bool
  | .assertionFailed _ _ expected allowed => expected || allowed
  | _ => false

/-- A failure of the test itself in a test that should fail. -/
def isExpectedFailure : Event → Bool
  | .assertionFailed _ _ expected _ => expected
  | _ => false

/-! ## Facts about the log of a finished run -/

private theorem marked_counts {b : TS} (hb : Counted (core b)) (hm : Marked (core b)) :
    b.asserts = (b.log.filter isAssertion).length ∧
    b.failures = (b.log.filter isRealFailure).length ∧
    b.allowed = (b.log.filter isTolerated).length := by
  have h1 : b.asserts = (b.log.filter isAssertion).length := hb.asserts
  have h2 : b.failures = if b.mayFail || b.shouldFail then 0 else (b.log.filter isFailure).length :=
    hb.failures
  have h3 : b.allowed = if b.mayFail || b.shouldFail then (b.log.filter isFailure).length else 0 :=
    hb.allowed
  have hf : ∀ e ∈ b.log, isFailure e = true →
      ∃ ctx data, e = .assertionFailed ctx data b.shouldFail b.mayFail := hm.flags
  refine ⟨h1, ?_, ?_⟩
  · rw [h2]
    by_cases hsf : (b.mayFail || b.shouldFail) = true
    · rw [if_pos hsf]
      symm
      rw [List.length_eq_zero_iff, List.filter_eq_nil_iff]
      intro e he hr
      have hfe : isFailure e = true := by cases e <;> first | rfl | cases hr
      obtain ⟨c, d, rfl⟩ := hf e he hfe
      simp only [isRealFailure] at hr
      rw [Bool.or_comm, hsf] at hr; cases hr
    · rw [if_neg hsf]
      rw [Bool.not_eq_true] at hsf
      congr 1
      apply List.filter_congr
      intro e he
      cases e with
      | assertionFailed c d x y =>
        obtain ⟨c', d', he'⟩ := hf _ he rfl
        cases he'
        simp only [isFailure, isRealFailure]
        rw [Bool.or_comm, hsf]; rfl
      | _ => rfl
  · rw [h3]
    by_cases hsf : (b.mayFail || b.shouldFail) = true
    · rw [if_pos hsf]
      congr 1
      apply List.filter_congr
      intro e he
      cases e with
      | assertionFailed c d x y =>
        obtain ⟨c', d', he'⟩ := hf _ he rfl
        cases he'
        simp only [isFailure, isTolerated]
        rw [Bool.or_comm, hsf]
      | _ => rfl
    · rw [if_neg hsf]
      rw [Bool.not_eq_true] at hsf
      symm
      rw [List.length_eq_zero_iff, List.filter_eq_nil_iff]
      intro e he hr
      have hfe : isFailure e = true := by cases e <;> first | rfl | cases hr
      obtain ⟨c, d, rfl⟩ := hf e he hfe
      simp only [isTolerated] at hr
      rw [Bool.or_comm, hsf] at hr; cases hr

private theorem length_snoc {p : Event → Bool} (l : List Event) (e : Event) :
    ((l ++ [e]).filter p).length = (l.filter p).length + if p e then 1 else 0 := by
  rw [List.filter_append, List.length_append]
  cases h : p e <;> simp [h]

/-! ## C25 -/

/-- **C25**. For every test body, the number of assertions of a test case is the number of assertion
events of its run, `failures` is the number of failures that are neither expected nor allowed, and
`allowed` the number of the other failures; the end event carries exactly these numbers. (Events of
the run at full verbosity, which shows all of them; C30 tells the rest.) -/
theorem C25_counts [Run.MessageLimit] {cfg : Cfg} (hv : cfg.verbosity = 3) {fuel : Nat} {t : TestCase} {s : TS}
    (h : run cfg fuel t = some (.ok s)) :
    s.asserts = (s.log.filter isAssertion).length ∧
    s.failures = (s.log.filter isRealFailure).length ∧
    s.allowed = (s.log.filter isTolerated).length ∧
    s.failures + s.allowed = (s.log.filter isFailure).length ∧
    s.failures + s.allowed ≤ s.asserts ∧
    s.log.getLast? = some (.caseEnded t.id s.asserts s.failures s.allowed s.state) := by
  obtain ⟨tags, b, ht, hb, hm, h1, h2, rfl⟩ := run_body hv h
  obtain ⟨c1, c2, c3⟩ := marked_counts hb hm
  obtain ⟨_, _, hlast, hcases⟩ := final_core hv t hb
  have hsplit := log_split hv t hb
  have hmain : (endCase cfg t (checkShouldFail cfg b)).asserts =
        ((endCase cfg t (checkShouldFail cfg b)).log.filter isAssertion).length ∧
      (endCase cfg t (checkShouldFail cfg b)).failures =
        ((endCase cfg t (checkShouldFail cfg b)).log.filter isRealFailure).length ∧
      (endCase cfg t (checkShouldFail cfg b)).allowed =
        ((endCase cfg t (checkShouldFail cfg b)).log.filter isTolerated).length := by
    generalize hs : endCase cfg t (checkShouldFail cfg b) = s at hsplit hcases ⊢
    rw [hsplit, length_snoc, length_snoc, length_snoc]
    simp only [isAssertion, isRealFailure, isTolerated, Bool.false_eq_true, if_false, Nat.add_zero]
    rcases hcases with ⟨_, e1, e2, e3, _, e5⟩ | ⟨_, e1, e2, e3, _, c, d, e5⟩ |
      ⟨_, e1, e2, e3, _, c, d, e5⟩
    · rw [e5, e1, e2, e3]; exact ⟨c1, c2, c3⟩
    · rw [e5, length_snoc, length_snoc, length_snoc, e1, e2, e3]
      simp only [isAssertion, isRealFailure, isTolerated, Bool.false_eq_true, if_false, if_true,
        Nat.add_zero]
      exact ⟨by rw [c1], c2, c3⟩
    · rw [e5, length_snoc, length_snoc, length_snoc, e1, e2, e3]
      simp only [isAssertion, isRealFailure, isTolerated, if_true, Bool.false_or]
      refine ⟨by rw [c1], ?_, by rw [c3]⟩
      rw [c2]; cases b.mayFail <;> rfl
  obtain ⟨m1, m2, m3⟩ := hmain
  have hsum : ∀ l : List Event, (l.filter isRealFailure).length + (l.filter isTolerated).length =
      (l.filter isFailure).length ∧ (l.filter isFailure).length ≤ (l.filter isAssertion).length := by
    intro l
    induction l with
    | nil => exact ⟨rfl, Nat.le_refl _⟩
    | cons e l ih =>
      obtain ⟨i1, i2⟩ := ih
      cases e with
      | assertionFailed c d x y =>
        simp only [List.filter_cons, isRealFailure, isTolerated, isFailure, isAssertion, if_true,
          List.length_cons]
        cases x <;> cases y <;> simp <;> omega
      | assertionSucceeded c d =>
        simp only [List.filter_cons, isRealFailure, isTolerated, isFailure, isAssertion, if_true,
          List.length_cons, Bool.false_eq_true, if_false]
        omega
      | _ =>
        simp only [List.filter_cons, isRealFailure, isTolerated, isFailure, isAssertion,
          Bool.false_eq_true, if_false]
        exact ⟨i1, i2⟩
  obtain ⟨q1, q2⟩ := hsum (endCase cfg t (checkShouldFail cfg b)).log
  refine ⟨m1, m2, m3, ?_, ?_, hlast⟩
  · rw [m2, m3]; exact q1
  · rw [m2, m3, m1, q1]; exact q2

/-- **C25**. For tidy bodies, what is counted is what is executed: the assertions the test evaluates
(before a skip), plus the assertion that no exception escaped (or the failure that one did), plus the
check that a test that should fail did fail. -/
theorem C25_counts_evaluated [Run.MessageLimit] {cfg : Cfg} (hv : cfg.verbosity = 3) {t : TestCase}
    {tags : List Filter.ParsedTag} (hf : Fits cfg t tags) (ht : Always Tidy t.body) {fuel : Nat}
    (hfuel : passCount t.body.first ≤ fuel) :
    ∃ s, run cfg fuel t = some (.ok s) ∧
      s.asserts = ((caseStory t (tags.contains .shouldFail)).filter Item.isAssertion).length ∧
      s.failures + s.allowed =
        ((caseStory t (tags.contains .shouldFail)).filter Item.isFailure).length := by
  obtain ⟨s, h1, h2⟩ := C19_meaning hf ht hfuel
  refine ⟨s, h1, ?_⟩
  obtain ⟨c1, _, _, c4, _⟩ := C25_counts hv h1
  rw [c1, c4]
  have key : ∀ (p : Event → Bool) (q : Item → Bool), (∀ x, q x = true → x.visible 3 = true) →
      (∀ e, p e = (match observed e with | some x => q x | none => false)) →
      ∀ (l : List Event) (m : List Item), l.filterMap observed = m.filter (Item.visible 3) →
      (l.filter p).length = (m.filter q).length := by
    intro p q hq hp l m hlm
    have e1 : (l.filter p).length = ((l.filterMap observed).filter q).length := by
      clear hlm
      induction l with
      | nil => rfl
      | cons e l ih =>
        rw [List.filter_cons, hp e]
        cases ho : observed e with
        | none => rw [List.filterMap_cons_none ho]; simpa using ih
        | some x =>
          rw [List.filterMap_cons_some ho, List.filter_cons]
          simp only
          by_cases hqx : q x = true
          · rw [if_pos hqx, if_pos hqx, List.length_cons, List.length_cons, ih]
          · rw [if_neg hqx, if_neg hqx, ih]
    rw [e1, hlm, List.filter_filter]
    congr 1
    apply List.filter_congr
    intro x _
    cases hx : q x with
    | false => rfl
    | true => rw [hq x hx]; rfl
  rw [hv] at h2
  constructor
  · refine key isAssertion Item.isAssertion ?_ ?_ _ _ h2
    · intro x hx
      cases x <;> simp [Item.isAssertion] at hx
      simp only [Item.visible, Item.reported, Item.level, Bool.true_and]
      split <;> simp
    · intro e; cases e <;> rfl
  · refine key isFailure Item.isFailure ?_ ?_ _ _ h2
    · intro x hx
      cases x <;> simp [Item.isFailure] at hx
      subst hx
      rfl
    · intro e; cases e <;> rfl

open Defaults in
example : ∃ s, run (defaults 3) 3 (plain exampleBody) = some (.ok s) ∧
    (s.asserts, s.failures, s.allowed) = (2, 1, 0) := by
  refine ⟨_, rfl, ?_⟩; decide

/-! ## C26, C27, C28 -/

/-- The special tags of a test case: is `[!mayfail]` present, is `[!shouldfail]` present. -/
def Special (cfg : Cfg) (t : TestCase) (may should : Bool) : Prop :=
  ∃ tags, Filter.forEachTag cfg.maxTag t.id.tags = .ok tags ∧ tags.contains .mayFail = may ∧
    tags.contains .shouldFail = should

private theorem body_state {b : TS} (hb : Counted (core b)) :
    b.state = stateOf (b.mayFail || b.shouldFail) b.log := hb.state

private theorem special_unique {cfg : Cfg} {t : TestCase} {may should : Bool}
    (h : Special cfg t may should) {tags : List Filter.ParsedTag}
    (ht : Filter.forEachTag cfg.maxTag t.id.tags = .ok tags) :
    tags.contains .mayFail = may ∧ tags.contains .shouldFail = should := by
  obtain ⟨tags', h1, h2, h3⟩ := h
  rw [h1] at ht
  cases ht
  exact ⟨h2, h3⟩

private theorem any_snoc_ended {p : Event → Bool} (l : List Event) (e : Event) (h : p e = false) :
    (l ++ [e]).any p = l.any p := by
  rw [List.any_append]; simp [h]

/-- **C26**. A test without special tags ends as failed exactly if an assertion failed; otherwise it is
skipped if it was skipped, and successful if not. -/
theorem C26_failed_iff [Run.MessageLimit] {cfg : Cfg} (hv : cfg.verbosity = 3) {fuel : Nat} {t : TestCase} {s : TS}
    (hsp : Special cfg t false false) (h : run cfg fuel t = some (.ok s)) :
    s.state = if s.log.any isFailure then .failed
      else if s.log.any isSkip then .skipped else .success := by
  obtain ⟨tags, b, ht, hb, hm, h1, h2, rfl⟩ := run_body hv h
  obtain ⟨t1, t2⟩ := special_unique hsp ht
  rw [t1] at h1
  rw [t2] at h2
  obtain ⟨_, _, _, hcases⟩ := final_core hv t hb
  have hsplit := log_split hv t hb
  generalize hs : endCase cfg t (checkShouldFail cfg b) = s at hsplit hcases ⊢
  rcases hcases with ⟨_, _, _, _, e4, e5⟩ | ⟨⟨e0, _⟩, _⟩ | ⟨⟨e0, _⟩, _⟩
  · rw [hsplit, any_snoc_ended _ _ rfl, any_snoc_ended _ _ rfl, e5, e4, body_state hb, h1, h2]
    simp only [stateOf, Bool.or_self, Bool.false_eq_true, if_false]
  · rw [h2] at e0; cases e0
  · rw [h2] at e0; cases e0

/-- **C26**. In particular, without a skip: failed iff some assertion failed, else success. -/
theorem C26_failed_iff_no_skip [Run.MessageLimit] {cfg : Cfg} (hv : cfg.verbosity = 3) {fuel : Nat} {t : TestCase} {s : TS}
    (hsp : Special cfg t false false) (h : run cfg fuel t = some (.ok s))
    (hns : s.log.any isSkip = false) :
    (s.state = .failed ↔ s.log.any isFailure = true) ∧
    (s.state = .success ↔ s.log.any isFailure = false) := by
  rw [C26_failed_iff hv hsp h, hns]
  cases s.log.any isFailure <;> simp

/-- **C27**. A test tagged `[!mayfail]` never ends as failed; if an assertion failed it ends as an
allowed failure. -/
theorem C27_may_fail [Run.MessageLimit] {cfg : Cfg} (hv : cfg.verbosity = 3) {fuel : Nat} {t : TestCase} {s : TS}
    {should : Bool} (hsp : Special cfg t true should) (h : run cfg fuel t = some (.ok s)) :
    s.state ≠ .failed ∧ s.failures = 0 ∧ (s.log.any isFailure = true → s.state = .allowedFail) := by
  obtain ⟨tags, b, ht, hb, hm, h1, h2, rfl⟩ := run_body hv h
  obtain ⟨t1, t2⟩ := special_unique hsp ht
  rw [t1] at h1
  obtain ⟨_, _, _, hcases⟩ := final_core hv t hb
  have hsplit := log_split hv t hb
  have hbs := body_state hb
  have hbf := hb.failures
  simp only [core, h1, Bool.true_or, if_true] at hbf
  rw [h1, Bool.true_or] at hbs
  generalize hs : endCase cfg t (checkShouldFail cfg b) = s at hsplit hcases ⊢
  have hstate : b.state ≠ .failed := by
    rw [hbs, stateOf]
    split
    · simp
    · split <;> simp
  rcases hcases with ⟨_, _, e2, _, e4, e5⟩ | ⟨⟨_, e0⟩, _, e2, _, e4, _⟩ | ⟨⟨_, e0⟩, _, e2, _, e4, _⟩
  · refine ⟨by rw [e4]; exact hstate, by rw [e2, hbf], ?_⟩
    intro hany
    rw [hsplit, any_snoc_ended _ _ rfl, e5] at hany
    rw [e4, hbs, stateOf, if_pos hany]; rfl
  · refine ⟨by rw [e4]; exact hstate, by rw [e2, hbf], fun _ => by rw [e4, e0]⟩
  · rw [h1] at e2 e4
    refine ⟨by rw [e4]; simp, by rw [e2, hbf]; rfl, fun _ => by rw [e4]; rfl⟩

/-- **C27**. A test tagged `[!shouldfail]` (and not `[!mayfail]`) ends as failed exactly if it was not
skipped and none of its assertions failed; if one failed it ends as an allowed failure. The failure
events of the test itself are those marked as expected; the additional failure "expected test to
fail" is not. -/
theorem C27_should_fail [Run.MessageLimit] {cfg : Cfg} (hv : cfg.verbosity = 3) {fuel : Nat} {t : TestCase} {s : TS}
    (hsp : Special cfg t false true) (h : run cfg fuel t = some (.ok s)) :
    (s.state = .failed ↔ s.log.any isExpectedFailure = false ∧ s.log.any isSkip = false) ∧
    (s.state = .allowedFail ↔ s.log.any isExpectedFailure = true) := by
  obtain ⟨tags, b, ht, hb, hm, h1, h2, rfl⟩ := run_body hv h
  obtain ⟨t1, t2⟩ := special_unique hsp ht
  rw [t1] at h1
  rw [t2] at h2
  obtain ⟨_, _, _, hcases⟩ := final_core hv t hb
  have hsplit := log_split hv t hb
  have hbs := body_state hb
  rw [h1, h2, Bool.false_or] at hbs
  have hexp : b.log.any isExpectedFailure = b.log.any isFailure := by
    have hf := hm.flags
    simp only [core] at hf
    apply Bool.eq_iff_iff.mpr
    rw [List.any_eq_true, List.any_eq_true]
    constructor
    · rintro ⟨e, he, hx⟩
      exact ⟨e, he, by cases e <;> first | rfl | cases hx⟩
    · rintro ⟨e, he, hx⟩
      obtain ⟨c, d, rfl⟩ := hf e he hx
      exact ⟨_, he, by simp only [isExpectedFailure]; exact h2⟩
  generalize hs : endCase cfg t (checkShouldFail cfg b) = s at hsplit hcases ⊢
  rcases hcases with ⟨e0, _, _, _, e4, e5⟩ | ⟨⟨_, e0⟩, _, _, _, e4, c, d, e5⟩ |
      ⟨⟨_, e0⟩, _, _, _, e4, c, d, e5⟩
  · have hsk : b.state = .skipped := by
      rcases e0 with e0 | e0
      · rw [h2] at e0; cases e0
      · exact e0
    rw [hsplit, any_snoc_ended _ _ rfl, any_snoc_ended _ _ rfl, e5, e4, hexp, hsk]
    rw [hsk] at hbs
    unfold stateOf at hbs
    split at hbs
    · cases hbs
    · split at hbs
      · rename_i q1 q2
        simp [q1, q2]
      · cases hbs
  · rw [hsplit, any_snoc_ended _ _ rfl, any_snoc_ended _ _ rfl, e5, any_snoc_ended _ _ rfl,
      any_snoc_ended _ _ rfl, e4, hexp, e0]
    rw [e0] at hbs
    unfold stateOf at hbs
    split at hbs
    · rename_i q1
      simp [q1]
    · split at hbs <;> cases hbs
  · rw [hsplit, any_snoc_ended _ _ rfl, any_snoc_ended _ _ rfl, e5, any_snoc_ended _ _ rfl,
      any_snoc_ended _ _ rfl, e4, hexp, h1]
    rw [e0] at hbs
    unfold stateOf at hbs
    split at hbs
    · cases hbs
    · split at hbs
      · cases hbs
      · rename_i q1 q2
        simp [q1, q2]

/-- **C28**. If a test is skipped and no assertion had failed before, then it ends as skipped and no
assertion is counted or reported after the skip. -/
theorem C28_skip [Run.MessageLimit] {cfg : Cfg} (hv : cfg.verbosity = 3) {fuel : Nat} {t : TestCase} {s : TS}
    (h : run cfg fuel t = some (.ok s)) {before after : List Event} {ctx : Ctx} {msg : Text}
    (hlog : s.log = before ++ .caseSkipped ctx msg :: after) (hb : before.any isFailure = false) :
    s.state = .skipped ∧ after.any isAssertion = false ∧
      s.asserts = (before.filter isAssertion).length := by
  have hcnt := (C25_counts hv h).1
  obtain ⟨tags, b, ht, hcb, hm, h1, h2, rfl⟩ := run_body hv h
  obtain ⟨_, _, _, hcases⟩ := final_core hv t hcb
  have hsplit := log_split hv t hcb
  generalize hs : endCase cfg t (checkShouldFail cfg b) = s at hsplit hcases hlog hcnt ⊢
  rw [hsplit] at hlog
  rcases append_eq_snoc_cons hlog with ⟨_, _, hx⟩ | ⟨l₃, hl₃, hd⟩
  · cases hx
  · -- the skip is before the end event
    have hinb : ∃ l₄, b.log = before ++ .caseSkipped ctx msg :: l₄ ∧
        (l₃ = l₄ ∨ (b.state = .allowedFail ∨ b.state = .success) ∧ ∃ e, l₃ = l₄ ++ [e]) := by
      rcases hcases with ⟨_, _, _, _, _, e5⟩ | ⟨⟨_, e0⟩, _, _, _, _, c, d, e5⟩ |
        ⟨⟨_, e0⟩, _, _, _, _, c, d, e5⟩
      · exact ⟨l₃, by rw [← e5, hd], Or.inl rfl⟩
      · rw [e5] at hd
        rcases append_eq_snoc_cons hd with ⟨_, _, hx⟩ | ⟨l₄, h4, h5⟩
        · cases hx
        · exact ⟨l₄, h5, Or.inr ⟨Or.inl e0, _, h4⟩⟩
      · rw [e5] at hd
        rcases append_eq_snoc_cons hd with ⟨_, _, hx⟩ | ⟨l₄, h4, h5⟩
        · cases hx
        · exact ⟨l₄, h5, Or.inr ⟨Or.inr e0, _, h4⟩⟩
    obtain ⟨l₄, hb4, hl4⟩ := hinb
    obtain ⟨hq1, hq2⟩ := hm.quiet before _ l₄ hb4 rfl hb
    simp only [core] at hq2
    have hl : l₃ = l₄ := by
      rcases hl4 with hl4 | ⟨hst, _⟩
      · exact hl4
      · rw [hq2] at hst; rcases hst with hst | hst <;> cases hst
    have hafter : after.any isAssertion = false := by
      rw [hl₃, hl, any_snoc_ended _ _ rfl]; exact hq1
    refine ⟨?_, hafter, ?_⟩
    · rcases hcases with ⟨_, _, _, _, e4, _⟩ | ⟨⟨_, e0⟩, _⟩ | ⟨⟨_, e0⟩, _⟩
      · rw [e4]; exact hq2
      · rw [hq2] at e0; cases e0
      · rw [hq2] at e0; cases e0
    · rw [hcnt, hsplit, hlog, List.filter_append, List.length_append, List.filter_cons]
      have : after.filter isAssertion = [] := by
        rw [List.filter_eq_nil_iff]
        intro e he hx
        have := List.any_eq_false.mp hafter e he
        exact this hx
      rw [this]
      rfl

/-- **C28**. The execution in which a test is skipped is the last one. -/
theorem C28_no_later_execution [Run.MessageLimit] {cfg : Cfg} {t : TestCase} {tags : List Filter.ParsedTag}
    (hf : Fits cfg t tags) (ht : Always Tidy t.body) {n : Nat} (hn : n < passCount t.body.first)
    (hprev : ∀ i, i < n → (passNo (t.body.no i) (topCtx t.loc) i).2 = .normal ∧
      skipsTest (passItems t.body.no (topCtx t.loc) 0 (i + 1)) = false)
    (hlast : skipsTest (passItems t.body.no (topCtx t.loc) 0 (n + 1)) = true) (fuel : Nat) :
    (run cfg fuel t).isSome ↔ n + 1 ≤ fuel := by
  obtain ⟨⟨l, y⟩, hx⟩ : ∃ x, passNo (t.body.no n) (topCtx t.loc) n = x := ⟨_, rfl⟩
  have hitems : passItems t.body.no (topCtx t.loc) 0 (n + 1) =
      passItems t.body.no (topCtx t.loc) 0 n ++ l := by
    unfold passItems
    rw [List.range'_concat]
    simp [hx]
  rw [hitems] at hlast
  have hst := story_until t.body.no (topCtx t.loc) n (passCount t.body.first) 0 [] l y hn
    (by intro i hi; have := hprev i hi; rw [Nat.zero_add]; exact ⟨this.1, by simpa using this.2⟩)
    (by rw [Nat.zero_add]; exact hx) (Or.inr (by simpa using hlast))
  have h := run_story_any ht hf.alike hf.sections hf.captures hf.tags fuel
  rw [hst] at h
  constructor
  · intro hs
    by_cases hlt : n + 1 ≤ fuel
    · exact hlt
    · rw [h.1 (by simp only; omega)] at hs; cases hs
  · intro hle
    obtain ⟨s, hs, _⟩ := h.2 hle
    rw [hs]; rfl

/-- A test case with a tag. -/
def tagged (tag : Text) (body : Prog) : TestCase :=
  { id := { name := "t".toList, tags := tag, type := [] }, loc := 1, body := body }

/-- `CHECK(true); CHECK(false); SKIP();` -/
def failThenSkip : Prog :=
  .stmt (.check 1 (.val true) false []) (.stmt (.check 2 (.val false) false [])
    (.stmt (.skip 3 true []) .done))

/-- `CHECK(true); SKIP(); CHECK(false)` in the first of two sections -/
def skipEarly : Prog :=
  .sec 1 1 (.stmt (.check 1 (.val true) false []) (.stmt (.skip 3 false ['m'])
    (.stmt (.check 4 (.val false) false []) .done))) (.sec 2 2 .done .done)

open Defaults in
/-- The limits of `C28`: after a failed assertion the test stays failed. -/
theorem C28_skip_after_failure_stays_failed :
    ∃ s, run (defaults 3) 1 (plain failThenSkip) = some (.ok s) ∧ s.state = .failed ∧
      s.log.any isSkip = true := by
  refine ⟨_, rfl, ?_, ?_⟩ <;> decide

example : Special (defaults 3) (plain failThenSkip) false false := ⟨[], rfl, rfl, rfl⟩
open Defaults in
example : ∃ s, run (defaults 3) 2 (plain skipEarly) = some (.ok s) ∧ s.state = .skipped ∧
    s.asserts = 1 := by
  refine ⟨_, rfl, ?_, ?_⟩ <;> decide
open Defaults in
example : (run (defaults 3) 1 (plain skipEarly)).isSome := by
  refine (C28_no_later_execution (cfg := defaults 3) (t := plain skipEarly) (n := 0)
    (plain_fits (by decide) (by decide)) (plain_always (by simp [skipEarly, Tidy])) (by decide) ?_ (by decide) 1).mpr
    (by decide)
  intro i hi; omega
example : Special (defaults 3) (tagged "[!mayfail]".toList failThenSkip) true false := by
  refine ⟨_, rfl, ?_, ?_⟩ <;> decide
open Defaults in
example : ∃ s, run (defaults 3) 1 (tagged "[!shouldfail]".toList failThenSkip) = some (.ok s) ∧
    s.state = .allowedFail := by
  refine ⟨_, rfl, ?_⟩; decide
open Defaults in
example : ∃ s, run (defaults 3) 1 (tagged "[!shouldfail]".toList .done) = some (.ok s) ∧
    s.state = .failed := by
  refine ⟨_, rfl, ?_⟩; decide

/-! ## C30 -/

/-- **C30**. The verbosity only decides which events are shown: the log at any verbosity is the log at
full verbosity without the events of higher levels, and the counts and the final state are the same;
also whether the run ends, or terminates the program, does not depend on it. -/
theorem C30_verbosity [Run.MessageLimit] (cfg : Cfg) (v : Nat) (fuel : Nat) (t : TestCase) :
    run { cfg with verbosity := v } fuel t =
      match run { cfg with verbosity := 3 } fuel t with
      | some (.ok s) => some (.ok { s with log := shown v s.log })
      | x => x := by
  rw [run_hide]
  show omapo (hide v) (run { cfg with verbosity := 3 } fuel t) = _
  cases run { cfg with verbosity := 3 } fuel t with
  | none => rfl
  | some o => cases o <;> rfl

open Defaults in
example : (run (defaults 1) 3 (plain exampleBody)).isSome = true ∧
    (run (defaults 3) 3 (plain exampleBody)).isSome = true := by decide

/-- **C26** for every test, whatever its tags, and at every verbosity: a finished test is in the state
failed if and only if it has a failure that was neither expected nor allowed; it is not in the state
not-run. -/
theorem C26_failed_iff_failures [Run.MessageLimit] {cfg : Cfg} {fuel : Nat} {t : TestCase} {s : TS}
    (h : run cfg fuel t = some (.ok s)) :
    s.state ≠ .notRun ∧ (s.state = .failed ↔ s.failures ≠ 0) := by
  have full : ∀ {s : TS}, run { cfg with verbosity := 3 } fuel t = some (.ok s) →
      s.state ≠ .notRun ∧ (s.state = .failed ↔ s.failures ≠ 0) := by
    intro s h
    obtain ⟨tags, b, ht, hb, hm, h1, h2, rfl⟩ := run_body rfl h
    obtain ⟨_, _, _, hcases⟩ := final_core (cfg := { cfg with verbosity := 3 }) rfl t hb
    have hbs := body_state hb
    have hbf : b.failures = if b.mayFail || b.shouldFail then 0 else (b.log.filter isFailure).length :=
      hb.failures
    have hany : b.log.any isFailure = true ↔ (b.log.filter isFailure).length ≠ 0 := by
      rw [Ne, List.length_eq_zero_iff, List.filter_eq_nil_iff, List.any_eq_true]
      constructor
      · rintro ⟨e, he, hf⟩ hn; exact hn e he hf
      · intro hn
        cases hx : b.log.any isFailure with
        | true => rw [List.any_eq_true] at hx; exact hx
        | false =>
          rw [List.any_eq_false] at hx
          exact absurd (fun e he => by simpa using hx e he) hn
    have hbody : b.state ≠ .notRun ∧ (b.state = .failed ↔ b.failures ≠ 0) := by
      rw [hbs, hbf]
      unfold stateOf
      cases hmf : (b.mayFail || b.shouldFail) <;> cases hf : b.log.any isFailure <;>
        cases hk : b.log.any isSkip <;> rw [hf] at hany <;> simp_all
    rcases hcases with ⟨_, _, e2, _, e4, _⟩ | ⟨_, _, e2, _, e4, _⟩ | ⟨⟨_, e0⟩, _, e2, _, e4, _⟩
    · rw [e4, e2]; exact hbody
    · rw [e4, e2]; exact hbody
    · rw [e4, e2]
      have hz : b.failures = 0 := by
        rw [e0] at hbody
        simpa using hbody.2
      rw [hz]
      cases b.mayFail <;> simp
  rw [show cfg = { cfg with verbosity := cfg.verbosity } from rfl, C30_verbosity] at h
  cases hr : run { cfg with verbosity := 3 } fuel t with
  | none => rw [hr] at h; cases h
  | some o =>
    rw [hr] at h
    cases o with
    | abort => cases h
    | ub => cases h
    | ok s' =>
      cases h
      have := full hr
      exact this

/-- **C26** in terms of the events, at every verbosity: a test ends as failed if and only if a failure was
reported that was neither expected nor allowed. -/
theorem C26_failed_iff_reported [Run.MessageLimit] {cfg : Cfg} {fuel : Nat} {t : TestCase} {s : TS}
    (h : run cfg fuel t = some (.ok s)) : s.state = .failed ↔ s.log.any isRealFailure = true := by
  rw [(C26_failed_iff_failures h).2]
  rw [show cfg = { cfg with verbosity := cfg.verbosity } from rfl, C30_verbosity] at h
  cases hr : run { cfg with verbosity := 3 } fuel t with
  | none => rw [hr] at h; cases h
  | some o =>
    rw [hr] at h
    cases o with
    | abort => cases h
    | ub => cases h
    | ok u =>
      cases h
      show u.failures ≠ 0 ↔ (Spec.shown cfg.verbosity u.log).any isRealFailure = true
      rw [(C25_counts rfl hr).2.1, Ne, List.length_eq_zero_iff, List.filter_eq_nil_iff, List.any_eq_true]
      constructor
      · intro hx
        apply Classical.byContradiction
        intro hn
        refine hx fun e he hf => hn ⟨e, List.mem_filter.mpr ⟨he, ?_⟩, hf⟩
        cases e <;> simp_all [isRealFailure, Spec.levelOf]
      · rintro ⟨e, he, hf⟩ hn
        exact hn e (List.mem_filter.mp he).1 hf

/-! ## C45 -/

/-- The three exception macros, as statements, with what they should check: the exception thrown by the
expression has the type, has the type and matches, there is none. -/
inductive ExceptionCheck : Stmt → Bool → Bool → Prop
  | throwsAs (loc : Nat) (ev : Option Exn) (type : Nat) (name : Text) (abort : Bool) :
      ExceptionCheck (.throwsAs loc ev type name abort) (throwsType ev type) abort
  | throwsMatches (loc : Nat) (ev : Option Exn) (type : Nat) (name : Text) (matched : Bool)
      (desc : Text) (abort : Bool) :
      ExceptionCheck (.throwsMatches loc ev type name matched desc abort)
        (throwsType ev type && matched) abort
  | nothrow (loc : Nat) (ev : Option Exn) (text : Text) (abort : Bool) :
      ExceptionCheck (.nothrow loc ev text abort) ev.isNone abort

/-- **C45**. An exception macro that is executed in a test that is not skipped reports exactly one
assertion, successful iff the condition holds; an exception thrown by the expression does not escape;
the `REQUIRE` variants abort the test exactly if the condition does not hold. -/
theorem C45_exception_macros [Run.MessageLimit] {cfg : Cfg} {fl : Bool} (hv : cfg.verbosity = 3) {m : Stmt} {ok abort : Bool}
    (hm : ExceptionCheck m ok abort) {s s' : TS} {r : Res} (hheld : s.held = none)
    (hskip : s.state ≠ .skipped) (h : execStmt cfg fl m s = .ok (s', r)) :
    ∃ e, s'.log = s.log ++ [e] ∧ isAssertion e = true ∧ isFailure e = !ok ∧
      s'.asserts = s.asserts + 1 ∧
      r = if !ok && abort then .raised abortExn else .normal := by
  -- one check: enter, report, leave
  have hlog : ∀ (u : TS) (b : Bool) (d : Text), u.state ≠ .skipped →
      ∃ e, (reportAssertion cfg fl b d u).log = u.log ++ [e] ∧ isAssertion e = true ∧
        isFailure e = !b ∧ (reportAssertion cfg fl b d u).asserts = u.asserts + 1 := by
    intro u b d hu
    have hc := core_reportAssertion (fl := fl) cfg b d u
    rw [full_full hv] at hc
    simp only [Core.steps, List.foldl_cons, List.foldl_nil, Core.step, core, hu, if_false] at hc
    cases b with
    | true =>
      simp only [if_true, Core.mk.injEq] at hc
      exact ⟨_, hc.2.2.2.2.2.2, rfl, rfl, hc.1⟩
    | false =>
      simp only [Bool.false_eq_true, if_false] at hc
      split at hc
      · simp only [Core.mk.injEq] at hc
        exact ⟨_, hc.2.2.2.2.2.2, rfl, rfl, hc.1⟩
      · simp only [Core.mk.injEq] at hc
        exact ⟨_, hc.2.2.2.2.2.2, rfl, rfl, hc.1⟩
  have henter : ∀ {loc : Nat} {u : TS}, checkEnter cfg fl loc s = .ok u →
      u.log = s.log ∧ u.asserts = s.asserts ∧ u.state = s.state ∧ u.held = none := by
    intro loc u hu
    unfold checkEnter pushLocation at hu
    rw [arrive_none cfg hheld] at hu
    split at hu
    · simp only [Outcome.bind_ok, Outcome.pure_eq, Outcome.ok.injEq] at hu
      subst hu
      exact ⟨rfl, rfl, rfl, hheld⟩
    · cases hu
  have hleave : ∀ {u v : TS} {x y : Res}, endCheck fl x u = .ok (v, y) →
      v.log = u.log ∧ v.asserts = u.asserts ∧ y = x := by
    intro u v x y hx
    unfold endCheck checkLeave popLocation at hx
    obtain ⟨w, hw, hx⟩ := bind_eq_ok hx
    cases hx
    split at hw
    · cases hw
    · cases hw
      simp only [hold]
      split <;> simp
  have hnot : ∀ (u : TS), u.held = none → notify cfg u = u := fun u hu => notify_none cfg hu
  have hone : ∀ {loc : Nat} {u : TS} {b : Bool} {d : Text} {x : Res},
      checkEnter cfg fl loc s = .ok u →
      (endCheck fl x (reportAssertion cfg fl b d u) = .ok (s', r) ∨
        endCheck fl x (notify cfg (reportAssertion cfg fl b d u)) = .ok (s', r)) →
      ∃ e, s'.log = s.log ++ [e] ∧ isAssertion e = true ∧ isFailure e = !b ∧
        s'.asserts = s.asserts + 1 ∧ r = x := by
    intro loc u b d x hu hx
    obtain ⟨e1, e2, e3, e4⟩ := henter hu
    obtain ⟨e, r1, r2, r3, r4⟩ := hlog u b d (by rw [e3]; exact hskip)
    have hh : (reportAssertion cfg fl b d u).held = none := by
      rw [(reportAssertion_fields cfg b d u).2.1, e4]; rfl
    rw [hnot _ hh, or_self] at hx
    obtain ⟨l1, l2, l3⟩ := hleave hx
    exact ⟨e, by rw [l1, r1, e1], r2, r3, by rw [l2, r4, e2], l3⟩
  have hgive : ∀ (b : Bool) (x : Res), b = ok → x = (if !ok && abort then .raised abortExn else .normal) →
      (∃ e, s'.log = s.log ++ [e] ∧ isAssertion e = true ∧ isFailure e = !b ∧
        s'.asserts = s.asserts + 1 ∧ r = x) →
      ∃ e, s'.log = s.log ++ [e] ∧ isAssertion e = true ∧ isFailure e = !ok ∧
        s'.asserts = s.asserts + 1 ∧ r = if !ok && abort then .raised abortExn else .normal := by
    rintro b x rfl rfl h; exact h
  cases hm with
  | throwsAs loc ev type name abort =>
    simp only [execStmt] at h
    obtain ⟨u, hu, h⟩ := bind_eq_ok h
    cases ev with
    | none => exact hgive false (maybeAbort abort) rfl rfl (hone hu (Or.inl h))
    | some e =>
      simp only [answer] at h
      cases ht : e.types.contains type with
      | true =>
        rw [ht, if_pos rfl] at h
        exact hgive true .normal (by simp only [throwsType, ht]) (by simp only [throwsType, ht]; rfl)
          (hone hu (Or.inr h))
      | false =>
        rw [ht, if_neg (by simp)] at h
        exact hgive false (maybeAbort abort) (by simp only [throwsType, ht])
          (by simp only [throwsType, ht]; rfl) (hone hu (Or.inr h))
  | throwsMatches loc ev type name matched desc abort =>
    simp only [execStmt] at h
    obtain ⟨u, hu, h⟩ := bind_eq_ok h
    cases ev with
    | none => exact hgive false (maybeAbort abort) rfl rfl (hone hu (Or.inl h))
    | some e =>
      simp only [answer] at h
      cases ht : e.types.contains type with
      | true =>
        rw [ht, if_pos rfl] at h
        cases matched with
        | true =>
          rw [if_neg (by simp)] at h
          exact hgive true .normal (by simp only [throwsType, ht]; rfl)
            (by simp only [throwsType, ht]; rfl) (hone hu (Or.inr h))
        | false =>
          rw [if_pos (by simp)] at h
          exact hgive false (maybeAbort abort) (by simp only [throwsType, ht]; rfl)
            (by simp only [throwsType, ht]; rfl) (hone hu (Or.inr h))
      | false =>
        rw [ht, if_neg (by simp)] at h
        exact hgive false (maybeAbort abort) (by simp only [throwsType, ht]; rfl)
          (by simp only [throwsType, ht]; rfl) (hone hu (Or.inr h))
  | nothrow loc ev text abort =>
    simp only [execStmt] at h
    obtain ⟨u, hu, h⟩ := bind_eq_ok h
    cases ev with
    | none => exact hgive true .normal rfl rfl (hone hu (Or.inl h))
    | some e => exact hgive false (maybeAbort abort) rfl rfl (hone hu (Or.inr h))

open Defaults in
example : ∃ s' r, execStmt (defaults 3) false (.throwsAs 1 (some ⟨[2, 3], none, false⟩) 3 ['E'] true)
    { info := { locations := [(1, .testCaseScope)] } } = .ok (s', r) ∧ r = .normal := by
  refine ⟨_, _, rfl, ?_⟩; decide
open Defaults in
example : ∃ s' r, execStmt (defaults 3) false (.throwsAs 1 (some ⟨[2, 3], none, false⟩) 4 ['E'] true)
    { info := { locations := [(1, .testCaseScope)] } } = .ok (s', r) ∧ r = .raised abortExn := by
  refine ⟨_, _, rfl, ?_⟩; decide

end Verif.Props
