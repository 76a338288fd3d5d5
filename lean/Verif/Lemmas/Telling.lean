import Verif.Spec.Telling
import Verif.Lemmas.Narration
import Verif.Props.SectionEnds
/-!
# Lemmas about the events a program may tell
-/
namespace Verif.Events
open Verif.Report Verif.Events.Spec

/-! ## Durations -/

/-- A duration that is told is one of the clock. -/
def Timed (src : Source) : Event → Prop
  | .runEnded _ _ _ _ _ _ _ d _ => ∃ n, d = src.duration n
  | .caseEnded _ _ _ _ d _ _ => ∃ n, d = src.duration n
  | .sectionEnded _ _ _ _ d => ∃ n, d = src.duration n
  | _ => True

variable [Run.MessageLimit]

omit [Run.MessageLimit] in
theorem tell_timed {src : Source} {t : Run.TestCase} {n : Nat} {e : Run.Event} {es : List Event}
    (h : tell src t n e = .ok es) : ∀ x ∈ es, Timed src x := by
  cases e with
  | caseEnded i a f al st =>
    rw [tell] at h
    cases hst : publicState st with
    | abort => rw [hst] at h; cases h
    | ub => rw [hst] at h; cases h
    | ok p =>
      rw [hst] at h
      cases h
      simp only [List.mem_singleton, forall_eq]
      exact ⟨n, rfl⟩
  | sectionEnded => cases h; simp only [List.mem_singleton, forall_eq]; exact ⟨n, rfl⟩
  | _ => cases h; simp [Timed]

omit [Run.MessageLimit] in
theorem tellLog_timed {src : Source} {t : Run.TestCase} : ∀ {log : List Run.Event} {n : Nat} {es : List Event},
    tellLog src t n log = .ok es → ∀ x ∈ es, Timed src x
  | [], _, _, h => by cases h; simp
  | e :: log, n, es, h => by
    rw [tellLog] at h
    cases h1 : tell src t n e with
    | abort => rw [h1] at h; cases h
    | ub => rw [h1] at h; cases h
    | ok x =>
      rw [h1, Outcome.bind_ok] at h
      cases h2 : tellLog src t (n + x.length) log with
      | abort => rw [h2] at h; cases h
      | ub => rw [h2] at h; cases h
      | ok y =>
        rw [h2] at h
        cases h
        intro z hz
        rcases List.mem_append.1 hz with hz | hz
        · exact tell_timed h1 z hz
        · exact tellLog_timed h2 z hz

theorem runEach_timed {src : Source} {lim : Reg.Limits} {fuel : Nat} {pred : Filter.TestId → Outcome Bool} :
    ∀ {cases : List Reg.Case} {acc acc' : Acc}, runEach src lim fuel pred cases acc = some (.ok acc') →
      (∀ x ∈ acc.events, Timed src x) → ∀ x ∈ acc'.events, Timed src x
  | [], _, _, h, ha => by cases h; exact ha
  | c :: cs, acc, acc', h, ha => by
    rw [runEach] at h
    cases hp : pred c.test.id with
    | abort => rw [hp] at h; cases h
    | ub => rw [hp] at h; cases h
    | ok b =>
      rw [hp] at h
      cases b with
      | false => exact runEach_timed (acc := { acc with cases := acc.cases ++ [c] }) h ha
      | true =>
        dsimp only at h
        cases hr : Run.run lim.cfg fuel c.test with
        | none => rw [hr] at h; cases h
        | some o =>
          rw [hr] at h
          cases o with
          | abort => cases h
          | ub => cases h
          | ok s =>
            dsimp only at h
            cases ht : tellLog src c.test acc.events.length s.log with
            | abort => rw [ht] at h; cases h
            | ub => rw [ht] at h; cases h
            | ok es =>
              rw [ht] at h
              dsimp only at h
              refine runEach_timed h ?_
              intro x hx
              rcases List.mem_append.1 hx with hx | hx
              · exact ha x hx
              · exact tellLog_timed ht x hx

theorem runSelected_timed {src : Source} {lim : Reg.Limits} {fuel : Nat} {name : Text} {filters : List Text}
    {pred : Filter.TestId → Outcome Bool} {cases cases' : List Reg.Case} {es : List Event} {b : Bool}
    (h : runSelected src lim fuel name filters pred cases = some (.ok (cases', es, b))) : ∀ x ∈ es, Timed src x := by
  unfold runSelected at h
  cases hr : runEach src lim fuel pred cases { events := shown lim 1 (.runStarted name filters) } with
  | none => rw [hr] at h; cases h
  | some o =>
    rw [hr] at h
    cases o with
    | abort => cases h
    | ub => cases h
    | ok a =>
      cases h
      intro x hx
      rcases List.mem_append.1 hx with hx | hx
      · refine runEach_timed hr ?_ x hx
        intro y hy
        simp only [shown] at hy
        split at hy
        · rw [List.mem_singleton.1 hy]; trivial
        · cases hy
      · simp only [shown] at hx
        split at hx
        · rw [List.mem_singleton.1 hx]; exact ⟨_, rfl⟩
        · cases hx

omit [Run.MessageLimit] in
private theorem listLoop_timed {src : Source} {pred : Filter.TestId → Outcome Bool} :
    ∀ {cases : List Reg.Case} {es : List Event}, listLoop src pred cases = .ok es → ∀ x ∈ es, Timed src x
  | [], _, h => by cases h; simp
  | c :: cs, es, h => by
    rw [listLoop] at h
    cases hp : pred c.test.id with
    | abort => rw [hp] at h; cases h
    | ub => rw [hp] at h; cases h
    | ok b =>
      rw [hp, Outcome.bind_ok] at h
      cases hl : listLoop src pred cs with
      | abort => rw [hl] at h; cases h
      | ub => rw [hl] at h; cases h
      | ok l =>
        rw [hl] at h
        cases h
        have := listLoop_timed hl
        cases b
        · exact this
        · intro x hx
          rcases List.mem_cons.1 hx with rfl | hx
          · trivial
          · exact this x hx

/-- All events in some output are timed. -/
private def AllTimed (src : Source) (out : List Out) : Prop := ∀ e, Out.event e ∈ out → Timed src e

omit [Run.MessageLimit] in
private theorem listTests_timed {src : Source} {pred : Filter.TestId → Outcome Bool} {cases : List Reg.Case}
    {out : List Out} (h : listTests src pred cases = .ok out) : AllTimed src out := by
  unfold listTests at h
  cases hl : listLoop src pred cases with
  | abort => rw [hl] at h; cases h
  | ub => rw [hl] at h; cases h
  | ok l =>
    rw [hl] at h
    cases h
    intro e he
    simp only [List.map_append, List.map_cons, List.map_nil, List.mem_append, List.mem_singleton, List.mem_map,
      Out.event.injEq, exists_eq_right] at he
    rcases he with (rfl | he) | rfl
    · trivial
    · exact listLoop_timed hl e he
    · trivial

omit [Run.MessageLimit] in
private theorem afterListing_timed {src : Source} {cases cases' : List Reg.Case} {o : Outcome (List Out)} {out : List Out}
    {b : Bool} (h : afterListing cases o = some (.ok (cases', out, b))) (ho : ∀ l, o = .ok l → AllTimed src l) :
    AllTimed src out := by
  cases o with
  | abort => cases h
  | ub => cases h
  | ok l => cases h; exact ho _ rfl

omit [Run.MessageLimit] in
private theorem afterRun_timed {src : Source} {o : Option (Outcome (List Reg.Case × List Event × Bool))}
    {cases' : List Reg.Case} {out : List Out}
    {b : Bool} (h : afterRun o = some (.ok (cases', out, b)))
    (ho : ∀ c l b, o = some (.ok (c, l, b)) → ∀ x ∈ l, Timed src x) : AllTimed src out := by
  cases o with
  | none => cases h
  | some o =>
    cases o with
    | abort => cases h
    | ub => cases h
    | ok x =>
      cases h
      intro e he
      simp only [List.mem_map, Out.event.injEq, exists_eq_right] at he
      exact ho _ _ _ rfl e he

private theorem runTests_timed {src : Source} {lim : Reg.Limits} {fuel : Nat} {reporters : List Text} {args : Cli.Input}
    {cases cases' : List Reg.Case} {out : List Out} {b : Bool}
    (h : runTests src lim fuel reporters args cases = some (.ok (cases', out, b))) : AllTimed src out := by
  unfold runTests at h
  split at h
  · cases h; intro e he; simp at he
  · split at h
    · split at h
      · cases h
      · exact afterListing_timed h fun l hl => listTests_timed hl
    · split at h
      · refine afterListing_timed h fun l hl => ?_
        cases hc : Reg.collectTags lim cases [] with
        | abort => rw [hc] at hl; cases hl
        | ub => rw [hc] at hl; cases hl
        | ok ts =>
          rw [hc] at hl
          cases hl
          intro e he
          simp at he
      · split at h
        · cases h; intro e he; simp at he
        · split at h
          · cases h
          · cases h
          · unfold runOrList at h
            split at h
            · split at h
              · exact afterListing_timed h fun l hl => listTests_timed hl
              · exact afterRun_timed h fun c l b hl => runSelected_timed hl
            · dsimp only at h
              split at h
              · exact afterListing_timed h fun l hl => listTests_timed hl
              · exact afterRun_timed h fun c l b hl => runSelected_timed hl

/-- Whatever the program does, the durations it tells are those of the clock. -/
theorem main_timed {src : Source} {lim : Reg.Limits} {fuel maxArgs : Nat} {reporters : List Text} {init : Nat → Nat → Nat}
    {config : Cli.Config} {argv0 : Text} {argv : List Text} {cases : List Reg.Case} {code : Nat} {es : List Event}
    (h : main src lim fuel maxArgs reporters init config argv0 argv cases = some (.ok (code, es.map .event))) :
    ∀ e ∈ es, Timed src e := by
  suffices H : ∀ out, main src lim fuel maxArgs reporters init config argv0 argv cases = some (.ok (code, out)) →
      AllTimed src out from fun e he => H _ h e (List.mem_map.2 ⟨e, he, rfl⟩)
  clear h
  intro out h
  unfold main at h
  split at h
  · cases h
  · cases h
  · cases h; intro e he; simp at he
  · dsimp only at h
    split at h
    · cases h
    · cases h
    · rw [Option.map_eq_some_iff] at h
      obtain ⟨o, ho, h⟩ := h
      cases o with
      | abort => cases h
      | ub => cases h
      | ok x =>
        cases h
        exact runTests_timed ho

/-! ## Ends of sections -/

omit [Run.MessageLimit] in
/-- What the ends of sections tell is in the log. -/
theorem sectionEnd_told {log : List Run.Event} : ∀ {es : List Event}, Report.Spec.ToldAll log (es.map Event.report) →
    ∀ {id : SectionId} {loc : Location} {sk : Bool} {c : Counts} {d : Duration}, .sectionEnded id loc sk c d ∈ es →
    ∃ k, (k, sk, c.all, c.failed, c.allowed) ∈ Run.Spec.sectionEnds log := by
  intro es h id loc sk c d hm
  generalize hrs : es.map Event.report = rs at h
  have hm : Report.Event.sectionEnded id loc sk c d.text ∈ rs := by
    rw [← hrs]; exact List.mem_map.2 ⟨_, hm, rfl⟩
  clear hrs
  induction h with
  | nil => cases hm
  | @cons l es1 log es2 h1 h2 ih =>
    rcases List.mem_append.1 hm with hm | hm
    · cases h1 <;> simp only [List.mem_singleton, List.not_mem_nil, reduceCtorEq, Report.Event.sectionEnded.injEq] at hm
      obtain ⟨rfl, rfl, rfl, rfl, rfl⟩ := hm
      exact ⟨_, List.mem_cons_self⟩
    · obtain ⟨k, hk⟩ := ih hm
      refine ⟨k, ?_⟩
      unfold Run.Spec.sectionEnds at hk ⊢
      rw [List.filterMap_cons]
      split
      · exact hk
      · exact List.mem_cons_of_mem _ hk

omit [Run.MessageLimit] in
/-- What happened in a section is part of what happened. -/
theorem lefts_sub {P : Run.Spec.Item → Bool} (N : Nat) : ∀ (l seen : List Run.Spec.Item) (opened : List (Nat × List Run.Spec.Item)),
    (∀ o ∈ opened, (o.2.filter P).length + (l.filter P).length ≤ N) → (l.filter P).length ≤ N →
    ∀ x ∈ Run.Spec.lefts seen opened l, (x.inside.filter P).length ≤ N := by
  intro l
  induction l with
  | nil => intro seen opened _ _ x hx; rw [Run.Spec.lefts] at hx; cases hx
  | cons a l ih =>
    intro seen opened ho hl x hx
    have hle : (l.filter P).length ≤ ((a :: l).filter P).length :=
      (((List.sublist_cons_self a l).filter P)).length_le
    have hgen : ∀ opened' : List (Nat × List Run.Spec.Item), (∀ o ∈ opened', o ∈ opened ∨ o.2 = []) →
        ∀ o ∈ opened', (o.2.filter P).length + (l.filter P).length ≤ N := by
      intro opened' h' o hm
      rcases h' o hm with h' | h'
      · have := ho o h'; omega
      · rw [h']; simp; omega
    cases a with
    | enter id first =>
      rw [Run.Spec.lefts] at hx
      refine ih _ _ (hgen _ ?_) (by omega) x hx
      intro o hm
      rcases List.mem_cons.1 hm with rfl | hm
      · exact .inr rfl
      · exact .inl hm
    | leave id last =>
      cases opened with
      | nil =>
        rw [Run.Spec.lefts] at hx
        exact ih _ _ (by simp) (by omega) x hx
      | cons o opened =>
        obtain ⟨k, inside⟩ := o
        rw [Run.Spec.lefts] at hx
        rcases List.mem_append.1 hx with hx | hx
        · split at hx
          · rw [List.mem_singleton.1 hx]
            have := ho (k, inside) (by simp)
            dsimp only at this ⊢
            omega
          · cases hx
        · exact ih _ _ (hgen _ fun o hm => .inl (by simp [hm])) (by omega) x hx
    | _ =>
      rw [Run.Spec.lefts] at hx
      all_goals try (intros; contradiction)
      refine ih _ _ ?_ (by omega) x hx
      intro o hm
      obtain ⟨o', hm', rfl⟩ := List.mem_map.1 hm
      have := ho o' hm'
      rw [List.filter_cons] at this
      rw [List.filter_append, List.length_append, List.filter_cons, List.filter_nil]
      split at this <;> rename_i hp <;> simp only [hp, if_true, List.length_cons, List.length_nil] at this ⊢ <;>
        simp at this ⊢ <;> omega

/-! ## Failures are assertions -/

omit [Run.MessageLimit] in
private theorem flags_length (es : List Event) : (es.filterMap failedFlags).length =
    ((es.filterMap heard).filter fun h => match h with | .assertion false _ _ => true | _ => false).length := by
  induction es with
  | nil => rfl
  | cons e es ih => cases e <;> simp [List.filterMap_cons, failedFlags, heard, ih]

omit [Run.MessageLimit] in
private theorem toTell_failures (src : Source) (v : Nat) (l : List Run.Spec.Item) :
    (((l.filter (Run.Spec.Item.visible v)).filterMap (toTell src)).filter
      fun h => match h with | .assertion false _ _ => true | _ => false).length =
      (l.filter Run.Spec.Item.isFailure).length := by
  induction l with
  | nil => simp
  | cons x l ih =>
    rw [List.filter_cons (p := Run.Spec.Item.visible v)]
    split <;> rename_i hx
    · cases x with
      | assertion ok ctx d =>
        cases ok <;>
          simp only [List.filterMap_cons, toTell, List.filter_cons, Run.Spec.Item.isFailure, if_true, List.length_cons,
            Bool.false_eq_true, if_false, ih, Bool.not_false, Bool.not_true]
      | _ => simpa [List.filterMap_cons, toTell, List.filter_cons, Run.Spec.Item.isFailure] using ih
    · rw [ih, List.filter_cons]
      cases x with
      | assertion ok ctx d =>
        cases ok
        · exact absurd rfl hx
        · rfl
      | _ => rfl

theorem failures_eq {src : Source} {v : Nat} {t : Run.TestCase} {tags : List Text} {es : List Event}
    (h : OneTest src v t tags es) : (es.filterMap failedFlags).length = failuresIn t tags := by
  rw [flags_length, h.story]
  exact toTell_failures src v _

omit [Run.MessageLimit] in
private theorem failure_assertion (l : List Run.Spec.Item) :
    (l.filter Run.Spec.Item.isFailure).length ≤ (l.filter Run.Spec.Item.isAssertion).length := by
  have : l.filter Run.Spec.Item.isFailure = (l.filter Run.Spec.Item.isAssertion).filter Run.Spec.Item.isFailure := by
    rw [List.filter_filter]
    refine List.filter_congr fun i _ => ?_
    cases i <;> simp [Run.Spec.Item.isFailure, Run.Spec.Item.isAssertion]
  rw [this]
  exact List.length_filter_le ..

theorem failures_le {src : Source} {v : Nat} {t : Run.TestCase} {tags : List Text} {es : List Event}
    (h : OneTest src v t tags es) : (es.filterMap failedFlags).length ≤ assertions t tags := by
  rw [failures_eq h]
  exact failure_assertion _

/-- What is told about a test is no more than it may tell. -/
theorem part_may {src : Source} {lim : Reg.Limits} {fuel v : Nat} {t : Run.TestCase} {tags : List Text} {s : Run.TS}
    {es : List Event} (hs : Props.Sound lim fuel t tags)
    (hr : Run.run { lim.cfg with verbosity := v } fuel t = some (.ok s)) (h : OneTest src v t tags es)
    (h3 : Tells src t s es) (ht : ∀ e ∈ es, Timed src e) :
    (∀ e ∈ es, TestMayTell src t tags e) ∧ es.length ≤ 2 + (storyOf t tags).length := by
  obtain ⟨mid, counts, state, d, hes, hmid⟩ := parts_of_test hr h3
  dsimp only at hes
  have hheard : ∀ e ∈ es, ∀ x, heard e = some x → ∃ i ∈ storyOf t tags, toTell src i = some x := by
    intro e he x hx
    have : x ∈ es.filterMap heard := List.mem_filterMap.2 ⟨e, he, hx⟩
    rw [h.story] at this
    obtain ⟨i, hi, hi'⟩ := List.mem_filterMap.1 this
    exact ⟨i, (List.mem_filter.1 hi).1, hi'⟩
  have hsecs : ∀ {id loc sk c d}, .sectionEnded id loc sk c d ∈ es → Within (assertions t tags) c := by
    intro id loc sk c d hm
    obtain ⟨k, hk⟩ := sectionEnd_told h3.told hm
    obtain ⟨ps, hps, hmay, hshould⟩ := Props.special_of_tagged hs.tags
    obtain ⟨s', e, hends⟩ := Props.C81_last_execution (cfg := { lim.cfg with verbosity := v }) (t := t)
      ⟨hs.alike, hs.sections, hs.captures, hps⟩ hs.tidy hs.fuel
    rw [hr] at e
    cases e
    rw [hends, hshould] at hk
    split at hk
    · obtain ⟨x, hx, hx'⟩ := List.mem_map.1 hk
      simp only [Run.Spec.Left.told, Prod.mk.injEq] at hx'
      obtain ⟨-, -, e1, e2, e3⟩ := hx'
      have b1 := lefts_sub (P := Run.Spec.Item.isAssertion) (assertions t tags) _ [] [] (by simp) (Nat.le_refl _) x hx
      have b2 := failure_assertion x.inside
      refine ⟨by rw [← e1]; exact b1, ?_⟩
      rw [← e1, ← e2, ← e3]
      split <;> omega
    · cases hk
  have hinner : ∀ e ∈ mid, TestMayTell src t tags e := by
    intro e he
    have hm : e ∈ es := by rw [hes]; simp [he]
    obtain ⟨x, hx⟩ := hmid e he
    obtain ⟨i, hi, hi'⟩ := hheard e hm x hx
    have hab := h.about e hm
    cases e with
    | sectionStarted id loc =>
      cases hx
      cases i <;> simp only [toTell, Option.some.injEq, reduceCtorEq, Heard.enter.injEq] at hi'
      have := TestMayTell.entered (src := src) hi
      rw [hi'] at this
      exact this
    | sectionEnded id loc sk c d =>
      cases hx
      cases i <;> simp only [toTell, Option.some.injEq, reduceCtorEq, Heard.leave.injEq] at hi'
      obtain ⟨n, rfl⟩ := ht _ hm
      have := TestMayTell.left (src := src) sk n hi (hsecs hm)
      rw [hi'] at this
      exact this
    | assertionSucceeded id p d =>
      cases hx
      cases i <;> simp only [toTell, Option.some.injEq, reduceCtorEq, Heard.assertion.injEq] at hi'
      obtain ⟨rfl, rfl, rfl⟩ := hi'
      obtain rfl : id = declared src t := hab
      exact .succeeded hi
    | assertionFailed id p d ex al =>
      cases hx
      cases i <;> simp only [toTell, Option.some.injEq, reduceCtorEq, Heard.assertion.injEq] at hi'
      obtain ⟨rfl, rfl, rfl⟩ := hi'
      obtain rfl : id = declared src t := hab
      exact .failed ex al hi
    | caseSkipped id p m =>
      cases hx
      cases i <;> simp only [toTell, Option.some.injEq, reduceCtorEq, Heard.skip.injEq] at hi'
      obtain ⟨rfl, rfl⟩ := hi'
      obtain rfl : id = declared src t := hab
      exact .skipped hi
    | _ => cases hx
  have hmidlen : mid.length ≤ (storyOf t tags).length := by
    have e1 : mid.length = (mid.filterMap heard).length := by
      have := map_heard (fun _ => ()) (fun _ => ()) (es := mid) fun e he => by
        obtain ⟨x, hx⟩ := hmid e he; exact ⟨x, hx, rfl⟩
      simpa using congrArg List.length this
    have e2 : (mid.filterMap heard).length ≤ (es.filterMap heard).length := by
      rw [hes]; simp only [List.filterMap_append, List.length_append]; omega
    have e3 : (es.filterMap heard).length ≤ (storyOf t tags).length := by
      rw [h.story]
      exact Nat.le_trans (List.length_filterMap_le ..) (List.length_filter_le ..)
    omega
  by_cases hv : 2 ≤ v
  · obtain ⟨mid', counts', state', d', ex, al, hes', -, c1, c2, c3⟩ := h.ends hv
    rw [if_pos hv, if_pos hv] at hes
    have hes2 := hes
    rw [hes', List.singleton_append] at hes2
    rw [List.cons_append, List.cons_append, List.cons.injEq] at hes2
    obtain ⟨-, hlast⟩ := List.append_inj' hes2.2 rfl
    simp only [List.cons.injEq, Event.caseEnded.injEq, true_and, and_true] at hlast
    obtain ⟨rfl, rfl, rfl, rfl, rfl⟩ := hlast
    refine ⟨?_, ?_⟩
    · intro e he
      have hm := he
      rw [hes] at he
      simp only [List.mem_append, List.mem_singleton] at he
      rcases he with (rfl | he) | rfl
      · exact .started
      · exact hinner e he
      · obtain ⟨n, rfl⟩ := ht _ hm
        have := failures_le h
        exact .ended state' n ⟨by omega, by omega⟩
    · rw [hes]; simp only [List.length_append, List.length_singleton]; omega
  · rw [if_neg hv, if_neg hv, List.append_nil, List.nil_append] at hes
    subst hes
    exact ⟨hinner, by omega⟩

/-- The failures that count, of those told about a test. -/
theorem real_eq {src : Source} {lim : Reg.Limits} {fuel v : Nat} {t : Run.TestCase} {tags : List Text} {s : Run.TS}
    {es : List Event} (hs : Props.Sound lim fuel t tags)
    (hr : Run.run { lim.cfg with verbosity := v } fuel t = some (.ok s)) (h : OneTest src v t tags es)
    (h3 : Tells src t s es) : (es.filterMap failedFlags).count (false, false) = realFailures t tags := by
  obtain ⟨ps, hps, hmay, hshould⟩ := Props.special_of_tagged hs.tags
  have hx := flags_exact (cfg := { lim.cfg with verbosity := v }) ⟨hs.alike, hs.sections, hs.captures, hps⟩ hs.tidy hs.fuel hr
  rw [← h3.failures, hmay, hshould] at hx
  have hl := failures_eq h
  unfold realFailures failsAsExpected
  split <;> rename_i hc
  · rw [List.count_eq_zero]
    intro hm
    have := hx _ hm
    simp only [Prod.mk.injEq] at this
    rw [← this.1, ← this.2] at hc
    cases hc
  · rw [← hl]
    refine List.count_eq_length.2 fun x hm => ?_
    rw [hx x hm]
    simp only [Bool.or_eq_true, not_or, Bool.not_eq_true] at hc
    rw [hc.1, hc.2]

/-! ## Starts and ends of sections -/

omit [Run.MessageLimit] in
private theorem marks_observed (log : List Run.Event) : Run.Spec.sectionMarks log = marksOf (log.filterMap Run.Spec.observed) := by
  induction log with
  | nil => rfl
  | cons e log ih =>
    unfold Run.Spec.sectionMarks marksOf at ih ⊢
    cases e <;> simp [List.filterMap_cons, Run.Spec.observed, ih]

omit [Run.MessageLimit] in
private theorem marks_visible {v : Nat} (hv : 2 ≤ v) (l : List Run.Spec.Item) :
    marksOf (l.filter (Run.Spec.Item.visible v)) = marksOf l := by
  induction l with
  | nil => rfl
  | cons x l ih =>
    unfold marksOf at ih ⊢
    rw [List.filter_cons]
    split <;> rename_i hx
    · rw [List.filterMap_cons, List.filterMap_cons, ih]
    · rw [ih, List.filterMap_cons]
      have : ∀ {b : Bool}, (b && decide (2 ≤ v)) = b := by intro b; simp [hv]
      cases x with
      | enter k first =>
        cases first
        · rfl
        · exact absurd (by simp [Run.Spec.Item.visible, Run.Spec.Item.reported, Run.Spec.Item.level, hv]) hx
      | leave k last =>
        cases last
        · rfl
        · exact absurd (by simp [Run.Spec.Item.visible, Run.Spec.Item.reported, Run.Spec.Item.level, hv]) hx
      | _ => rfl

/-- The section events of a run are those of what happens in the test. -/
theorem marks_of_run {lim : Reg.Limits} {fuel v : Nat} {t : Run.TestCase} {tags : List Text} {r : Run.TS}
    (hs : Props.Sound lim fuel t tags) (hv : 2 ≤ v) (hr : Run.run { lim.cfg with verbosity := v } fuel t = some (.ok r)) :
    Run.Spec.sectionMarks r.log = marksOf (storyOf t tags) := by
  obtain ⟨s, e, _, hl⟩ := Props.C67_verdict (cfg := { lim.cfg with verbosity := v }) hs.alike hs.sections hs.captures hs.tags
    hs.tidy hs.fuel
  rw [hr] at e
  cases e
  rw [marks_observed, hl]
  exact marks_visible hv _

end Verif.Events
