import Verif.Spec.Document
import Verif.Lemmas.Events
import Verif.Lemmas.SectionOnce
import Verif.Lemmas.Told
/-!
# From events to the elements of an XML document
-/
namespace Verif.Events
open Verif.Events.Spec Verif.Report Verif.Report.Spec

/-! ## Walks -/

theorem walkAll_append (a b : List Node) : walkAll (a ++ b) = walkAll a ++ walkAll b := by
  induction a with
  | nil => simp [walkAll]
  | cons n a ih => rw [List.cons_append, walkAll, walkAll, ih, List.append_assoc]

theorem walkAll_leaves {l : List Node} (h : ∀ n ∈ l, walk n = [.leaf n]) : walkAll l = l.map Mark.leaf := by
  induction l with
  | nil => simp [walkAll]
  | cons n l ih =>
    rw [walkAll, h n (by simp), ih fun m hm => h m (by simp [hm])]
    rfl

theorem walk_other {name : Text} (h : name ≠ "Section".toList) (h' : name ≠ "OverallResults".toList) (a : Attrs)
    (ch : List Node) : walk (.elem name a ch) = [.leaf (.elem name a ch)] := by
  rw [walk, if_neg h, if_neg h']

theorem walk_assertion (loc : Location) (ok : Bool) (d : Data) : walk (assertionNode loc ok d) = [.leaf (assertionNode loc ok d)] := by
  cases d with
  | message m => cases ok <;> exact walk_other (by decide) (by decide) _ _
  | expression => exact walk_other (by decide) (by decide) _ _

theorem walk_leaf {e : Report.Event} {l : List Node} (h : leafNodes e = some l) : walkAll l = l.map Mark.leaf := by
  refine walkAll_leaves ?_
  intro n hn
  cases e <;> simp only [leafNodes, Option.some.injEq, reduceCtorEq] at h
  case caseSkipped =>
    subst h
    rw [List.mem_singleton] at hn
    subst hn
    exact walk_other (by decide) (by decide) _ _
  all_goals
    subst h
    rcases List.mem_append.1 hn with hn | hn
    · obtain ⟨c, _, rfl⟩ := List.mem_map.1 hn
      exact walk_other (by decide) (by decide) _ _
    · rw [List.mem_singleton] at hn
      subst hn
      exact walk_assertion ..

/-- What an event of a reporter adds to the walk. -/
def reportMarks (lim : Report.Limits) : Report.Event → List Mark
  | .sectionStarted id loc => [.start (("name".toList, attr id.name) :: locationAttrs loc)]
  | .sectionEnded _ _ skipped c d =>
    [.counts (countAttrs c ++ [("skipped".toList, yesNo skipped)] ++ durationAttrs lim d), .stop]
  | e => ((leafNodes e).getD []).map .leaf

theorem tells_walk {lim : Report.Limits} {es : List Report.Event} {ns : List Node} (h : Report.Spec.Tells lim es ns) :
    walkAll ns = es.flatMap (reportMarks lim) := by
  induction h with
  | nil => simp [walkAll]
  | @leaf e l es ns hl _ ih =>
    rw [walkAll_append, walk_leaf hl, ih, List.flatMap_cons]
    congr 1
    cases e <;> simp only [leafNodes, Option.some.injEq, reduceCtorEq] at hl <;> subst hl <;> rfl
  | «section» _ _ ih1 ih2 =>
    rw [walkAll, walk, if_pos rfl, walkAll_append, ih1, ih2]
    rw [show ∀ a, walkAll [Node.elem "OverallResults".toList a []] = [.counts a] from fun a => by
      rw [walkAll, walk, if_neg (by decide), if_pos rfl, walkAll]; rfl]
    simp [reportMarks, List.flatMap_append]

theorem marks_blank (lim : Report.Limits) (es : List Event) :
    ((es.map Event.report).flatMap (reportMarks lim)).map Mark.blank = (es.filterMap heard).flatMap Heard.marks := by
  induction es with
  | nil => rfl
  | cons e es ih =>
    rw [List.map_cons, List.flatMap_cons, List.map_append, ih, List.filterMap_cons]
    cases e <;> simp only [Event.report, reportMarks, leafNodes, heard, Option.getD_none, Option.getD_some, List.map_nil,
      List.nil_append, List.map_cons, List.flatMap_cons, Heard.marks, Heard.nodes, Mark.blank, sectionAttrs]
    all_goals
      congr 1
      simp [Mark.blank, Function.comp_def]

theorem marks_numbers {lim : Report.Limits} {log : List Run.Event} {es : List Report.Event} (h : ToldAll log es) :
    ((es.flatMap (reportMarks lim)).filterMap Mark.numbers).map (·.take 4) = (Run.Spec.sectionEnds log).map fun e =>
      countAttrs ⟨e.2.2.1, e.2.2.2.1, e.2.2.2.2⟩ ++ [("skipped".toList, yesNo e.2.1)] := by
  induction h with
  | nil => rfl
  | @cons e es log events h _ ih =>
    rw [List.flatMap_append, List.filterMap_append, List.map_append, ih]
    have hs : ∀ x : Run.Event, Run.Spec.sectionEnds (x :: log) = Run.Spec.sectionEnds [x] ++ Run.Spec.sectionEnds log :=
      fun x => by rw [Run.Spec.sectionEnds, Run.Spec.sectionEnds, Run.Spec.sectionEnds, ← List.filterMap_append]; rfl
    rw [hs, List.map_append]
    congr 1
    cases h <;> simp [reportMarks, Run.Spec.sectionEnds, leafNodes, Mark.numbers, countAttrs]

/-! ## Places -/

/-- The places of what is met on a walk. -/
def along : List Attrs → List Mark → List (List Attrs × Node)
  | _, [] => []
  | p, .start a :: l => along (p ++ [a]) l
  | p, .counts _ :: l => along p l
  | p, .stop :: l => along p.dropLast l
  | p, .leaf n :: l => (p, n) :: along p l

mutual
theorem along_walk (n : Node) (p : List Attrs) (rest : List Mark) :
    along p (walk n ++ rest) = located p n ++ along p rest := by
  match n with
  | .text t => simp [walk, located, along]
  | .elem name a ch =>
    rw [walk, located]
    split
    · rw [List.cons_append, List.cons_append, List.append_assoc, along, along_walkAll ch, List.singleton_append, along,
        List.dropLast_concat]
    · split
      · rfl
      · rfl
theorem along_walkAll (ns : List Node) (p : List Attrs) (rest : List Mark) :
    along p (walkAll ns ++ rest) = locatedAll p ns ++ along p rest := by
  match ns with
  | [] => simp [walkAll, locatedAll]
  | n :: ns => rw [walkAll, locatedAll, List.append_assoc, along_walk n, along_walkAll ns, List.append_assoc]
end

theorem along_blank (l : List Mark) : ∀ p, along p (l.map Mark.blank) = along p l := by
  induction l with
  | nil => intro p; rfl
  | cons m l ih => intro p; cases m <;> simp [Mark.blank, along, ih]

theorem located_walk (ns : List Node) : locatedAll [] ns = along [] ((walkAll ns).map Mark.blank) := by
  have := along_walkAll ns [] []
  simp only [List.append_nil, along] at this
  rw [along_blank, this]

theorem along_leaves (l : List Node) (p : List Attrs) (rest : List Mark) :
    along p (l.map Mark.leaf ++ rest) = l.map (p, ·) ++ along p rest := by
  induction l with
  | nil => rfl
  | cons n l ih => rw [List.map_cons, List.cons_append, along, ih]; rfl

/-- If everything is where the starts and ends of sections say, walking finds the places. -/
theorem along_placed (src : Source) (items : List Run.Spec.Item) : ∀ p, Run.Placed Eq p items →
    along (p.map fun k => sectionAttrs (src.sec k)) ((items.filterMap (toTell src)).flatMap Heard.marks) =
      placed (items.filterMap (toTell src)) := by
  induction items with
  | nil => intro p _; rfl
  | cons x items ih =>
    intro p h
    cases x with
    | act a => exact ih p h
    | interrupted a => exact ih p h
    | enter k f =>
      have := ih _ h
      rw [List.map_append] at this
      simpa [toTell, placed, Heard.marks, Heard.nodes, along] using this
    | leave k f =>
      have := ih _ h
      rw [List.map_dropLast] at this
      simpa [toTell, placed, Heard.marks, Heard.nodes, along] using this
    | assertion ok c d =>
      obtain ⟨h1, h2⟩ := h
      have := ih _ h2
      simp only [toTell, List.filterMap_cons, List.flatMap_cons, placed, Heard.marks]
      rw [along_leaves, this, ← h1]
      simp [placed, Heard.sections, Function.comp_def]
    | skip c m =>
      obtain ⟨h1, h2⟩ := h
      have := ih _ h2
      simp only [toTell, List.filterMap_cons, List.flatMap_cons, placed, Heard.marks]
      rw [along_leaves, this, ← h1]
      simp [placed, Heard.sections, Function.comp_def]

/-! ## Sections that are executed once -/

/-- Something that is opened and closed at once can be put anywhere. -/
theorem nested_insert {l : List (Nat × Bool)} (h : Nested l) : ∀ {a b : List (Nat × Bool)} (k : Nat), l = a ++ b →
    Nested (a ++ (k, true) :: (k, false) :: b) := by
  induction h with
  | nil =>
    intro a b k e
    obtain ⟨rfl, rfl⟩ := List.append_eq_nil_iff.1 e.symm
    exact .pair (inner := []) .nil .nil
  | @pair id inner rest hi hr ih1 ih2 =>
    intro a b k e
    cases a with
    | nil =>
      rw [List.nil_append] at e
      subst e
      exact .pair (inner := []) .nil (.pair hi hr)
    | cons x a =>
      rw [List.cons_append, List.cons_append, List.cons.injEq] at e
      obtain ⟨rfl, e⟩ := e
      rcases List.append_eq_append_iff.1 e with ⟨c, rfl, hc⟩ | ⟨c, rfl, rfl⟩
      · cases c with
        | nil =>
          rw [List.nil_append] at hc
          subst hc
          have := Nested.pair (id := id) (ih1 (a := inner) (b := []) k (by simp)) hr
          simpa using this
        | cons y c =>
          rw [List.cons_append, List.cons.injEq] at hc
          obtain ⟨rfl, rfl⟩ := hc
          have := Nested.pair (id := id) hi (ih2 (a := c) (b := b) k rfl)
          simpa using this
      · have := Nested.pair (id := id) (ih1 (a := a) (b := c) k rfl) hr
        simpa using this

/-- The starts and ends of sections among what happens. -/
def itemMarks (l : List Run.Spec.Item) : List (Nat × Bool) := l.filterMap fun x => match x with
  | .enter id _ => some (id, true)
  | .leave id _ => some (id, false)
  | _ => none

theorem itemMarks_nested (l : List Run.Spec.Item) : ∀ p : List Nat, Run.Nested p l → Run.openAfter p l = [] →
    Nested (p.map (·, true) ++ itemMarks l) := by
  induction l with
  | nil =>
    intro p _ h
    have : p = [] := h
    subst this
    exact .nil
  | cons x l ih =>
    intro p h ho
    cases x with
    | enter id f =>
      have := ih _ h ho
      simpa [itemMarks] using this
    | leave id f =>
      obtain ⟨h1, h2⟩ := h
      have := ih _ h2 ho
      obtain ⟨q, rfl⟩ := List.getLast?_eq_some_iff.1 h1
      rw [List.dropLast_concat] at this
      have := nested_insert this id rfl
      simpa [itemMarks] using this
    | act => exact ih p h ho
    | interrupted => exact ih p h ho
    | assertion => exact ih p h ho
    | skip => exact ih p h ho

theorem dropped_marks {a b : List Run.Spec.Item} (h : Run.Dropped a b) : itemMarks a = itemMarks b := by
  induction h with
  | nil => rfl
  | keep x h ih => unfold itemMarks at ih ⊢; rw [List.filterMap_cons, List.filterMap_cons, ih]
  | drop x h h1 h2 ih =>
    rw [ih]
    unfold itemMarks
    rw [List.filterMap_cons]
    cases x with
    | enter id f => exact absurd rfl (h1 id f)
    | leave id f => exact absurd rfl (h2 id f)
    | _ => rfl

theorem itemMarks_observed (log : List Run.Event) : Run.Spec.sectionMarks log = itemMarks (log.filterMap Run.Spec.observed) := by
  induction log with
  | nil => rfl
  | cons e log ih =>
    unfold Run.Spec.sectionMarks itemMarks at *
    cases e <;> simp [Run.Spec.observed, ih] <;> rfl

/-- The sections of a test whose sections are executed once are told properly nested. -/
theorem once_nested [Run.MessageLimit] {cfg : Run.Cfg} {t : Run.TestCase} {tags : List Filter.ParsedTag}
    (ha : Run.Spec.Alike t.body)
    (hd : Run.Spec.Always (Run.Spec.secDepth · ≤ cfg.maxNested) t.body)
    (hc : Run.Spec.Always (Run.Spec.capDepth · ≤ cfg.maxCaptures) t.body)
    (htags : Filter.forEachTag cfg.maxTag t.id.tags = .ok tags) (ht : Run.Spec.Always Run.Spec.Tidy t.body) (ho : Run.Spec.Always Run.Spec.Once t.body)
    {log : List Run.Event} {v : Nat} (hv : 2 ≤ v) {b : Bool}
    (hlog : log.filterMap Run.Spec.observed = (Run.Spec.caseStory t b).filter (Run.Spec.Item.visible v)) :
    Nested (Run.Spec.sectionMarks log) := by
  obtain ⟨_, h⟩ := Run.run_rep (cfg := { cfg with verbosity := 3 }) rfl ht ha hd hc htags
    (Run.Spec.story t.body.no (Run.Spec.topCtx t.loc) (Run.Spec.passCount t.body.first) 0 []).2
  obtain ⟨_, _, _, h1, h2⟩ := h (Nat.le_refl _)
  have hall := itemMarks_nested (Run.allItems t) [] h1 h2
  obtain ⟨x, hx, hx'⟩ := Run.extra_items t b
  have heff : Run.Dropped (Run.Spec.effective (Run.allItems t ++ x)) (Run.allItems t ++ x) := Run.dropped_effective _ .fresh
  rw [itemMarks_observed, hlog, hx, dropped_marks (Run.dropped_visible hv _), dropped_marks (heff.filter _)]
  have hfl : Run.Flagged (Run.allItems t ++ x) := by
    refine (Run.flagged_all ho).append ?_
    rcases hx' with rfl | ⟨ok, d, rfl⟩
    · intro y hy; cases hy
    · intro y hy id; rw [List.mem_singleton] at hy; subst hy; simp
  have hdrop : Run.Dropped ((Run.allItems t ++ x).filter Run.Spec.Item.reported) (Run.allItems t ++ x) := by
    refine Run.dropped_filter ?_ ?_
    · intro id f hm
      cases f with
      | true => rfl
      | false => exact absurd rfl (hfl _ hm id).1
    · intro id f hm
      cases f with
      | true => rfl
      | false => exact absurd rfl (hfl _ hm id).2
  rw [dropped_marks hdrop]
  have : itemMarks (Run.allItems t ++ x) = itemMarks (Run.allItems t) := by
    unfold itemMarks
    rw [List.filterMap_append]
    rcases hx' with rfl | ⟨ok, d, rfl⟩ <;> simp
  rw [this]
  exact hall

/-! ## One test -/

theorem inner_told [Run.MessageLimit] {log : List Run.Event} : ∀ {es : List Event}, (∀ e ∈ log, Run.isInner e = true) →
    Report.Spec.ToldAll log (es.map Event.report) → ∀ e ∈ es, ∃ x, heard e = some x := by
  intro es hin h
  generalize hrs : es.map Event.report = rs at h
  induction h generalizing es with
  | nil => intro e he; rw [List.map_eq_nil_iff] at hrs; subst hrs; cases he
  | @cons l es1 log es2 h1 h2 ih =>
    obtain ⟨x, y, rfl, hx, hy⟩ := List.map_eq_append_iff.1 hrs
    intro e he
    rcases List.mem_append.1 he with he | he
    · have hl := hin l (by simp)
      have hm : e.report ∈ es1 := by rw [← hx]; exact List.mem_map.2 ⟨e, he, rfl⟩
      cases h1 <;> first | cases hl | skip
      all_goals first | cases hm | skip
      all_goals
        simp only [List.mem_singleton] at hm
        cases e <;> first | cases hm | skip
        all_goals exact ⟨_, rfl⟩
    · exact ih (fun e he => hin e (by simp [he])) hy e he

/-- What happens in a test has no duration. -/
theorem durations_inner : ∀ {es : List Event}, (∀ e ∈ es, ∃ x, heard e = some x) → testDurations es = [] := by
  intro es h
  unfold testDurations
  rw [List.filterMap_eq_nil_iff]
  intro e he
  obtain ⟨x, hx⟩ := h e he
  cases e <;> first | rfl | cases hx

/-- The duration in the event for the end of a section. -/
def sectionDuration : Event → Option Duration
  | .sectionEnded _ _ _ _ d => some d
  | _ => none

theorem marks_times (lim : Report.Limits) (es : List Event) :
    (((es.map Event.report).flatMap (reportMarks lim)).filterMap Mark.numbers).map (·.lookup "durationInSeconds".toList) =
      (es.filterMap sectionDuration).map (shownTime lim) := by
  induction es with
  | nil => rfl
  | cons e es ih =>
    rw [List.map_cons, List.flatMap_cons, List.filterMap_append, List.map_append, ih, List.filterMap_cons]
    cases e <;> simp only [Event.report, reportMarks, leafNodes, sectionDuration, Option.getD_none, Option.getD_some,
      List.map_nil, List.filterMap_nil, List.nil_append, List.map_cons, List.filterMap_cons, Mark.numbers, List.append_nil,
      List.cons_append, List.map_append, List.map_map, List.filterMap_append, List.filterMap_map]
    case sectionEnded =>
      congr 1
      unfold durationAttrs shownTime countAttrs
      cases lim.timings <;> rfl
    all_goals
      simp [Mark.numbers, Function.comp_def]

theorem sectionDurations_inner : ∀ {es : List Event} (before : List Duration), (∀ e ∈ es, ∃ x, heard e = some x) →
    ∀ more, sectionDurations before (es ++ more) = sectionDurations (before ++ es.filterMap sectionDuration) more := by
  intro es
  induction es with
  | nil => intro before _ more; simp
  | cons e es ih =>
    intro before h more
    have ih := fun before => ih before (fun e he => h e (by simp [he])) more
    obtain ⟨x, hx⟩ := h e (by simp)
    cases e <;> first | cases hx; done | skip
    all_goals simp [sectionDurations, sectionDuration, List.filterMap_cons, ih]

theorem element_of_test [Run.MessageLimit] (src : Source) (rl : Report.Limits) {cfg : Run.Cfg} (hv : 2 ≤ cfg.verbosity)
    {fuel : Nat} {t : Run.TestCase} {ps : List Filter.ParsedTag} {tags : List Text}
    (ha : Run.Spec.Alike t.body)
    (hd : Run.Spec.Always (Run.Spec.secDepth · ≤ cfg.maxNested) t.body)
    (hc : Run.Spec.Always (Run.Spec.capDepth · ≤ cfg.maxCaptures) t.body)
    (htags : Filter.forEachTag cfg.maxTag t.id.tags = .ok ps) (ht : Run.Spec.Always Run.Spec.Tidy t.body)
    (hmay : ps.contains .mayFail = Run.Spec.hasTag tags "!mayfail")
    (hshould : ps.contains .shouldFail = Run.Spec.hasTag tags "!shouldfail")
    {s : Run.TS} (hs : Run.run cfg fuel t = some (.ok s)) (hstate : s.state = Run.Spec.verdictOf t tags)
    (hlog : s.log.filterMap Run.Spec.observed =
      (Run.Spec.caseStory t (Run.Spec.hasTag tags "!shouldfail")).filter (Run.Spec.Item.visible cfg.verbosity))
    (hn : Nested (Run.Spec.sectionMarks s.log)) {es : List Event} (h : Tells src t s es) :
    ∃ n, TellsCases rl (es.map Event.report) [n] ∧ TestElement src rl cfg.verbosity t tags n ∧
      (∃ d, testDurations es = [d] ∧ timeIn n = if rl.timings then some (attr d.text) else none) ∧
      ∃ ds, (∀ more, sectionDurations [] (es ++ more) = ds :: sectionDurations [] more) ∧
        sectionTimesIn n = ds.map (shownTime rl) := by
  obtain ⟨mid, a, f, al, hl, hin⟩ := Run.run_log_state hv hs
  obtain ⟨rest, state, d, hes, hst⟩ := h.ends mid a f al _ hl
  have hends := Run.run_ends ht ha hd hc htags hs
  rw [if_pos hv, hmay, hshould] at hends
  have told := h.told
  rw [hl] at told hn
  rw [hes, List.cons_append, List.cons_append, List.map_cons, List.map_append] at told
  obtain ⟨e1, e2, h12, t1, t2⟩ := told.cons_inv
  obtain ⟨e3, e4, rfl, t3, t4⟩ := t2.append_inv
  obtain ⟨e5, e6, rfl, t5, t6⟩ := t4.cons_inv
  cases t6
  cases t1
  cases t5
  rw [List.singleton_append, List.cons.injEq, List.append_nil] at h12
  obtain ⟨h1, h2⟩ := h12
  obtain ⟨h2, h3⟩ := List.append_inj' h2 rfl
  have hmid : Nested (Run.Spec.sectionMarks mid) := by
    have e : Run.Spec.sectionMarks (Run.Event.caseStarted t.id :: mid ++
        [Run.Event.caseEnded t.id a f al s.state]) = Run.Spec.sectionMarks mid := by
      rw [List.cons_append, show ∀ l, Run.Spec.sectionMarks (Run.Event.caseStarted t.id :: l) =
        Run.Spec.sectionMarks l from fun l => rfl, marks_append]
      simp [Run.Spec.sectionMarks]
    rwa [e] at hn
  rw [← h2] at t3
  obtain ⟨ns, k⟩ := tells_nested rl hmid rfl hin t3
  rw [hes, List.cons_append, List.map_cons, List.map_append]
  refine ⟨_, TellsCases.case k .nil, ⟨ns, d.text, ?_, ?_, ?_⟩, ⟨d, ?_, ?_⟩,
    rest.filterMap sectionDuration, ?_, ?_⟩
  · rw [hstate] at hst
    congr 4
    · cases hx : Run.Spec.verdictOf t tags <;> rw [hx] at hst <;> cases hst <;> simp
  · rw [tells_walk k, marks_blank]
    have := h.heard
    rw [hlog, hes] at this
    simp only [List.cons_append, List.filterMap_cons, heard, List.filterMap_append, List.filterMap_nil, List.append_nil] at this
    rw [this]
    rfl
  · rw [tells_walk k, marks_numbers t3]
    have : Run.Spec.sectionEnds mid = Run.Spec.sectionEnds s.log := by
      rw [hl]
      simp [Run.Spec.sectionEnds]
    rw [this, hends, List.map_map]
    rfl
  · have hrest := durations_inner (inner_told hin t3)
    unfold testDurations at hrest ⊢
    simp only [List.cons_append, List.filterMap_append, List.filterMap_cons, List.filterMap_nil, hrest, List.nil_append]
  · unfold timeIn durationAttrs
    dsimp only
    rw [List.getLast?_concat]
    dsimp only
    cases rl.timings <;> rfl
  · intro more
    rw [List.cons_append, sectionDurations, List.append_assoc,
      sectionDurations_inner [] (inner_told hin t3)]
    · rfl
    all_goals intros; contradiction
  · unfold sectionTimesIn
    dsimp only
    rw [walkAll_append, tells_walk k, List.filterMap_append, List.map_append, marks_times]
    simp [walkAll, walk, Mark.numbers]

end Verif.Events
