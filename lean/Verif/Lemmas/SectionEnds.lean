import Verif.Lemmas.Places
import Verif.Spec.SectionEnds
/-!
# What the ends of sections tell
-/
namespace Verif.Run
open Verif.Run.Spec

/-- The counters of a section in which something has happened. -/
def counted (special : Bool) (o : Nat × List Item) : Section :=
  { id := o.1
    asserts := (o.2.filter Item.isAssertion).length
    failures := if special then 0 else (o.2.filter Item.isFailure).length
    allowed := if special then (o.2.filter Item.isFailure).length else 0 }

theorem counted_neutral (special : Bool) (st : List (Nat × List Item)) {x : Item} (h : x.isAssertion = false)
    (h' : x.isFailure = false) :
    (st.map fun o => (o.1, o.2 ++ [x])).map (counted special) = st.map (counted special) := by
  rw [List.map_map]
  refine List.map_congr_left fun o _ => ?_
  simp [counted, List.filter_append, h, h']

theorem counted_assertion (special ok : Bool) (ctx : Ctx) (d : Text) (st : List (Nat × List Item)) :
    (st.map fun o => (o.1, o.2 ++ [Item.assertion ok ctx d])).map (counted special) =
      (st.map (counted special)).map (Section.count ok special) := by
  rw [List.map_map, List.map_map]
  refine List.map_congr_left fun o _ => ?_
  cases ok <;> cases special <;>
    simp [counted, Section.count, List.filter_append, List.filter_cons, Item.isAssertion, Item.isFailure]

theorem phase_append (seen : List Item) (x : Item) :
    Phase.fresh.after (seen ++ [x]) = (Phase.fresh.after seen).next x := by
  rw [after_append]; rfl

theorem state_skipped {p : Phase} {b : Bool} : p.state b = .skipped ↔ p = .skipped := by
  cases p <;> cases b <;> simp [Phase.state]

theorem phase_skipped (seen : List Item) : decide ((Phase.fresh.after seen) = .skipped) = skipsTest seen := by
  rw [after_fresh]
  cases skipsTest seen
  · cases seen.any Item.isFailure <;> rfl
  · rfl

theorem sectionEnds_append (a b : List Event) : sectionEnds (a ++ b) = sectionEnds a ++ sectionEnds b := by
  simp [sectionEnds, List.filterMap_append]

/-- The ends told for some items. -/
theorem adds_ends (l : List Item) : ∀ (R : Rep) (seen : List Item) (st : List (Nat × List Item)),
    R.core.state = (Phase.fresh.after seen).state (R.core.mayFail || R.core.shouldFail) →
    R.opened = (st.map (counted (R.core.mayFail || R.core.shouldFail))).reverse →
    Nested (R.opened.map (·.id)) l →
    sectionEnds (R.adds l).core.log = sectionEnds R.core.log ++
      (lefts seen st (effectiveFrom (Phase.fresh.after seen) l)).map
        (Left.told (R.core.mayFail || R.core.shouldFail)) := by
  induction l with
  | nil =>
    intro R seen st _ _ _
    have : effectiveFrom (Phase.fresh.after seen) [] = [] := by
      cases Phase.fresh.after seen <;> simp [effectiveFrom, effective]
    rw [this]
    simp [Rep.adds, lefts]
  | cons x l ih =>
    intro R seen st hs ho hn
    have hn2 := (nested_append (R.opened.map (·.id)) [x] l).mp hn
    obtain ⟨-, h2, h3, h4, h5⟩ := add_log R x _ hs hn2.1
    rw [show R.adds (x :: l) = (R.add x).adds l from rfl]
    have hflags : ((R.add x).core.mayFail || (R.add x).core.shouldFail) = (R.core.mayFail || R.core.shouldFail) := by
      rw [h4, h5]
    have key : ∀ st', (R.add x).opened = (st'.map (counted (R.core.mayFail || R.core.shouldFail))).reverse →
        ∀ seen', Phase.fresh.after seen' = (Phase.fresh.after seen).next x →
        sectionEnds ((R.add x).adds l).core.log = sectionEnds (R.add x).core.log ++
          (lefts seen' st' (effectiveFrom ((Phase.fresh.after seen).next x) l)).map
            (Left.told (R.core.mayFail || R.core.shouldFail)) := by
      intro st' ho' seen' hp
      have := ih (R.add x) seen' st' (by rw [hp, hflags]; exact h3) (by rw [hflags]; exact ho')
        (by rw [h2]; exact hn2.2)
      rwa [hflags, hp] at this
    rw [effectiveFrom_cons]
    -- items that are not sections
    have plain : (∀ id b, x ≠ .enter id b) → (∀ id b, x ≠ .leave id b) →
        ¬ ((Phase.fresh.after seen) = .skipped ∧ x.isAssertion = true) →
        sectionEnds (R.add x).core.log = sectionEnds R.core.log →
        (R.add x).opened = ((st.map fun o => (o.1, o.2 ++ [x])).map
          (counted (R.core.mayFail || R.core.shouldFail))).reverse →
        sectionEnds ((R.add x).adds l).core.log = sectionEnds R.core.log ++
          (lefts seen st ((if (Phase.fresh.after seen) = .skipped ∧ x.isAssertion = true then [] else [x]) ++
            effectiveFrom ((Phase.fresh.after seen).next x) l)).map
              (Left.told (R.core.mayFail || R.core.shouldFail)) := by
      intro e1 e2 hc hl hop
      rw [if_neg hc, key _ hop (seen ++ [x]) (phase_append ..), hl]
      congr 2
      cases x with
      | enter id b => exact absurd rfl (e1 id b)
      | leave id b => exact absurd rfl (e2 id b)
      | act | assertion | skip | interrupted => rfl
    cases x with
    | act a =>
      refine plain (by simp) (by simp) (by simp [Item.isAssertion]) ?_ ?_
      · simp [Rep.add, Core.step, sectionEnds]
      · rw [counted_neutral _ _ rfl rfl]; exact ho
    | interrupted loc =>
      refine plain (by simp) (by simp) (by simp [Item.isAssertion]) rfl ?_
      rw [counted_neutral _ _ rfl rfl]; exact ho
    | skip ctx msg =>
      refine plain (by simp) (by simp) (by simp [Item.isAssertion]) ?_ ?_
      · simp [Rep.add, Core.step, sectionEnds]
      · rw [counted_neutral _ _ rfl rfl]; exact ho
    | assertion ok ctx d =>
      by_cases hp : Phase.fresh.after seen = .skipped
      · have hst : R.core.state = .skipped := by rw [hs, hp]; rfl
        have hnext : (Phase.fresh.after seen).next (.assertion ok ctx d) = Phase.fresh.after seen := by rw [hp]; rfl
        rw [if_pos ⟨hp, rfl⟩, key st (by simp [Rep.add, hst, ho]) seen hnext.symm]
        simp [Rep.add, Core.step, hst]
      · have hst : ¬ R.core.state = .skipped := by rw [hs, state_skipped]; exact hp
        refine plain (by simp) (by simp) (fun h => hp h.1) ?_ ?_
        · simp only [Rep.add, Core.step, if_neg hst]
          split
          · simp [sectionEnds]
          · split <;> simp [sectionEnds]
        · rw [counted_assertion]
          simp only [Rep.add, if_neg hst, ho, List.map_reverse]
    | enter id first =>
      rw [if_neg (by simp [Item.isAssertion]), key ((id, []) :: st) (by simp [Rep.add, ho, counted])
        (seen ++ [.enter id first]) (phase_append ..)]
      congr 1
      cases first <;> simp [Rep.add, Core.step, sectionEnds]
    | leave id last =>
      rw [if_neg (by simp [Item.isAssertion])]
      have hne := hn2.1.1
      cases st with
      | nil => rw [ho] at hne; cases hne
      | cons o st =>
        obtain ⟨k, inside⟩ := o
        have hlast : R.opened.getLast? = some (counted (R.core.mayFail || R.core.shouldFail) (k, inside)) := by
          rw [ho]; simp
        rw [key st (by simp [Rep.add, ho]) (seen ++ [.leave id last]) (phase_append ..)]
        show _ = sectionEnds R.core.log ++ ((if last then [(⟨k, skipsTest seen, inside⟩ : Left)] else []) ++
          lefts (seen ++ [Item.leave id last]) st (effectiveFrom ((Phase.fresh.after seen).next (.leave id last)) l)).map _
        rw [List.map_append, ← List.append_assoc]
        congr 1
        cases last with
        | false => simp [Rep.add]
        | true =>
          simp only [Rep.add, hlast, Core.step, sectionEnds_append, if_true, List.map_cons, List.map_nil]
          congr 1
          rw [← phase_skipped, hs]
          simp [sectionEnds, Left.told, counted, state_skipped]

/-- An assertion at the end is in no section that ends. -/
theorem lefts_concat (l : List Item) (ok : Bool) (ctx : Ctx) (d : Text) : ∀ (seen : List Item) (st : List (Nat × List Item)),
    lefts seen st (l ++ [.assertion ok ctx d]) = lefts seen st l := by
  induction l with
  | nil => intro seen st; cases st <;> rfl
  | cons x l ih =>
    intro seen st
    cases x <;> cases st <;> simp only [List.cons_append, lefts, ih]

/-- Where the last assertion counts. -/
theorem effective_concat (all : List Item) {y : Item} (hy : y.isAssertion = true) : effective (all ++ [y]) =
    effective all ++ (if Phase.fresh.after all = .skipped then [] else [y]) := by
  have hgen : ∀ (p : Phase) (l : List Item), effectiveFrom p (l ++ [y]) =
      effectiveFrom p l ++ (if p.after l = .skipped then [] else [y]) := by
    intro p l
    induction l generalizing p with
    | nil =>
      rw [List.nil_append, effectiveFrom_cons]
      have hnil : ∀ q : Phase, effectiveFrom q [] = [] := by
        intro q; cases q <;> simp [effectiveFrom, effective]
      rw [hnil, hnil]
      have : p.after [] = p := rfl
      rw [this]
      simp only [hy, and_true, List.append_nil, List.nil_append]
    | cons z l ih =>
      rw [List.cons_append, effectiveFrom_cons, effectiveFrom_cons, ih (p.next z)]
      have : p.after (z :: l) = (p.next z).after l := rfl
      rw [this, List.append_assoc]
  exact hgen .fresh all

theorem sectionEnds_shown (v : Nat) (log : List Event) :
    sectionEnds (shown v log) = if 2 ≤ v then sectionEnds log else [] := by
  induction log with
  | nil => simp [sectionEnds, shown]
  | cons e log ih =>
    have h1 : sectionEnds (e :: log) = sectionEnds [e] ++ sectionEnds log := sectionEnds_append [e] log
    have h2 : shown v (e :: log) = (if levelOf e ≤ v then [e] else []) ++ shown v log := by
      simp only [shown, List.filter_cons]
      by_cases h : levelOf e ≤ v <;> simp [h]
    rw [h1, h2, sectionEnds_append, ih]
    by_cases h : levelOf e ≤ v
    · rw [if_pos h]
      split
      · rfl
      · cases e <;> first | rfl | (simp only [levelOf] at h; omega)
    · rw [if_neg h]
      cases e with
      | sectionEnded id sk a f al =>
        have h' : ¬ 2 ≤ v := h
        rw [if_neg h', if_neg h']; rfl
      | _ => rfl

/-- The ends of sections told by a test. -/
theorem run_ends [MessageLimit] {cfg : Cfg} {t : TestCase} {tags : List Filter.ParsedTag} (ht : Always Tidy t.body)
    (hsec : Alike t.body) (hd : Always (secDepth · ≤ cfg.maxNested) t.body)
    (hc : Always (capDepth · ≤ cfg.maxCaptures) t.body)
    (htags : Filter.forEachTag cfg.maxTag t.id.tags = .ok tags) {fuel : Nat} {s : TS}
    (h : run cfg fuel t = some (.ok s)) :
    sectionEnds s.log = if 2 ≤ cfg.verbosity then
      (lefts [] [] (caseStory t (tags.contains .shouldFail))).map
        (Left.told (tags.contains .mayFail || tags.contains .shouldFail)) else [] := by
  obtain ⟨k1, k2⟩ := run_rep (cfg := full cfg) rfl ht hsec hd hc htags fuel
  rw [run_hide] at h
  by_cases hf : fuel < (story t.body.no (topCtx t.loc) (passCount t.body.first) 0 []).2
  · rw [k1 hf] at h; cases h
  · obtain ⟨b, e, hend, hnest, -⟩ := k2 (by omega)
    rw [e] at h
    cases h
    show sectionEnds (shown cfg.verbosity _) = _
    rw [sectionEnds_shown]
    split
    · rw [show caseStory t (tags.contains .shouldFail) =
        effective (((story t.body.no (topCtx t.loc) (passCount t.body.first) 0 []).1.1 ++
          ending t.loc (story t.body.no (topCtx t.loc) (passCount t.body.first) 0 []).1.2) ++ if tags.contains .shouldFail then
          [.assertion (((story t.body.no (topCtx t.loc) (passCount t.body.first) 0 []).1.1 ++
            ending t.loc (story t.body.no (topCtx t.loc) (passCount t.body.first) 0 []).1.2).any Item.isFailure)
            (Ctx.exactly (topCtx t.loc) t.loc) "expected test to fail".toList] else []) from rfl]
      generalize (story t.body.no (topCtx t.loc) (passCount t.body.first) 0 []).1.1 ++
        ending t.loc (story t.body.no (topCtx t.loc) (passCount t.body.first) 0 []).1.2 = all at hend hnest ⊢
      have hinit : initState (full cfg) t tags = { freshState t tags with log := [.caseStarted t.id] } := by
        simp [initState, emit, full, freshState]
      have hb : sectionEnds b.log = (lefts [] [] (effective all)).map
          (Left.told (tags.contains .mayFail || tags.contains .shouldFail)) := by
        have h1 : b.log = _ := congrArg Core.log hend.core
        have := adds_ends all ⟨[], core (initState (full cfg) t tags), false⟩ [] [] (by rw [hinit]; rfl) rfl hnest
        rw [h1]
        exact this.trans (by rw [hinit]; rfl)
      have hfin : sectionEnds (endCase (full cfg) t (checkShouldFail (full cfg) b)).log = sectionEnds b.log := by
        have e1 : ∀ v : TS, sectionEnds (endCase (full cfg) t v).log = sectionEnds v.log := by
          intro v
          simp [endCase, emit, full, sectionEnds]
        rw [e1, checkShouldFail]
        split
        · show sectionEnds (reportAssertion (full cfg) false _ _ (setInCheck true (setShouldFail false b))).log = _
          have hcore := core_reportAssertion (fl := false) cfg (decide (b.state = .allowedFail))
            "expected test to fail".toList (setInCheck true (setShouldFail false b))
          have hlog := congrArg Core.log hcore
          simp only [Core.steps, List.foldl_cons, List.foldl_nil, Core.step] at hlog
          rw [show (reportAssertion (full cfg) false (decide (b.state = .allowedFail))
            "expected test to fail".toList (setInCheck true (setShouldFail false b))).log = _ from hlog]
          split
          · rfl
          · split
            · simp [sectionEnds, core, setInCheck, setShouldFail]
            · split <;> simp [sectionEnds, core, setInCheck, setShouldFail]
        · rfl
      rw [hfin, hb]
      congr 1
      split
      · rw [effective_concat _ rfl]
        split
        · rw [List.append_nil]
        · rw [lefts_concat]
      · rw [List.append_nil]
    · rfl

end Verif.Run
