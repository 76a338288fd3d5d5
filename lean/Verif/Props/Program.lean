import Verif.Spec.Program
import Verif.Props.Registry
import Verif.Props.Operands
import Verif.Props.Console
import Verif.Props.Configure
/-!
# C67: the result of the whole program, in terms of what the tests do
-/
namespace Verif.Run
open Verif.Run.Spec

theorem skips_failures {l : List Item} (h : skipsTest l = true) (m : List Item) :
    (effective (l ++ m)).any Item.isFailure = false ∧ (effective (l ++ m)).any Item.isSkip = true := by
  induction l with
  | nil => cases h
  | cons x l ih =>
    simp only [skipsTest] at h
    simp only [List.cons_append, effective]
    by_cases hs : x.isSkip = true
    · rw [if_pos hs, List.any_cons, List.any_cons, hs]
      refine ⟨?_, rfl⟩
      have hx : x.isFailure = false := by cases x <;> first | rfl | cases hs
      rw [hx, Bool.false_or, List.any_eq_false]
      intro y hy
      rw [List.mem_filter] at hy
      obtain ⟨_, hy⟩ := hy
      cases y <;> simp_all [Item.isFailure, Item.isAssertion]
    · rw [if_neg hs] at h ⊢
      by_cases hf : x.isFailure = true
      · rw [if_pos hf] at h; cases h
      · rw [if_neg hf] at h ⊢
        rw [List.any_cons, List.any_cons, (ih h).1, (ih h).2]
        simpa using hf

theorem fails_kept {l : List Item} (h : skipsTest l = false) (hf : l.any Item.isFailure = true) (m : List Item) :
    effective (l ++ m) = l ++ m := by
  induction l with
  | nil => cases hf
  | cons x l ih =>
    simp only [skipsTest] at h
    simp only [List.cons_append, effective]
    by_cases hs : x.isSkip = true
    · rw [if_pos hs] at h; cases h
    · rw [if_neg hs] at h ⊢
      by_cases hx : x.isFailure = true
      · rw [if_pos hx]
      · rw [if_neg hx] at h ⊢
        rw [List.any_cons, Bool.or_eq_true] at hf
        rw [ih h (hf.resolve_left hx)]

theorem clean_kept {l : List Item} (h : skipsTest l = false) (hf : l.any Item.isFailure = false) (m : List Item) :
    effective (l ++ m) = l ++ effective m ∧ l.any Item.isSkip = false := by
  induction l with
  | nil => exact ⟨rfl, rfl⟩
  | cons x l ih =>
    simp only [skipsTest] at h
    simp only [List.cons_append, effective]
    rw [List.any_cons, Bool.or_eq_false_iff] at hf
    by_cases hs : x.isSkip = true
    · rw [if_pos hs] at h; cases h
    · rw [if_neg hs] at h ⊢
      rw [hf.1, if_neg (by decide)] at h ⊢
      obtain ⟨a, b⟩ := ih h hf.2
      rw [a, List.any_cons, b]
      simpa using hs

theorem any_observed {l : List Event} {st : List Item} {v : Nat}
    (h : l.filterMap observed = st.filter (Item.visible v)) (p : Event → Bool) (q : Item → Bool)
    (hpq : ∀ e, p e = (match observed e with | some x => q x | none => false))
    (hq : ∀ x, q x = true → x.visible v = true) : l.any p = st.any q := by
  have h1 : l.any p = (l.filterMap observed).any q := by
    clear h
    induction l with
    | nil => rfl
    | cons e l ih =>
      rw [List.any_cons, ih, hpq e]
      cases ho : observed e with
      | none => rw [List.filterMap_cons_none ho]; rfl
      | some x => rw [List.filterMap_cons_some ho, List.any_cons]
  rw [h1, h]
  clear h h1
  induction st with
  | nil => rfl
  | cons x st ih =>
    rw [List.filter_cons]
    split
    · rw [List.any_cons, List.any_cons, ih]
    · rename_i hx
      rw [List.any_cons, ih]
      cases hqx : q x with
      | false => rfl
      | true => exact absurd (hq x hqx) hx

end Verif.Run

namespace Verif.Props
open Verif Verif.Run Verif.Run.Spec Verif.Reg Verif.Reg.Spec

/-- The parsed tags, in terms of the written ones. -/
theorem special_of_tagged {maxTag : Nat} {id : Filter.TestId} {ts : List Text} (h : Tagged maxTag id ts) :
    ∃ ps, Filter.forEachTag maxTag id.tags = .ok ps ∧ ps.contains .mayFail = hasTag ts "!mayfail" ∧
      ps.contains .shouldFail = hasTag ts "!shouldfail" := by
  obtain ⟨h1, h2, h3⟩ := h
  obtain ⟨ps, e, _, _, a, b⟩ := C13_decode maxTag ts h2 h3
  refine ⟨ps, by rw [h1]; exact e, ?_, ?_⟩
  · rw [Bool.eq_iff_iff, hasTag, List.contains_iff_mem, List.contains_iff_mem]; exact a
  · rw [Bool.eq_iff_iff, hasTag, List.contains_iff_mem, List.contains_iff_mem]; exact b

/-- **C67**. How a test case ends is decided by what happens in it and its tags, at every verbosity. -/
theorem C67_verdict [Run.MessageLimit] {cfg : Cfg} {t : TestCase} {ts : List Text} (ha : Alike t.body)
    (hs : Always (secDepth · ≤ cfg.maxNested) t.body) (hc : Always (capDepth · ≤ cfg.maxCaptures) t.body) (hts : Tagged cfg.maxTag t.id ts) (ht : Always Tidy t.body)
    {fuel : Nat} (hfuel : passCount t.body.first ≤ fuel) :
    ∃ s, run cfg fuel t = some (.ok s) ∧ s.state = verdictOf t ts ∧
      s.log.filterMap observed =
        (caseStory t (hasTag ts "!shouldfail")).filter (Item.visible cfg.verbosity) := by
  obtain ⟨ps, hps, hmay, hshould⟩ := special_of_tagged hts
  obtain ⟨s0, hr0, hl0⟩ := C19_meaning (cfg := cfg) (t := t) ⟨ha, hs, hc, hps⟩ ht hfuel
  rw [hshould] at hl0
  refine ⟨s0, hr0, ?_, hl0⟩
  -- the state does not depend on the verbosity
  obtain ⟨s, hr, hl⟩ := C19_meaning (cfg := { cfg with verbosity := 3 }) (t := t) ⟨ha, hs, hc, hps⟩ ht hfuel
  have hst : s0.state = s.state := by
    rw [show cfg = { cfg with verbosity := cfg.verbosity } from rfl, C30_verbosity, hr] at hr0
    cases hr0
    rfl
  rw [hst]
  clear hr0 hl0 hst s0
  rw [hshould] at hl
  obtain ⟨ps', b, hps', hb, hm, h1, h2, rfl⟩ := run_body rfl hr
  rw [hps] at hps'
  cases hps'
  rw [hmay] at h1
  rw [hshould] at h2
  have hfail := any_observed hl isFailure Item.isFailure (fun e => by cases e <;> rfl)
    (fun x hx => by cases x <;> simp_all [Item.isFailure, Item.visible, Item.level, Item.reported])
  have hskip := any_observed hl isSkip Item.isSkip (fun e => by cases e <;> rfl)
    (fun x hx => by cases x <;> first | rfl | cases hx)
  have hstory : caseStory t (hasTag ts "!shouldfail") = effective (happens t ++
      if hasTag ts "!shouldfail" then [.assertion ((happens t).any Item.isFailure)
        (Ctx.exactly (topCtx t.loc) t.loc) "expected test to fail".toList] else []) := rfl
  obtain ⟨_, _, _, hcases⟩ := final_core (cfg := { cfg with verbosity := 3 }) rfl t hb
  have hsplit := log_split (cfg := { cfg with verbosity := 3 }) rfl t hb
  have hbs : b.state = stateOf (b.mayFail || b.shouldFail) b.log := hb.state
  rw [h1, h2] at hbs
  generalize hu : endCase { cfg with verbosity := 3 } t (checkShouldFail { cfg with verbosity := 3 } b) = u
    at hsplit hcases hl hfail hskip ⊢
  have hsnoc : ∀ (p : Event → Bool) (l : List Event) (e : Event), p e = false → (l ++ [e]).any p = l.any p := by
    intro p l e h
    rw [List.any_append]; simp [h]
  unfold verdictOf
  dsimp only
  generalize hasTag ts "!mayfail" = may at *
  generalize hasTag ts "!shouldfail" = should at *
  rw [hstory] at hfail hskip hl
  generalize happens t = l at *
  rcases hcases with ⟨e0, _, _, _, e4, e5⟩ | ⟨⟨e0', e0⟩, _, _, _, e4, c, d, e5⟩ | ⟨⟨e0', e0⟩, _, _, _, e4, c, d, e5⟩
  · rw [hsplit, hsnoc _ _ _ rfl, e5] at hfail hskip
    rw [e4, hbs, stateOf, hfail, hskip]
    cases hsk : skipsTest l with
    | true =>
      obtain ⟨a1, a2⟩ := skips_failures hsk (if should = true then [Item.assertion (l.any Item.isFailure)
        (Ctx.exactly (topCtx t.loc) t.loc) "expected test to fail".toList] else [])
      rw [a1, a2]
      rfl
    | false =>
      have hsh : should = false := by
        cases hsh : should with
        | false => rfl
        | true =>
          exfalso
          have hbk : b.state = .skipped := by
            rcases e0 with e0 | e0
            · rw [h2, hsh] at e0; cases e0
            · exact e0
          rw [hbs, stateOf, hfail, hskip, hsh] at hbk
          cases hfl : l.any Item.isFailure with
          | true =>
            rw [fails_kept hsk hfl, List.any_append, hfl, Bool.true_or, if_pos rfl] at hbk
            cases may <;> cases hbk
          | false =>
            rw [(clean_kept hsk hfl _).1, List.any_append, hfl] at hbk
            cases may <;> cases hbk
      subst hsh
      simp only [Bool.false_eq_true, if_false, List.append_nil, Bool.or_false]
      cases hfl : l.any Item.isFailure with
      | true =>
        have := fails_kept hsk hfl []
        rw [List.append_nil] at this
        rw [this, hfl]; rfl
      | false =>
        have := clean_kept hsk hfl []
        rw [List.append_nil] at this
        rw [this.1, List.any_append, hfl, List.any_append, this.2]
        rfl
  · have hsh : should = true := by rw [← h2]; exact e0'
    subst hsh
    rw [e4, e0]
    have hf : (effective (l ++ [Item.assertion (l.any Item.isFailure) (Ctx.exactly (topCtx t.loc) t.loc)
        "expected test to fail".toList])).any Item.isFailure = true := by
      rw [if_pos rfl] at hfail
      rw [← hfail, hsplit, hsnoc _ _ _ rfl, e5, hsnoc _ _ _ rfl]
      rw [e0, stateOf] at hbs
      split at hbs
      · assumption
      · split at hbs <;> cases hbs
    cases hsk : skipsTest l with
    | true => rw [(skips_failures hsk _).1] at hf; cases hf
    | false =>
      cases hfl : l.any Item.isFailure with
      | true => simp
      | false =>
        exfalso
        rw [if_pos rfl, hfl, (clean_kept hsk hfl _).1, hsplit, e5] at hl
        simp only [List.filterMap_append, List.filter_append] at hl
        have h : (b.log.filterMap observed ++ [Item.assertion true c d]) ++ [] = l.filter (Item.visible 3) ++
          [Item.assertion false (Ctx.exactly (topCtx t.loc) t.loc) "expected test to fail".toList] := hl
        rw [List.append_nil] at h
        have := List.append_inj_right' h rfl
        simp at this
  · have hsh : should = true := by rw [← h2]; exact e0'
    subst hsh
    rw [e4, h1]
    have hf : (effective (l ++ [Item.assertion (l.any Item.isFailure) (Ctx.exactly (topCtx t.loc) t.loc)
        "expected test to fail".toList])).any Item.isFailure = true := by
      rw [if_pos rfl] at hfail
      rw [← hfail, hsplit, hsnoc _ _ _ rfl, e5, List.any_append]
      simp [isFailure]
    cases hsk : skipsTest l with
    | true => rw [(skips_failures hsk _).1] at hf; cases hf
    | false =>
      cases hfl : l.any Item.isFailure with
      | false => simp
      | true =>
        exfalso
        rw [if_pos rfl, hfl, fails_kept hsk hfl, hsplit, e5] at hl
        simp only [List.filterMap_append, List.filter_append] at hl
        have h : (b.log.filterMap observed ++ [Item.assertion false c d]) ++ [] = l.filter (Item.visible 3) ++
          [Item.assertion true (Ctx.exactly (topCtx t.loc) t.loc) "expected test to fail".toList] := hl
        rw [List.append_nil] at h
        have := List.append_inj_right' h rfl
        simp at this

/-- What the output of the program tells about what happens in tests. -/
def told : Out → Option Item
  | .event e => observed e
  | _ => none

/-- A registered test that stays within the limits, and whose executions all reach the same sections. -/
structure Sound (lim : Limits) (fuel : Nat) (t : TestCase) (tags : List Text) : Prop where
  name : Registrable lim.maxName t
  tags : Tagged lim.cfg.maxTag t.id tags
  tidy : Always Tidy t.body
  alike : Alike t.body
  sections : Always (secDepth · ≤ lim.cfg.maxNested) t.body
  captures : Always (capDepth · ≤ lim.cfg.maxCaptures) t.body
  fuel : passCount t.body.first ≤ fuel

/-- A test all executions of which are the same. -/
theorem sound_same {lim : Limits} {fuel : Nat} {t : TestCase} {tags : List Text} (h : t.body.later = [])
    (hn : Registrable lim.maxName t) (htags : Tagged lim.cfg.maxTag t.id tags) (ht : Tidy t.body.first)
    (hs : secDepth t.body.first ≤ lim.cfg.maxNested) (hc : capDepth t.body.first ≤ lim.cfg.maxCaptures)
    (hf : passCount t.body.first ≤ fuel) : Sound lim fuel t tags := by
  have key : ∀ {P : Prog → Prop}, P t.body.first → Always P t.body := by
    intro P hP
    rw [always_iff, h]
    exact ⟨hP, by simp⟩
  exact ⟨hn, htags, key ht, key rfl, key hs, key hc, hf⟩

/-- The verbosity of a run: the one asked for, or else the initial one; the reporter chosen (the initial one if none is)
can change it. -/
def verbosityOfRun (reporters : List Text) (init : Nat → Nat → Nat) (config : Cli.Config)
    (ts : List Cli.Spec.Token) : Nat :=
  let asked := (Cli.Spec.verbosityOf (Cli.Spec.given "--verbosity" ts)).getD config.verbosity
  match (Configure.Spec.choice reporters (Cli.Spec.given "--reporter" ts)).or (config.reporter.map (·.1)) with
  | none => asked
  | some i => init i asked

/-- A command line that asks for a run: the program is that run. -/
theorem main_parts [Run.MessageLimit] {lim : Limits} {fuel maxArgs : Nat} (reporters : List Text) (init : Nat → Nat → Nat)
    (config : Cli.Config) (argv0 : Text) {argv : List Text} {cases : List Case} (hlen : argv.length ≤ maxArgs)
    (tags : Case → List Text) (hcases : ∀ c ∈ cases, Sound lim fuel c.test (tags c))
    {ts : List Cli.Spec.Token} (hts : Cli.Spec.tokens argv = some ts) (hn : (Cli.Spec.optionNames ts).Nodup)
    (hno : ∀ l ∈ listing, l ∉ Cli.Spec.optionNames ts) :
    ∃ v pred cases' log success color msgs input config',
      (Cli.parseArguments maxArgs config.withColor argv0 argv = .ok (color, msgs, some input) ∧
        input.executable = Cli.extractExecutable argv0 ∧ Cli.configure reporters input config = .ok config' ∧
        verbosityFor init config' = v ∧ (∀ name ∈ listing, Cli.getOption input name = none) ∧
        filtersOf input = .ok (Cli.Spec.positionalsOf ts) ∧
        pred = Filter.selectForRun lim.cfg.maxTag lim.maxName (Cli.Spec.positionalsOf ts)) ∧
      v = verbosityOfRun reporters init config ts ∧
      (∀ c ∈ cases, ∃ b, pred c.test.id = .ok b ∧
        (b = true ↔ Verif.Spec.Selected (Cli.Spec.positionalsOf ts) ⟨fullName c.test.id, tags c⟩)) ∧
      (∀ c ∈ cases, ∃ s, run { lim.cfg with verbosity := v } fuel c.test = some (.ok s) ∧
        s.state = verdictOf c.test (tags c) ∧ s.log.filterMap observed =
          (caseStory c.test (hasTag (tags c) "!shouldfail")).filter (Item.visible v)) ∧
      runSelected { lim with cfg := { lim.cfg with verbosity := v } } fuel pred cases =
        some (.ok (cases', log, success)) ∧
      main lim fuel maxArgs reporters init config argv0 argv cases =
        some (.ok (if success then 0 else 1, log.map .event)) := by
  obtain ⟨color, msgs, r, hp, hwf, hinp⟩ := C31_parse (maxArgs := maxArgs) config.withColor argv0 hlen
  obtain ⟨input, rfl⟩ := Option.isSome_iff_exists.mp (hwf.mpr ⟨ts, hts, hn⟩)
  obtain ⟨ts', ht', hl, hpos, hpos'⟩ := C31_lookup hlen hp
  rw [hts] at ht'
  cases ht'
  obtain ⟨config', hc⟩ := C32_total reporters config (C32_values_present hlen hp)
  have hverb := (C32_configure (C32_values_present hlen hp) hc).2.1
  have hval : Cli.Spec.given "--verbosity" ts = valueOf input "--verbosity" := by
    rw [Cli.Spec.given, ← hl _ (by decide), valueOf]
    cases Cli.getOption input "--verbosity".toList <;> rfl
  have hrep := C70_choice (C32_values_present hlen hp) hc
  have hval' : Cli.Spec.given "--reporter" ts = valueOf input "--reporter" := by
    rw [Cli.Spec.given, ← hl _ (by decide), valueOf]
    cases Cli.getOption input "--reporter".toList <;> rfl
  have hnone : ∀ name ∈ listing, Cli.getOption input name = none := by
    intro name hname
    have hne : name ≠ [] := by
      have : ∀ l ∈ listing, l ≠ [] := by decide
      exact this name hname
    exact getOption_eq_none fun h => hno name hname ((getOption_isSome hl name hne).mp h)
  obtain ⟨lim', hlim⟩ : ∃ lim' : Limits,
      lim' = { lim with cfg := { lim.cfg with verbosity := verbosityFor init config' } } := ⟨_, rfl⟩
  obtain ⟨pred, hpred⟩ : ∃ pred, pred = Filter.selectForRun lim'.cfg.maxTag lim'.maxName
      (Cli.Spec.positionalsOf ts) := ⟨_, rfl⟩
  have hm : lim'.cfg.maxTag = lim.cfg.maxTag := by rw [hlim]
  have hm' : lim'.maxName = lim.maxName := by rw [hlim]
  -- the selection
  have hsel : ∀ c ∈ cases, ∃ b, pred c.test.id = .ok b ∧
      (b = true ↔ Verif.Spec.Selected (Cli.Spec.positionalsOf ts) ⟨fullName c.test.id, tags c⟩) := by
    intro c hcm
    obtain ⟨h1, h2, h3⟩ := (hcases c hcm).tags
    obtain ⟨b, e, v⟩ := C16_selection lim.cfg.maxTag lim.maxName (Cli.Spec.positionalsOf ts) c.test.id (tags c)
      h1 h2 h3
    rw [makeFullName_eq, if_pos (hcases c hcm).name.2] at v
    exact ⟨b, by rw [hpred, hm, hm']; exact e, v⟩
  -- the runs
  have hruns : ∀ c ∈ cases, ∃ s, run lim'.cfg fuel c.test = some (.ok s) ∧ s.state = verdictOf c.test (tags c) ∧
      s.log.filterMap observed = (caseStory c.test (hasTag (tags c) "!shouldfail")).filter
        (Item.visible (verbosityFor init config')) := by
    intro c hcm
    obtain ⟨_, g2, g3, ga, g4, g5, g6⟩ := hcases c hcm
    obtain ⟨s, a1, a2, a3⟩ := C67_verdict (cfg := lim'.cfg) (t := c.test) (ts := tags c) ga
      (by rw [hlim]; exact g4)     (by rw [hlim]; exact g5) (by rw [hm]; exact g2) g3 g6
    exact ⟨s, a1, a2, by rw [a3, hlim]⟩
  obtain ⟨⟨cases', log, success⟩, hrun⟩ := C29_run_ends (lim := lim') (fuel := fuel) (pred := pred) (cases := cases)
    (fun c hcm => (hsel c hcm).imp fun b h => h.1) (fun c hcm _ => (hruns c hcm).imp fun s h => h.1)
  have hmain : main lim fuel maxArgs reporters init config argv0 argv cases =
      some (.ok (if success then 0 else 1, log.map .event)) := by
    unfold main
    rw [hp]
    simp only [hc]
    rw [← hlim]
    have : runTests lim' fuel reporters input cases = some (.ok (cases', log.map .event, success)) := by
      unfold runTests
      rw [hnone "--help".toList (by decide), hnone "--list-tests-with-tag".toList (by decide),
        hnone "--list-tags".toList (by decide), hnone "--list-reporters".toList (by decide),
        hnone "--list-tests".toList (by decide), filtersOf_eq hpos hpos']
      simp only [Option.isSome_none, Bool.false_eq_true, if_false, runOrList]
      rw [hpred] at hrun
      by_cases hne : Cli.Spec.positionalsOf ts = []
      · rw [hne] at hrun ⊢
        rw [show Filter.selectForRun lim'.cfg.maxTag lim'.maxName [] = Filter.selectDefault lim'.cfg.maxTag from rfl]
          at hrun
        simp only [List.isEmpty_nil, if_true, hrun]
        rfl
      · rw [selectForRun_filters hne] at hrun
        rw [if_neg (by simpa using hne), hrun]
        rfl
    rw [this]
    rfl
  obtain ⟨_, _, _, _, hexe⟩ := hinp input rfl
  refine ⟨verbosityFor init config', pred, cases', log, success, color, msgs, input, config',
    ⟨hp, hexe, hc, rfl, hnone, filtersOf_eq hpos hpos', by rw [hpred, hm, hm']⟩, ?_, hsel, ?_, ?_, hmain⟩
  · unfold verbosityFor verbosityOfRun
    rw [hval, hval', ← hrep, ← hverb]
    cases config'.reporter <;> rfl
  · rw [hlim] at hruns; exact hruns
  · rw [hlim] at hrun; exact hrun

/-- The same without the steps in between. -/
theorem main_run [Run.MessageLimit] {lim : Limits} {fuel maxArgs : Nat} (reporters : List Text) (init : Nat → Nat → Nat)
    (config : Cli.Config) (argv0 : Text) {argv : List Text} {cases : List Case} (hlen : argv.length ≤ maxArgs)
    (tags : Case → List Text) (hcases : ∀ c ∈ cases, Sound lim fuel c.test (tags c))
    {ts : List Cli.Spec.Token} (hts : Cli.Spec.tokens argv = some ts) (hn : (Cli.Spec.optionNames ts).Nodup)
    (hno : ∀ l ∈ listing, l ∉ Cli.Spec.optionNames ts) :
    ∃ v pred cases' log success,
      v = verbosityOfRun reporters init config ts ∧
      (∀ c ∈ cases, ∃ b, pred c.test.id = .ok b ∧
        (b = true ↔ Verif.Spec.Selected (Cli.Spec.positionalsOf ts) ⟨fullName c.test.id, tags c⟩)) ∧
      (∀ c ∈ cases, ∃ s, run { lim.cfg with verbosity := v } fuel c.test = some (.ok s) ∧
        s.state = verdictOf c.test (tags c) ∧ s.log.filterMap observed =
          (caseStory c.test (hasTag (tags c) "!shouldfail")).filter (Item.visible v)) ∧
      runSelected { lim with cfg := { lim.cfg with verbosity := v } } fuel pred cases =
        some (.ok (cases', log, success)) ∧
      main lim fuel maxArgs reporters init config argv0 argv cases =
        some (.ok (if success then 0 else 1, log.map .event)) := by
  obtain ⟨v, pred, cases', log, success, _, _, _, _, _, h⟩ := main_parts reporters init config argv0 hlen tags hcases hts hn
    hno
  exact ⟨v, pred, cases', log, success, h⟩

/-- **C67**. The whole program, from the command line to the exit status. For a well-formed command line that asks for
a run, and tests that stay within the limits: the program ends; the tests that run are the ones that the positional
arguments select; the exit status is 0 if and only if none of them fails, where failing is decided by what happens in the
body of the test and its tags; and what the reporter is told is the stories of these tests, one after the other, as far as
the verbosity shows them. -/
theorem C67_program [Run.MessageLimit] {lim : Limits} {fuel maxArgs : Nat} (reporters : List Text) (init : Nat → Nat → Nat)
    (config : Cli.Config) (argv0 : Text) {argv : List Text} {cases : List Case} (hlen : argv.length ≤ maxArgs)
    (tags : Case → List Text) (hcases : ∀ c ∈ cases, Sound lim fuel c.test (tags c))
    {ts : List Cli.Spec.Token} (hts : Cli.Spec.tokens argv = some ts) (hn : (Cli.Spec.optionNames ts).Nodup)
    (hno : ∀ l ∈ listing, l ∉ Cli.Spec.optionNames ts) :
    ∃ (code : Nat) (out : List Out) (sel : Case → Bool) (v : Nat),
      main lim fuel maxArgs reporters init config argv0 argv cases = some (.ok (code, out)) ∧
      (∀ c ∈ cases, sel c = true ↔
        Verif.Spec.Selected (Cli.Spec.positionalsOf ts) ⟨fullName c.test.id, tags c⟩) ∧
      (code = 0 ∨ code = 1) ∧
      (code = 0 ↔ ∀ c ∈ cases, sel c = true → verdictOf c.test (tags c) ≠ .failed) ∧
      v = verbosityOfRun reporters init config ts ∧
      out.filterMap told = (cases.filter sel).flatMap fun c =>
        (caseStory c.test (hasTag (tags c) "!shouldfail")).filter (Item.visible v) := by
  obtain ⟨v, pred, cases', log, success, hv, hsel, hruns, hrun, hmain⟩ := main_run reporters init config argv0 hlen tags
    hcases hts hn hno
  obtain ⟨rs, r1, r2, r3, r4, _⟩ := C29_run hrun
  -- the tests that ran, with their results
  have hpairs : ∀ (cs : List Case) (rs : List TS), (∀ c ∈ cs, c ∈ cases) →
      cs.map (fun c => run { lim.cfg with verbosity := v } fuel c.test) = rs.map (fun r => some (.ok r)) →
      ((∀ r ∈ rs, r.state ≠ .failed) ↔ ∀ c ∈ cs, verdictOf c.test (tags c) ≠ .failed) ∧
      (rs.flatMap (·.log)).filterMap observed = cs.flatMap fun c =>
        (caseStory c.test (hasTag (tags c) "!shouldfail")).filter (Item.visible v) := by
    intro cs
    induction cs with
    | nil => intro rs _ h; cases rs <;> simp_all
    | cons c cs ih =>
      intro rs hmem h
      cases rs with
      | nil => simp at h
      | cons r rs =>
        simp only [List.map_cons, List.cons.injEq] at h
        obtain ⟨i1, i2⟩ := ih rs (fun d hd => hmem d (List.mem_cons_of_mem _ hd)) h.2
        obtain ⟨s, a1, a2, a3⟩ := hruns c (hmem c (by simp))
        rw [a1] at h
        obtain rfl : s = r := by simpa using h.1
        refine ⟨?_, ?_⟩
        · rw [List.forall_mem_cons, List.forall_mem_cons, i1, a2]
        · rw [List.flatMap_cons, List.flatMap_cons, List.filterMap_append, i2, a3]
  obtain ⟨p1, p2⟩ := hpairs _ rs (fun c hcm => (List.mem_filter.mp hcm).1) r1
  refine ⟨_, _, fun c => decide (pred c.test.id = .ok true), v, hmain, ?_, ?_, ?_, hv, ?_⟩
  · intro c hcm
    obtain ⟨b, e, v⟩ := hsel c hcm
    rw [← v]
    simp [e]
  · cases success
    · exact .inr rfl
    · exact .inl rfl
  · have : (if success = true then 0 else 1) = 0 ↔ success = true := by cases success <;> simp
    rw [this, r4, p1]
    simp only [List.mem_filter, and_imp]
  · have hev : ∀ l : List Event, (l.map Out.event).filterMap told = l.filterMap observed := by
      intro l
      rw [List.filterMap_map]
      rfl
    rw [hev, ← p2]
    rcases Nat.eq_zero_or_pos v with hv | hv
    · rw [r3 hv]
    · rw [r2 hv]
      simp only [List.filterMap_append]
      show [] ++ _ ++ [] = _
      rw [List.nil_append, List.append_nil]

open Verif.Report.Spec.Console in
/-- **C67**, **C57**. The same with the console reporter: whatever names of sections, locations, texts of assertions and
times the reporter is given with the events (as long as the texts fit and have no line breaks), the tests for which the
printed report names a failure are exactly the selected tests that fail, and the exit status is 0 if and only if there is
no failure in the report. -/
theorem C67_console [Run.MessageLimit] {lim : Reg.Limits} {fuel maxArgs : Nat} (reporters : List Text) (init : Nat → Nat → Nat)
    (config : Cli.Config) (argv0 : Text) {argv : List Text} {cases : List Case} (hlen : argv.length ≤ maxArgs)
    (tags : Case → List Text) (hcases : ∀ c ∈ cases, Sound lim fuel c.test (tags c))
    {ts : List Cli.Spec.Token} (hts : Cli.Spec.tokens argv = some ts) (hn : (Cli.Spec.optionNames ts).Nodup)
    (hno : ∀ l ∈ listing, l ∉ Cli.Spec.optionNames ts) {rl : Report.Limits} (hrl : Report.Spec.Console.LimitsOk rl) :
    ∃ (code : Nat) (log : List Run.Event) (sel : Case → Bool) (v : Nat) (rs : List TS),
      main lim fuel maxArgs reporters init config argv0 argv cases = some (.ok (code, log.map .event)) ∧
      (∀ c ∈ cases, sel c = true ↔
        Verif.Spec.Selected (Cli.Spec.positionalsOf ts) ⟨fullName c.test.id, tags c⟩) ∧
      v = verbosityOfRun reporters init config ts ∧
      (cases.filter sel).map (fun c => run { lim.cfg with verbosity := v } fuel c.test) =
        rs.map (fun r => some (.ok r)) ∧
      ∀ es : List Report.Console.Event, ToldRun (((cases.filter sel).map (·.test.id)).zip (rs.map (·.log))) log es →
        (∀ e ∈ es, EventOk rl e) → es.length < 2 ^ 64 → (∀ e ∈ es, Without rl '\n' e) →
        ∃ st, Report.Console.reportAll rl false es {} = .ok st ∧
          (∀ name, name ∈ failures st.out ↔ ∃ c ∈ cases, c.test.id.name = name ∧
            Verif.Spec.Selected (Cli.Spec.positionalsOf ts) ⟨fullName c.test.id, tags c⟩ ∧
            verdictOf c.test (tags c) = .failed) ∧
          (code = 0 ↔ failures st.out = []) := by
  obtain ⟨v, pred, cases', log, success, hv, hsel, hruns, hrun, hmain⟩ := main_run reporters init config argv0 hlen tags
    hcases hts hn hno
  obtain ⟨rs, r1, r2, r3, r4, _⟩ := C29_run hrun
  have hcon := C57_run hrun hrl
  obtain ⟨selected, hsd⟩ : ∃ selected, selected = cases.filter fun c => decide (pred c.test.id = .ok true) := ⟨_, rfl⟩
  rw [← hsd] at r1 hcon
  have hmem : ∀ c, c ∈ selected ↔ c ∈ cases ∧
      Verif.Spec.Selected (Cli.Spec.positionalsOf ts) ⟨fullName c.test.id, tags c⟩ := by
    intro c
    rw [hsd, List.mem_filter]
    refine and_congr_right fun hc => ?_
    obtain ⟨b, e, h⟩ := hsel c hc
    rw [← h]
    simp [e]
  refine ⟨_, log, fun c => decide (pred c.test.id = .ok true), v, rs, hmain, ?_, hv, by rw [← hsd]; exact r1, ?_⟩
  · intro c hc
    obtain ⟨b, e, h⟩ := hsel c hc
    rw [← h]
    simp [e]
  · intro es he hok hl hw
    rw [← hsd] at he
    obtain ⟨st, s1, s2, s3, _⟩ := hcon rs r1 es he hok hl hw
    refine ⟨st, s1, ?_, ?_⟩
    · intro name
      rw [s2]
      -- test by test
      have key : ∀ (cs : List Case) (rs : List TS), (∀ c ∈ cs, c ∈ cases) →
          cs.map (fun c => run { lim.cfg with verbosity := v } fuel c.test) = rs.map (fun r => some (.ok r)) →
          (name ∈ ((cs.map (·.test.id)).zip (rs.map (·.log))).flatMap (fun p =>
            List.replicate (p.2.filter isRealFailure).length p.1.name) ↔
          ∃ c ∈ cs, c.test.id.name = name ∧ verdictOf c.test (tags c) = .failed) := by
        intro cs
        induction cs with
        | nil => intro rs _ _; simp
        | cons c cs ih =>
          intro rs hin h
          cases rs with
          | nil => simp at h
          | cons r rs =>
            simp only [List.map_cons, List.cons.injEq] at h
            have ih := ih rs (fun d hd => hin d (List.mem_cons_of_mem _ hd)) h.2
            obtain ⟨s, a1, a2, _⟩ := hruns c (hin c (by simp))
            rw [a1] at h
            obtain rfl : s = r := by simpa using h.1
            have hrep := C26_failed_iff_reported a1
            rw [a2] at hrep
            simp only [List.map_cons, List.zip_cons_cons, List.flatMap_cons, List.mem_append, ih, List.mem_replicate,
              List.mem_cons, exists_eq_or_imp]
            refine or_congr ?_ Iff.rfl
            rw [hrep, List.any_eq_true]
            have : (s.log.filter isRealFailure).length ≠ 0 ↔ ∃ x ∈ s.log, isRealFailure x = true := by
              rw [Ne, List.length_eq_zero_iff, List.filter_eq_nil_iff]
              simp
            rw [this]
            exact ⟨fun ⟨a, b⟩ => ⟨b.symm, a⟩, fun ⟨a, b⟩ => ⟨b, a.symm⟩⟩
      rw [key selected rs (fun c hc => ((hmem c).mp hc).1) r1]
      simp only [hmem]
      constructor
      · rintro ⟨c, ⟨h1, h2⟩, h3, h4⟩; exact ⟨c, h1, h3, h2, h4⟩
      · rintro ⟨c, h1, h3, h2, h4⟩; exact ⟨c, ⟨h1, h2⟩, h3, h4⟩
    · rw [← s3]
      cases success <;> simp

/-- The three tests of C18 (one of them hidden, the last one fails), run with `-v quiet ~third`: the hypotheses hold.
(The events given to the console reporter: see the example for `C57_run` in Verif/Props/Console.lean.) -/
example : (∀ c ∈ threeTests, Sound (defaultLimits 1) 5 c.test (threeTags c)) ∧
    ∃ ts, Cli.Spec.tokens (["-v", "quiet", "~third"].map String.toList) = some ts ∧
      (Cli.Spec.optionNames ts).Nodup ∧ (∀ l ∈ listing, l ∉ Cli.Spec.optionNames ts) ∧
      Cli.Spec.positionalsOf ts = ["~third".toList] := by
  constructor
  · simp only [threeTests, List.forall_mem_cons]
    refine ⟨sound_same rfl (by decide) ⟨by decide, ?_, ?_⟩ ?_ (by decide) (by decide) (by decide),
      sound_same rfl (by decide) ⟨by decide, ?_, ?_⟩ ?_ (by decide) (by decide) (by decide),
      sound_same rfl (by decide) ⟨by decide, ?_, ?_⟩ ?_ (by decide) (by decide) (by decide), by simp⟩
    all_goals simp [threeTags, mkTest, Verif.Spec.TagOk, Verif.Spec.Hides, Tidy, defaultLimits, defaults]
  · exact ⟨_, rfl, by decide, by decide, rfl⟩

open Defaults in
/-- A check that fails, then a skip: failed, or allowed with the tags for it. -/
example : verdictOf (plain failThenSkip) [] = .failed ∧
    verdictOf (plain failThenSkip) [".!mayfail".toList] = .allowedFail ∧
    verdictOf (plain failThenSkip) ["!shouldfail".toList] = .allowedFail ∧
    verdictOf (plain skipEarly) ["!shouldfail".toList] = .skipped ∧
    verdictOf (plain .done) ["!shouldfail".toList] = .failed := by decide

end Verif.Props
