import Verif.Spec.Colors
import Verif.Props.Console
/-!
# C79: red means failure
-/
namespace Verif.Props
open Verif.Report Verif.Report.Console Verif.Report.Spec.Console Verif.Report.Spec.Colors
open Verif.Reg.Spec Verif.Run.Spec

private theorem parts_plain (s r : Text) (h : '\x1b' ∉ s) : parts (s ++ r) = parts r := by
  induction s with
  | nil => rfl
  | cons c s ih =>
    simp only [List.mem_cons, not_or] at h
    show (if c = '\x1b' then _ else partsFrom .plain (s ++ r)) = _
    rw [if_neg (Ne.symm h.1)]
    exact ih h.2

private theorem parts_text (k s t r : Text) (h : '\x1b' ∉ s) :
    partsFrom (.colored k t) (s ++ Print.reset ++ r) = (k, t ++ s) :: parts r := by
  induction s generalizing t with
  | nil => simp [Print.reset, partsFrom, parts]
  | cons c s ih =>
    simp only [List.mem_cons, not_or] at h
    show (if c = '\x1b' then _ else partsFrom (.colored k (t ++ [c])) (s ++ Print.reset ++ r)) = _
    rw [if_neg (Ne.symm h.1), ih _ h.2]
    simp

private theorem parts_code {code : Text} (h : code ∈ starts) (r : Text) : parts (code ++ r) = partsFrom (.colored code []) r := by
  simp only [starts, List.mem_cons, List.not_mem_nil, or_false] at h
  rcases h with rfl | rfl | rfl | rfl | rfl <;> rfl

/-- The coloured pieces. -/
private def paintedOf : Console.Piece → Option (Text × Text)
  | .plain _ => none
  | .painted code s => some (code, s)

private theorem parts_pieces (ps : List Console.Piece) (h : ∀ p ∈ ps, Console.Clean p) :
    parts (ps.flatMap (Console.render true)) = ps.filterMap paintedOf := by
  induction ps with
  | nil => rfl
  | cons p ps ih =>
    have hp := h p (by simp)
    have ih := ih fun q hq => h q (by simp [hq])
    rw [List.flatMap_cons]
    cases p with
    | plain s => rw [Console.render, parts_plain s _ hp, ih]; rfl
    | painted code s =>
      rw [Console.render, if_pos rfl, List.append_assoc, List.append_assoc, parts_code hp.1, ← List.append_assoc,
        parts_text _ _ _ _ hp.2, ih]
      rfl

private def isSignal (p : Text × Text) : Bool := decide (p.1 ∈ [red, green, yellow])

private theorem no_signal {ps : List Console.Piece}
    (h : ∀ p ∈ ps, ∀ q, paintedOf p = some q → isSignal q = false) : (ps.filterMap paintedOf).filter isSignal = [] := by
  rw [List.filter_eq_nil_iff]
  intro q hq
  obtain ⟨p, hp, e⟩ := List.mem_filterMap.1 hq
  simp [h p hp q e]

private theorem place_no_signal (id : Id) (place : Place) :
    ((Console.placePieces id place).filterMap paintedOf).filter isSignal = [] := by
  have h1 : ∀ t, isSignal (highlight1, t) = false := fun t => rfl
  apply no_signal
  intro p hp q hq
  unfold Console.placePieces at hp
  simp only [List.mem_append, List.mem_flatMap] at hp
  have key : ∀ (a b : Text) (t : Text), p ∈ [Console.Piece.plain a, .painted highlight1 t, .plain b] → isSignal q = false := by
    intro a b t hm
    simp only [List.mem_cons, List.not_mem_nil, or_false] at hm
    rcases hm with rfl | rfl | rfl
    · cases hq
    · cases hq; exact h1 t
    · cases hq
  rcases hp with (((hp | ⟨s, _, hp⟩) | hp) | hp) | ⟨c, _, hp⟩
  · exact key _ _ _ hp
  · exact key _ _ _ hp
  · simp only [Console.lit, List.mem_cons, List.not_mem_nil, or_false] at hp
    rcases hp with rfl | rfl | rfl | rfl | rfl | rfl | rfl <;> cases hq
  · unfold Console.typePieces at hp
    split at hp
    · simp at hp
    · exact key _ _ _ hp
  · exact key _ _ _ hp

private theorem data_no_signal (data : Data) : ((Console.dataPieces data).filterMap paintedOf).filter isSignal = [] := by
  have h2 : ∀ t, isSignal (highlight2, t) = false := fun t => rfl
  cases data with
  | message m => simp [Console.dataPieces, Console.lit, paintedOf, h2]
  | expression type expected actual =>
    simp only [Console.dataPieces, Console.actualPieces]
    split
    · simp [Console.lit, paintedOf, h2]
    · split <;> simp only [Console.lit, List.cons_append, List.nil_append, List.filterMap_cons, List.filterMap_nil,
        paintedOf, List.filter_cons, h2] <;> rfl

private theorem signal_pieces (lim : Report.Limits) (n : Nat) (e : Console.Event) :
    ((Console.pieces lim n e).filterMap paintedOf).filter isSignal = signal e := by
  have h1 : ∀ t, isSignal (highlight1, t) = false := fun t => rfl
  have h2 : ∀ t, isSignal (highlight2, t) = false := fun t => rfl
  have h3 : ∀ t, isSignal (statusColor, t) = false := fun t => rfl
  have h4 : ∀ t, isSignal (failColor, t) = true := fun t => rfl
  have h5 : ∀ t, isSignal (passColor, t) = true := fun t => rfl
  have h6 : ∀ t, isSignal (skippedColor, t) = true := fun t => rfl
  cases e with
  | assertionFailed id place data expected allowed =>
    rw [Console.pieces, List.filterMap_append, List.filterMap_append, List.filter_append, List.filter_append,
      place_no_signal, data_no_signal]
    cases expected <;> cases allowed <;> rfl
  | assertionSucceeded id place data =>
    rw [Console.pieces, List.filterMap_append, List.filterMap_append, List.filter_append, List.filter_append,
      place_no_signal, data_no_signal]
    rfl
  | caseSkipped id place message =>
    rw [Console.pieces, List.filterMap_append, List.filterMap_append, List.filter_append, List.filter_append,
      place_no_signal]
    rfl
  | runEnded success run fail skip asserts duration =>
    have hs : (Console.skipPieces skip).filterMap paintedOf = [] := by
      unfold Console.skipPieces; split <;> rfl
    have hd : (Console.secondPieces lim duration).filterMap paintedOf = [] := by
      unfold Console.secondPieces; split <;> rfl
    rw [Console.pieces, List.filterMap_append, List.filterMap_append, List.filterMap_append, List.filterMap_append, hs, hd]
    cases success <;> rfl
  | caseEnded id duration =>
    have hd : (Console.finishedPieces lim duration).filterMap paintedOf = [] := by
      unfold Console.finishedPieces; split <;> rfl
    rw [Console.pieces, List.filterMap_append, hd]; rfl
  | listed id =>
    rw [Console.pieces, List.filterMap_append, List.filter_append]
    split <;> rfl
  | _ => rfl

private theorem signals_all (lim : Report.Limits) (es : List Console.Event) : ∀ n,
    ((Console.allPieces lim n es).filterMap paintedOf).filter isSignal = es.flatMap signal := by
  induction es with
  | nil => intro n; rfl
  | cons e es ih =>
    intro n
    rw [Console.allPieces, List.filterMap_append, List.filter_append, signal_pieces, ih]
    rfl

/-- **C79**. In the coloured report about any events, what is red, green or yellow is, in order: `failed: ` in red for every
failure that was neither expected nor allowed, and `error:` in red if the run ended without success; `passed: `, `expected
failure: `, `allowed failure: ` and `success:` in green; `skipped: ` in yellow. Nothing else has one of these colours. -/
theorem C79_signals {lim : Report.Limits} (hlim : LimitsOk lim) (es : List Console.Event)
    (h : ∀ e ∈ es, EventOk lim e) (hn : es.length < 2 ^ 64) (hesc : ∀ e ∈ es, Without lim '\x1b' e) :
    ∃ st, reportAll lim true es {} = .ok st ∧ signals st.out = es.flatMap signal := by
  have hl : (Console.State.mk 0 []).counter + es.length < 2 ^ 64 := by show 0 + es.length < 2 ^ 64; omega
  obtain ⟨m, e⟩ := Console.reportAll_eq (color := true) hlim es h {} hl
  refine ⟨_, e, ?_⟩
  show (parts ([] ++ _)).filter isSignal = _
  rw [List.nil_append, parts_pieces _ (Console.allPieces_clean es hesc 0), signals_all]

/-- What holds for the events told about each event holds for those told about a run. -/
private theorem told_cases {P : Console.Event → Prop} {Q : Run.Event → Prop}
    (h : ∀ id e es, Told id e es → ((∃ x ∈ es, P x) ↔ Q e)) {parts : List (Filter.TestId × List Run.Event)}
    {es : List Console.Event} (ht : ToldCases parts es) : (∃ x ∈ es, P x) ↔ ∃ e ∈ parts.flatMap (·.2), Q e := by
  have log : ∀ {id log es}, ToldLog id log es → ((∃ x ∈ es, P x) ↔ ∃ e ∈ log, Q e) := by
    intro id log es hl
    induction hl with
    | nil => simp
    | cons he _ ih =>
      have := h _ _ _ he
      simp only [List.mem_append, List.mem_cons, or_and_right, exists_or, exists_eq_left]
      exact or_congr this ih
  induction ht with
  | nil => simp
  | cons hl _ ih =>
    rw [List.flatMap_cons]
    simp only [List.mem_append, or_and_right, exists_or]
    exact or_congr (log hl) ih

private theorem told_red (id : Id) (e : Run.Event) (es : List Console.Event) (h : Told id e es) :
    (∃ x ∈ es, ∃ t, (red, t) ∈ signal x) ↔ isRealFailure e = true := by
  have n1 : red ≠ green := by decide
  have n2 : red ≠ yellow := by decide
  cases h with
  | assertionFailed t ex al data hp => cases ex <;> cases al <;> simp [signal, isRealFailure, n1]
  | _ => simp [signal, isRealFailure, n1, n2]

private theorem told_yellow (id : Id) (e : Run.Event) (es : List Console.Event) (h : Told id e es) :
    (∃ x ∈ es, ∃ t, (yellow, t) ∈ signal x) ↔ isSkip e = true := by
  have n1 : yellow ≠ green := by decide
  have n2 : yellow ≠ red := by decide
  cases h with
  | assertionFailed t ex al data hp => cases ex <;> cases al <;> simp [signal, isSkip, n1, n2]
  | _ => simp [signal, isSkip, n1]

private theorem mem_signals {s code t : Text} (h : code ∈ [red, green, yellow]) :
    (code, t) ∈ signals s ↔ (code, t) ∈ parts s := by
  unfold signals
  rw [List.mem_filter]
  exact ⟨fun k => k.1, fun k => ⟨k, by simpa using h⟩⟩

/-- **C79**, for runs: the report has something red if and only if the run fails; and something yellow if and only if a test
was skipped. -/
theorem C79_run [Run.MessageLimit] {rl : Reg.Limits} {fuel : Nat} {pred : Filter.TestId → Outcome Bool}
    {cases cases' : List Reg.Case} {log : List Run.Event} {success : Bool}
    (h : Reg.runSelected rl fuel pred cases = some (.ok (cases', log, success)))
    {lim : Report.Limits} (hlim : LimitsOk lim) :
    let selected := cases.filter fun c => decide (pred c.test.id = .ok true)
    ∀ rs : List Run.TS, selected.map (fun c => Run.run rl.cfg fuel c.test) = rs.map (fun r => some (.ok r)) →
      ∀ es : List Console.Event, ToldRun ((selected.map (·.test.id)).zip (rs.map (·.log))) log es →
      (∀ e ∈ es, EventOk lim e) → es.length < 2 ^ 64 → (∀ e ∈ es, Without lim '\x1b' e) →
      ∃ st, reportAll lim true es {} = .ok st ∧
        (success = false ↔ ∃ t, (red, t) ∈ parts st.out) ∧
        ((∃ e ∈ log, isSkip e = true) ↔ ∃ t, (yellow, t) ∈ parts st.out) := by
  intro selected rs hrs es ht hok hn hl
  obtain ⟨rs', h1, h2, h3, -⟩ := C29_run h
  obtain rfl : rs = rs' := by
    have := hrs.symm.trans h1
    exact (List.map_inj_right fun a b e => by simpa using e).mp this
  obtain ⟨st, e, hsig⟩ := C79_signals hlim es hok hn hl
  refine ⟨st, e, ?_⟩
  have hlen : (selected.map (·.test.id)).length = (rs.map (·.log)).length := by
    have := congrArg List.length h1
    simpa using this
  have hflat : ((selected.map (·.test.id)).zip (rs.map (·.log))).flatMap (·.2) = rs.flatMap (·.log) := by
    rw [flatMap_zip _ _ hlen, List.flatMap_def]
  have hs : success = false ↔ ∃ e ∈ log, isRealFailure e = true := by
    have := C29_success_iff_no_failure h
    cases success <;> simp_all
  have hmem : ∀ code ∈ [red, green, yellow], (∃ t, (code, t) ∈ parts st.out) ↔
      ∃ x ∈ es, ∃ t, (code, t) ∈ signal x := by
    intro code hc
    simp only [← mem_signals hc, hsig, List.mem_flatMap]
    exact ⟨fun ⟨t, x, hx, ht⟩ => ⟨x, hx, t, ht⟩, fun ⟨x, hx, t, ht⟩ => ⟨t, x, hx, ht⟩⟩
  rw [hmem red (by simp), hmem yellow (by simp), hs]
  cases ht with
  | quiet hc => exact ⟨(told_cases told_red hc).symm, (told_cases told_yellow hc).symm⟩
  | @framed es name run fail af skip a f al s d hc =>
    have hsucc : s = success := by
      rcases Nat.eq_zero_or_pos rl.cfg.verbosity with hv | hv
      · have := congrArg List.length (h3 hv)
        rw [hflat] at this
        simp only [List.length_append, List.length_cons, List.length_nil] at this
        omega
      · have := List.append_inj_right' (h2 hv) rfl
        simp only [List.cons.injEq, Run.Event.runEnded.injEq, and_true] at this
        exact this.2.2.2.2.2.2.2
    subst hsucc
    have n1 : red ≠ green := by decide
    have n2 : yellow ≠ green := by decide
    have n3 : yellow ≠ red := by decide
    have hr := told_cases told_red hc
    have hy := told_cases told_yellow hc
    constructor
    · rw [← hs]
      constructor
      · rintro rfl
        exact ⟨.runEnded false run fail skip a d, by simp, _, List.mem_singleton.2 rfl⟩
      · rintro ⟨x, hx, t, hm⟩
        simp only [List.mem_append, List.mem_singleton] at hx
        rcases hx with (rfl | hx) | rfl
        · cases hm
        · obtain ⟨e, he, hq⟩ := hr.1 ⟨x, hx, t, hm⟩
          exact hs.2 ⟨e, by simp only [List.mem_append]; exact .inl (.inr he), hq⟩
        · cases s with
          | false => rfl
          | true =>
            obtain ⟨e1, -⟩ := Prod.mk.inj (List.mem_singleton.1 hm)
            exact absurd e1 n1
    · constructor
      · rintro ⟨e, he, hq⟩
        simp only [List.mem_append, List.mem_singleton] at he
        rcases he with (rfl | he) | rfl
        · cases hq
        · obtain ⟨x, hx, hm⟩ := hy.2 ⟨e, he, hq⟩
          exact ⟨x, by simp only [List.mem_append]; exact .inl (.inr hx), hm⟩
        · cases hq
      · rintro ⟨x, hx, t, hm⟩
        simp only [List.mem_append, List.mem_singleton] at hx
        rcases hx with (rfl | hx) | rfl
        · cases hm
        · obtain ⟨e, he, hq⟩ := hy.1 ⟨x, hx, t, hm⟩
          exact ⟨e, by simp only [List.mem_append]; exact .inl (.inr he), hq⟩
        · cases s
          · exact absurd (Prod.mk.inj (List.mem_singleton.1 hm)).1 n3
          · exact absurd (Prod.mk.inj (List.mem_singleton.1 hm)).1 n2

/-- The run of `C57_run`'s example, in which a test fails: the report says so in red, once where the check failed and once at
the end, and says nothing in yellow or green. -/
example : ∃ st, reportAll teamcityLimits true consoleTold {} = .ok st ∧
    signals st.out = [(red, "failed: ".toList), (red, "error:".toList)] := by
  obtain ⟨st, h1, h2⟩ := C79_signals (lim := teamcityLimits) (by unfold LimitsOk teamcityLimits; decide) consoleTold
    consoleTold_ok (by decide) (consoleTold_without (.inr rfl))
  exact ⟨st, h1, by rw [h2]; rfl⟩

open Defaults in
/-- The hypotheses of `C79_run` are met by this run. -/
example : ∃ st, reportAll teamcityLimits true consoleTold {} = .ok st ∧
    (∃ t, (red, t) ∈ parts st.out) ∧ ¬∃ t, (yellow, t) ∈ parts st.out := by
  obtain ⟨r1, e1, l1⟩ : ∃ r, Run.run (defaultLimits 2).cfg 5 (mkTest "first" "" .done) = some (.ok r) ∧
    r.log = [.caseStarted ⟨"first".toList, [], []⟩, .caseEnded ⟨"first".toList, [], []⟩ 1 0 0 .success] :=
    ⟨_, rfl, rfl⟩
  obtain ⟨r2, e2, l2⟩ : ∃ r, Run.run (defaultLimits 2).cfg 5 consoleThird = some (.ok r) ∧
    r.log = [.caseStarted ⟨"it's third".toList, "[x]".toList, []⟩, .sectionStarted 1,
      .assertionFailed ⟨[1], [], 2, .exact⟩ "x".toList false false, .sectionEnded 1 false 1 1 0,
      .caseEnded ⟨"it's third".toList, "[x]".toList, []⟩ 2 1 0 .failed] := ⟨_, rfl, rfl⟩
  have hsel : teamcityCases.filter (fun c => decide (Filter.selectDefault 256 c.test.id = .ok true)) =
      [{ test := mkTest "first" "" .done }, { test := consoleThird }] := rfl
  obtain ⟨st, h1, h2, h3⟩ := C79_run teamcityRun (lim := teamcityLimits) (by unfold LimitsOk teamcityLimits; decide)
    [r1, r2] (by rw [hsel]; simp only [List.map_cons, List.map_nil, e1, e2]) consoleTold
    (by
      rw [hsel]
      simp only [List.map_cons, List.map_nil, l1, l2]
      exact ToldRun.framed _ 2 1 0 0 3 1 0 false _
        (.cons (id := ⟨"first".toList, [], [], []⟩) (.cons (.caseStarted _) (.cons (.caseEnded ..) .nil))
        (.cons (id := ⟨"it's third".toList, "[x]".toList, [], []⟩) (.cons (.caseStarted _) (.cons (.sectionStarted ..)
          (.cons (.assertionFailed _ _ _ _ ⟨rfl, rfl, rfl⟩) (.cons (.sectionEnded ..)
          (.cons (.caseEnded ..) .nil))))) .nil)))
    consoleTold_ok (by decide) (consoleTold_without (.inr rfl))
  exact ⟨st, h1, h2.1 rfl, fun k => absurd (h3.2 k) (by decide)⟩

/-- Failures that were expected or allowed are green, skips yellow. -/
example : ∃ st, reportAll teamcityLimits true
      [.assertionFailed ⟨"t".toList, [], [], []⟩ ⟨[], [], ⟨"f".toList, 1⟩, .exact⟩ (.message "no".toList) true false,
       .assertionFailed ⟨"t".toList, [], [], []⟩ ⟨[], [], ⟨"f".toList, 2⟩, .exact⟩ (.message "no".toList) false true,
       .caseSkipped ⟨"u".toList, [], [], []⟩ ⟨[], [], ⟨"f".toList, 3⟩, .exact⟩ "why".toList,
       .runEnded true 2 0 1 4 "0.5".toList] {} = .ok st ∧
    signals st.out = [(green, "expected failure: ".toList), (green, "allowed failure: ".toList),
      (yellow, "skipped: ".toList), (green, "success:".toList)] := by
  obtain ⟨st, h1, h2⟩ := C79_signals (lim := teamcityLimits) (by unfold LimitsOk teamcityLimits; decide)
      [.assertionFailed ⟨"t".toList, [], [], []⟩ ⟨[], [], ⟨"f".toList, 1⟩, .exact⟩ (.message "no".toList) true false,
       .assertionFailed ⟨"t".toList, [], [], []⟩ ⟨[], [], ⟨"f".toList, 2⟩, .exact⟩ (.message "no".toList) false true,
       .caseSkipped ⟨"u".toList, [], [], []⟩ ⟨[], [], ⟨"f".toList, 3⟩, .exact⟩ "why".toList,
       .runEnded true 2 0 1 4 "0.5".toList]
    (by simp only [List.forall_mem_cons]
        refine ⟨?_, ?_, ?_, ?_, by simp⟩
        all_goals exact ⟨by decide, by decide, by decide, by decide⟩) (by decide)
    (by simp only [List.forall_mem_cons]
        refine ⟨?_, ?_, ?_, ?_, by simp⟩
        all_goals exact ⟨by decide, by decide, by decide⟩)
  exact ⟨st, h1, by rw [h2]; rfl⟩

end Verif.Props
