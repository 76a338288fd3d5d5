import Verif.Lemmas.ConsoleRead
import Verif.Props.TeamCity
/-!
# C57, C58: the console report

What the report should say, and how to read it, is in Verif/Spec/Console.lean.
-/
namespace Verif.Props
open Verif Verif.Report
open Verif.Report.Spec (decimal)
open Verif.Report.Spec.Console
open Verif.Report.Console (reportAll)
open Verif.Reg.Spec (count total)

/-! ## C57 -/

/-- **C57**. Without colours, the report consists of the lines that belong to the events, whatever the events and
their texts (if what is coloured with colours on fits in the buffer for printing). -/
theorem C57_text {lim : Report.Limits} (hlim : LimitsOk lim) (es : List Console.Event)
    (h : ∀ e ∈ es, EventOk lim e) (hn : es.length < 2 ^ 64) :
    ∃ st, reportAll lim false es {} = .ok st ∧ st.out = unlines (toldAll lim 0 es) := by
  obtain ⟨n, e⟩ := Console.reportAll_eq (color := false) hlim es h {} (by show 0 + es.length < 2 ^ 64; omega)
  refine ⟨_, e, ?_⟩
  rw [Console.allPieces_plain]; rfl

/-- **C57**. If no text has a line break, the failures can be read from the report: the test cases of all failures
that were neither expected nor allowed, in order, and nothing else. -/
theorem C57_failures {lim : Report.Limits} (hlim : LimitsOk lim) (es : List Console.Event)
    (h : ∀ e ∈ es, EventOk lim e) (hn : es.length < 2 ^ 64) (hl : ∀ e ∈ es, Without lim '\n' e) :
    ∃ st, reportAll lim false es {} = .ok st ∧ lines st.out = toldAll lim 0 es ∧
      failures st.out = es.filterMap failedName := by
  obtain ⟨st, e, ho⟩ := C57_text hlim es h hn
  obtain ⟨k1, k2⟩ := Console.toldAll_reads es hl 0
  have hlines : lines st.out = toldAll lim 0 es := by rw [ho, Console.lines_unlines _ k1]
  exact ⟨st, e, hlines, by rw [failures, hlines, k2]⟩

theorem toldAll_listed (lim : Report.Limits) (ids : List Id) : ∀ n,
    toldAll lim n (ids.map .listed ++ [.listEnded]) =
      ids.flatMap (fun id => ("  ".toList ++ Spec.fullName id) ::
        if id.tags = [] then [] else ["      ".toList ++ id.tags]) ++
      [decimal (n + ids.length) ++ " matching test cases".toList] := by
  induction ids with
  | nil => intro n; simp [toldAll, told]
  | cons id ids ih =>
    intro n
    rw [List.map_cons, List.cons_append, toldAll]
    show told lim n (.listed id) ++ toldAll lim (n + 1) _ = _
    rw [ih, List.flatMap_cons, List.append_assoc, List.length_cons, Nat.add_assoc, Nat.add_comm 1]
    rfl

/-- **C57**. Listing tests: every test on a line of its own, its tags (if it has some) on the next line, and at the
end the number of tests listed. -/
theorem C57_list {lim : Report.Limits} (hlim : LimitsOk lim) (ids : List Id)
    (h : ∀ id ∈ ids, (Spec.fullName id).length ≤ lim.name) (hn : ids.length + 2 < 2 ^ 64) :
    ∃ st, reportAll lim false ([.listStarted] ++ (ids.map .listed ++ [.listEnded])) {} = .ok st ∧
      st.out = unlines (["Matching test cases:".toList] ++
        (ids.flatMap (fun id => ("  ".toList ++ Spec.fullName id) ::
          if id.tags = [] then [] else ["      ".toList ++ id.tags]) ++
        [decimal ids.length ++ " matching test cases".toList])) := by
  obtain ⟨st, e, ho⟩ := C57_text hlim ([.listStarted] ++ (ids.map .listed ++ [.listEnded])) (by
    simp only [List.forall_mem_append, List.forall_mem_singleton]
    refine ⟨⟨by simp [coloredTexts], by simp [numbers], by simp [fullNames], by simp [durations]⟩, ?_,
      ⟨by simp [coloredTexts], by simp [numbers], by simp [fullNames], by simp [durations]⟩⟩
    intro e he
    obtain ⟨id, hid, rfl⟩ := List.mem_map.mp he
    exact ⟨by simp [coloredTexts], by simp [numbers], by simpa [fullNames] using h id hid, by simp [durations]⟩)
    (by simpa using hn)
  refine ⟨st, e, ?_⟩
  rw [ho, List.singleton_append, toldAll]
  show unlines (_ ++ toldAll lim 0 _) = _
  rw [toldAll_listed, Nat.zero_add]
  rfl

example : ∃ st, reportAll { teamcityLimits with message := 40, name := 40 } false [.listStarted,
      .listed ⟨"t".toList, "[a][b]".toList, "int".toList, []⟩, .listed ⟨"u".toList, [], [], []⟩, .listEnded] {} =
      .ok st ∧
    st.out = "Matching test cases:\n  t <int>\n      [a][b]\n  u\n2 matching test cases\n".toList := by
  obtain ⟨st, h1, h2⟩ := C57_list (lim := { teamcityLimits with message := 40, name := 40 })
    (by unfold LimitsOk teamcityLimits; decide)
    [⟨"t".toList, "[a][b]".toList, "int".toList, []⟩, ⟨"u".toList, [], [], []⟩] (by decide) (by decide)
  exact ⟨st, h1, by rw [h2]; decide +kernel⟩

theorem console_log {id : Id} {log : List Run.Event} {es : List Console.Event} (h : ToldLog id log es) :
    es.filterMap failedName = List.replicate (log.filter isRealFailure).length id.name := by
  induction h with
  | nil => rfl
  | cons he _ ih =>
    rw [List.filterMap_append, ih]
    cases he with
    | assertionFailed t ex al data hp =>
      cases ex <;> cases al <;> simp [failedName, isRealFailure, List.replicate_succ]
    | _ => simp [failedName, isRealFailure]

theorem console_cases {parts : List (Filter.TestId × List Run.Event)} {es : List Console.Event}
    (h : ToldCases parts es) : es.filterMap failedName =
      parts.flatMap fun p => List.replicate (p.2.filter isRealFailure).length p.1.name := by
  induction h with
  | nil => rfl
  | cons hl _ ih => rw [List.filterMap_append, ih, console_log hl]; rfl

theorem flatMap_zip {α β : Type} (l : List α) : ∀ (r : List (List β)), l.length = r.length →
    (l.zip r).flatMap (·.2) = r.flatten := by
  induction l with
  | nil => intro r h; cases r <;> simp at h; rfl
  | cons a l ih =>
    intro r h
    cases r with
    | nil => simp at h
    | cons b r => simp [ih r (by simpa using h)]

/-- The last line of the lines of events that end with the end of a run. -/
theorem toldAll_last {lim : Report.Limits} (es : List Console.Event) (success : Bool) (run fail skip a : Nat)
    (d : Text) : ∀ n, (toldAll lim n (es ++ [.runEnded success run fail skip a d])).getLast? =
      some (summary lim success run fail skip a d) := by
  induction es with
  | nil => intro n; simp [toldAll, told]
  | cons e es ih =>
    intro n
    rw [List.cons_append, toldAll, List.getLast?_append, ih]
    rfl

/-- **C57**. The console report of a run, at every verbosity: the failures read from the report are, for the selected
tests in registration order, as many failures of that test as its run had failures that were neither expected nor
allowed; there are none if and only if the run is a success; and from verbosity *normal* on, the last line gives the
outcome of the run and the totals. -/
theorem C57_run [Run.MessageLimit] {rl : Reg.Limits} {fuel : Nat} {pred : Filter.TestId → Outcome Bool} {cases cases' : List Reg.Case}
    {log : List Run.Event} {success : Bool}
    (h : Reg.runSelected rl fuel pred cases = some (.ok (cases', log, success)))
    {lim : Report.Limits} (hlim : LimitsOk lim) :
    let selected := cases.filter fun c => decide (pred c.test.id = .ok true)
    ∀ rs : List Run.TS, selected.map (fun c => Run.run rl.cfg fuel c.test) = rs.map (fun r => some (.ok r)) →
      ∀ es : List Console.Event, ToldRun ((selected.map (·.test.id)).zip (rs.map (·.log))) log es →
      (∀ e ∈ es, EventOk lim e) → es.length < 2 ^ 64 → (∀ e ∈ es, Without lim '\n' e) →
      ∃ st, reportAll lim false es {} = .ok st ∧
        failures st.out = ((selected.map (·.test.id)).zip (rs.map (·.log))).flatMap (fun p =>
          List.replicate (p.2.filter isRealFailure).length p.1.name) ∧
        (success = true ↔ failures st.out = []) ∧
        (rl.cfg.verbosity ≥ 1 → ∃ duration, (lines st.out).getLast? = some (summary lim success rs.length
          (count .failed rs) (count .skipped rs) (total (·.asserts) rs) duration)) := by
  intro selected rs hrs es ht hok hn hl
  obtain ⟨rs', h1, h2, -⟩ := C29_run h
  obtain rfl : rs = rs' := by
    have := hrs.symm.trans h1
    exact (List.map_inj_right fun a b e => by simpa using e).mp this
  obtain ⟨st, e, hlines, hfail⟩ := C57_failures hlim es hok hn hl
  refine ⟨st, e, ?_⟩
  have hlen : (selected.map (·.test.id)).length = (rs.map (·.log)).length := by
    have := congrArg List.length h1
    simpa using this
  have hflat : ((selected.map (·.test.id)).zip (rs.map (·.log))).flatMap (·.2) = rs.flatMap (·.log) := by
    rw [flatMap_zip _ _ hlen, List.flatMap_def]
  generalize hparts : (selected.map (·.test.id)).zip (rs.map (·.log)) = parts at *
  have hf : failures st.out = parts.flatMap fun p =>
      List.replicate (p.2.filter isRealFailure).length p.1.name := by
    rw [hfail]
    cases ht with
    | quiet hc => exact console_cases hc
    | framed name run fail af skip a f al s d hc =>
      rw [List.filterMap_append, List.filterMap_append, console_cases hc]
      show [] ++ _ ++ [] = _
      simp
  refine ⟨hf, ?_, ?_⟩
  · have hs := C29_success_iff_no_failure h
    have hlog : (∀ e ∈ log, isRealFailure e = false) ↔ ∀ p ∈ parts, ∀ e ∈ p.2, isRealFailure e = false := by
      have key : (∀ e ∈ parts.flatMap (·.2), isRealFailure e = false) ↔
          ∀ p ∈ parts, ∀ e ∈ p.2, isRealFailure e = false := by
        constructor
        · intro k p hp e he; exact k e (List.mem_flatMap.mpr ⟨p, hp, he⟩)
        · intro k e he
          obtain ⟨p, hp, he⟩ := List.mem_flatMap.mp he
          exact k p hp e he
      rw [← key]
      cases ht with
      | quiet hc => exact Iff.rfl
      | framed name run fail af skip a f al s d hc =>
        simp only [List.forall_mem_append, List.forall_mem_singleton]
        exact ⟨fun k => k.1.2, fun k => ⟨⟨rfl, k⟩, rfl⟩⟩
    rw [hs, hlog, hf, List.flatMap_eq_nil_iff]
    constructor
    · intro k p hp
      have : p.2.filter isRealFailure = [] := by
        rw [List.filter_eq_nil_iff]; intro e he; simp [k p hp e he]
      rw [this]; rfl
    · intro k p hp e he
      have := k p hp
      rw [List.replicate_eq_nil_iff, List.length_eq_zero_iff, List.filter_eq_nil_iff] at this
      simpa using this e he
  · intro hv
    have hlog := h2 hv
    cases ht with
    | quiet hc =>
      exfalso
      rw [hflat] at hlog
      have := congrArg List.length hlog
      simp only [List.length_append, List.length_cons, List.length_nil] at this
      omega
    | framed name run fail af skip a f al s d hc =>
      rw [hflat] at hlog
      have h5 := List.append_inj_right' hlog rfl
      simp only [List.cons.injEq, Run.Event.runEnded.injEq, and_true] at h5
      obtain ⟨e1, e2, -, e4, e5, -, -, e8⟩ := h5
      refine ⟨d, ?_⟩
      rw [hlines, toldAll_last, e1, e2, e4, e5, e8]

/-- What the reporter is told about the run of `teamcityRun` (Verif/Props/TeamCity.lean). -/
def consoleTold : List Console.Event :=
  [.runStarted "prog".toList] ++
    ([.caseStarted ⟨"first".toList, [], [], []⟩ ⟨"f.cpp".toList, 1⟩,
      .caseEnded ⟨"first".toList, [], [], []⟩ "0.5".toList] ++
    ([.caseStarted ⟨"it's third".toList, "[x]".toList, [], []⟩ ⟨"f.cpp".toList, 1⟩,
      .sectionStarted ⟨"s".toList, []⟩ ⟨"f.cpp".toList, 2⟩,
      .assertionFailed ⟨"it's third".toList, "[x]".toList, [], []⟩
        ⟨[⟨"s".toList, []⟩], [], ⟨"f.cpp".toList, 3⟩, .exact⟩
        (.expression "CHECK".toList "a[0] == 1".toList "0 != 1".toList) false false,
      .sectionEnded ⟨"s".toList, []⟩,
      .caseEnded ⟨"it's third".toList, "[x]".toList, [], []⟩ "0.25".toList] ++ [])) ++
    [.runEnded false 2 1 0 3 "0.75".toList]

theorem consoleTold_ok : ∀ e ∈ consoleTold, EventOk teamcityLimits e := by
  simp only [consoleTold, List.cons_append, List.nil_append, List.forall_mem_cons]
  refine ⟨?_, ?_, ?_, ?_, ?_, ?_, ?_, ?_, ?_, by simp⟩
  all_goals exact ⟨by decide, by decide, by decide, by decide⟩

theorem consoleTold_without {c : Char} (h : c = '\n' ∨ c = '\x1b') :
    ∀ e ∈ consoleTold, Without teamcityLimits c e := by
  simp only [consoleTold, List.cons_append, List.nil_append, List.forall_mem_cons]
  rcases h with rfl | rfl
  all_goals
    refine ⟨?_, ?_, ?_, ?_, ?_, ?_, ?_, ?_, ?_, by simp⟩
    all_goals exact ⟨by decide, by decide, by decide⟩

/-- The test that fails. -/
def consoleThird : Run.TestCase :=
  mkTest "it's third" "[x]" (.sec 1 2 (.stmt (.check 2 (.val false) false "x".toList) .done) .done)

open Defaults in
/-- The hypotheses of `C57_run` are met by this run, in which the third test fails once. -/
example : ∃ st, reportAll teamcityLimits false consoleTold {} = .ok st ∧
    failures st.out = ["it's third".toList] ∧ ∃ duration, (lines st.out).getLast? = some ("error: ".toList ++
      "some".toList ++ " tests failed (1 out of 2 test cases, 3 assertions, ".toList ++ duration ++
      " seconds)".toList) := by
  obtain ⟨r1, e1, s1, a1, l1⟩ : ∃ r, Run.run (defaultLimits 2).cfg 5 (mkTest "first" "" .done) = some (.ok r) ∧
    r.state = .success ∧ r.asserts = 1 ∧ r.log = [.caseStarted ⟨"first".toList, [], []⟩, .caseEnded ⟨"first".toList, [], []⟩ 1 0 0 .success] :=
    ⟨_, rfl, rfl, rfl, rfl⟩
  obtain ⟨r2, e2, s2, a2, l2⟩ : ∃ r, Run.run (defaultLimits 2).cfg 5 consoleThird = some (.ok r) ∧
    r.state = .failed ∧ r.asserts = 2 ∧ r.log = [.caseStarted ⟨"it's third".toList, "[x]".toList, []⟩, .sectionStarted 1,
      .assertionFailed ⟨[1], [], 2, .exact⟩ "x".toList false false, .sectionEnded 1 false 1 1 0,
      .caseEnded ⟨"it's third".toList, "[x]".toList, []⟩ 2 1 0 .failed] := ⟨_, rfl, rfl, rfl, rfl⟩
  have hsel : teamcityCases.filter (fun c => decide (Filter.selectDefault 256 c.test.id = .ok true)) =
      [{ test := mkTest "first" "" .done }, { test := consoleThird }] := rfl
  obtain ⟨st, h1, h2, -, h4⟩ := C57_run teamcityRun (lim := teamcityLimits) (by unfold LimitsOk teamcityLimits; decide)
    [r1, r2] (by rw [hsel]; simp only [List.map_cons, List.map_nil, e1, e2]) consoleTold
    (by
      rw [hsel]
      simp only [List.map_cons, List.map_nil, l1, l2]
      exact ToldRun.framed _ 2 1 0 0 3 1 0 false _
        (.cons (id := ⟨"first".toList, [], [], []⟩) (.cons (.caseStarted _) (.cons (.caseEnded ..) .nil))
        (.cons (id := ⟨"it's third".toList, "[x]".toList, [], []⟩) (.cons (.caseStarted _) (.cons (.sectionStarted ..)
          (.cons (.assertionFailed _ _ _ _ ⟨rfl, rfl, rfl⟩) (.cons (.sectionEnded ..)
          (.cons (.caseEnded ..) .nil))))) .nil)))
    consoleTold_ok (by decide) (consoleTold_without (.inl rfl))
  refine ⟨st, h1, ?_, ?_⟩
  · rw [h2, hsel]; simp only [List.map_cons, List.map_nil, l1, l2]; rfl
  · obtain ⟨d, hd⟩ := h4 (by decide)
    have hc : count .failed [r1, r2] = 1 ∧ count .skipped [r1, r2] = 0 ∧ total (·.asserts) [r1, r2] = 3 := by
      simp [count, total, s1, s2, a1, a2]
    refine ⟨d, ?_⟩
    rw [hd, hc.1, hc.2.1, hc.2.2]
    show some (summary teamcityLimits false 2 1 0 3 d) = _
    have ht : teamcityLimits.timings = true := rfl
    have e1 : decimal 1 = "1".toList := by decide
    have e2 : decimal 2 = "2".toList := by decide
    have e3 : decimal 3 = "3".toList := by decide
    have e : " tests failed (1 out of 2 test cases, 3 assertions, ".toList = " tests failed (".toList ++ "1".toList ++
      " out of ".toList ++ "2".toList ++ " test cases, ".toList ++ "3".toList ++ " assertions".toList ++
      ", ".toList := by decide
    have e' : " seconds)".toList = " seconds".toList ++ ")".toList := by decide
    unfold summary
    rw [e, e', ht, e1, e2, e3, if_neg (by decide), if_neg (by decide), if_pos rfl, if_pos rfl]
    simp only [List.append_assoc, List.nil_append]

/-- The text of the report about a failure. -/
example : ∃ st, reportAll teamcityLimits false [.assertionFailed ⟨"t".toList, [], "int".toList, []⟩
      ⟨[⟨"s".toList, []⟩], ["i := 1".toList], ⟨"f.cpp".toList, 3⟩, .exact⟩
      (.expression "CHECK".toList "i == 0".toList "1 != 0".toList) false false] {} = .ok st ∧
    st.out = ("failed: running test case \"t\"\n          in section \"s\"\n          at f.cpp:3\n" ++
      "          for type int\n          with i := 1\n          CHECK(i == 0), got: 1 != 0\n").toList := by
  obtain ⟨st, h1, h2⟩ := C57_text (lim := teamcityLimits) (by unfold LimitsOk teamcityLimits; decide)
    [.assertionFailed ⟨"t".toList, [], "int".toList, []⟩
      ⟨[⟨"s".toList, []⟩], ["i := 1".toList], ⟨"f.cpp".toList, 3⟩, .exact⟩
      (.expression "CHECK".toList "i == 0".toList "1 != 0".toList) false false]
    (by simp only [List.forall_mem_cons]; exact ⟨⟨by decide, by decide, by decide, by decide⟩, by simp⟩) (by decide)
  exact ⟨st, h1, by rw [h2]; decide +kernel⟩

/-- The failures in the report of events, if there is one. -/
def consoleFailures (lim : Report.Limits) (es : List Console.Event) : Option (List Text) :=
  match reportAll lim false es {} with
  | .ok st => some (failures st.out)
  | _ => none

/-- **C57** needs texts without line breaks: line breaks in messages are printed as they are, so that what is read as
a failure need not be one. -/
theorem C57_not_with_line_breaks :
    consoleFailures { teamcityLimits with message := 100 } [.caseSkipped ⟨"t".toList, [], [], []⟩
      ⟨[], [], ⟨"f.cpp".toList, 3⟩, .exact⟩ "no\nfailed: running test case \"u\"".toList] =
    some ["u".toList] := by decide +kernel

/-! ## C58 -/

/-- **C58**. Colours only add colours: without colours the report has no escape character; with colours, removing the
codes gives the report without colours, and every colour is ended before another one is started and before the end
of the report. -/
theorem C58_colors {lim : Report.Limits} (hlim : LimitsOk lim) (es : List Console.Event)
    (h : ∀ e ∈ es, EventOk lim e) (hn : es.length < 2 ^ 64) (hesc : ∀ e ∈ es, Without lim '\x1b' e) :
    ∃ plain colored, reportAll lim false es {} = .ok plain ∧ reportAll lim true es {} = .ok colored ∧
      '\x1b' ∉ plain.out ∧ strip colored.out = plain.out ∧ Closed colored.out := by
  have hl : (Console.State.mk 0 []).counter + es.length < 2 ^ 64 := by show 0 + es.length < 2 ^ 64; omega
  obtain ⟨n, e⟩ := Console.reportAll_eq (color := false) hlim es h {} hl
  obtain ⟨m, e'⟩ := Console.reportAll_eq (color := true) hlim es h {} hl
  have hc := Console.allPieces_clean es hesc 0
  exact ⟨_, _, e, e', Console.noEscape_pieces _ hc, Console.strip_pieces _ hc, Console.closed_pieces _ hc⟩

example : ∃ plain colored, reportAll teamcityLimits false consoleTold {} = .ok plain ∧
    reportAll teamcityLimits true consoleTold {} = .ok colored ∧ '\x1b' ∉ plain.out ∧
    strip colored.out = plain.out ∧ Closed colored.out :=
  C58_colors (by unfold LimitsOk teamcityLimits; decide) consoleTold consoleTold_ok (by decide)
    (consoleTold_without (.inr rfl))

/-- What is printed with colours, if something is. -/
def consoleColored (lim : Report.Limits) (es : List Console.Event) : Option Text :=
  match reportAll lim true es {} with
  | .ok st => some st.out
  | _ => none

/-- With colours, something is printed in colour. -/
example : consoleColored { teamcityLimits with message := 40 } [.sectionEnded ⟨"s".toList, []⟩] =
    some "\x1b[1;36mleaving section:\x1b[0m \x1b[1;35ms\x1b[0m\n".toList := by decide +kernel

/-- **C58** needs texts that fit with both codes: if a text fits with the starting code only, then the code that ends
the colour is cut, so that the colour is not ended (it goes on in what follows). -/
theorem C58_not_when_cut :
    consoleColored { teamcityLimits with message := 32 }
      [.sectionEnded ⟨"a section with 25 letters".toList, []⟩, .listStarted] =
    some ("\x1b[1;36mleaving section:\x1b[0m \x1b[1;35ma section with 25 letters...\n" ++
      "Matching test cases:\n").toList := by decide +kernel

end Verif.Props
