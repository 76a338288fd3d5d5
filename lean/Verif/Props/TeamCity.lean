import Verif.Lemmas.TeamCity
import Verif.Lemmas.Told
import Verif.Props.Registry
/-!
# C42, C55: the TeamCity report

What is read from the report is said with a reader of service messages (Verif/Spec/TeamCity.lean).
-/
namespace Verif.Props
open Verif Verif.Report
open Verif.Report.Spec (ToldAll Told decimal)
open Verif.Report.Spec.TeamCity

/-! ## C42 -/

theorem teamcity_decode_coded (s : Text) : decode (s.flatMap coded) = some s := by
  induction s with
  | nil => rfl
  | cons c s ih =>
    rw [List.flatMap_cons]
    generalize s.flatMap coded = r at ih ⊢
    unfold coded
    split
    · rename_i h; subst h; simp [decode, unescape, ih]
    split
    · rename_i h; subst h; simp [decode, unescape, ih]
    split
    · rename_i h; subst h; simp [decode, unescape, ih]
    split
    · rename_i h; subst h; simp [decode, unescape, ih]
    split
    · rename_i h; subst h; simp [decode, unescape, ih]
    split
    · rename_i h; subst h; simp [decode, unescape, ih]
    rename_i h1 h2 h3 h4 h5 h6
    show decode (c :: r) = _
    rw [decode.eq_def (c :: r)]
    split <;> simp_all

/-- **C42**. If the text, with its special characters escaped, fits, then what is printed has no special
character that is not escaped, and decoding it gives back the text. -/
theorem C42_decodes {cap : Nat} (hcap : cap + 3 < 2 ^ 64) {s : Text} (h : Short cap s) :
    ∃ t, TeamCity.makeEscaped cap s = .ok t ∧ decode t = some s :=
  ⟨_, TeamCity.makeEscaped_eq hcap h, teamcity_decode_coded s⟩

/-- **C42**. Distinct texts stay distinct. -/
theorem C42_injective {cap : Nat} (hcap : cap + 3 < 2 ^ 64) {s t : Text} (hs : Short cap s)
    (ht : Short cap t) (h : TeamCity.makeEscaped cap s = TeamCity.makeEscaped cap t) : s = t := by
  obtain ⟨u, e1, d1⟩ := C42_decodes hcap hs
  obtain ⟨v, e2, d2⟩ := C42_decodes hcap ht
  rw [e1, e2] at h
  cases h
  rw [d1] at d2
  exact Option.some.inj d2

/-- **C42**. For any events with texts the reporter can handle, the report consists of the service messages
that belong to the events, and every value can be read back. -/
theorem C42_messages {lim : Report.Limits} (hlim : LimitsOk lim) (es : List Event)
    (h : ∀ e ∈ es, EventOk lim e) :
    ∃ rep, TeamCity.reportAll lim es {} = .ok rep ∧ messages rep.out = some (es.flatMap (told lim)) := by
  obtain ⟨t, hp, hf⟩ := TeamCity.reportAll_prints hlim es h
  refine ⟨_, hp {}, ?_⟩
  simp only [List.nil_append]
  unfold messages
  rw [hf, List.nil_append]
  simp

example : TeamCity.makeEscaped 40 "it's [a|b]\n".toList = .ok "it|'s |[a||b|]|n".toList := by decide
example : decode "it|'s |[a||b|]|n".toList = some "it's [a|b]\n".toList ∧ decode "it's".toList = none ∧
    decode "a|".toList = none := by decide
example : Short 40 "it's [a|b]\n".toList := by decide

/-- **C42** does not hold for texts that do not fit: once a text has been cut, the remaining kinds of special
characters are not escaped any more. -/
theorem C42_not_when_cut : TeamCity.makeEscaped 7 "]''''".toList = .ok "]|'...".toList ∧
    decode "]|'...".toList = none := by decide

/-! ## C55 -/

theorem teamcity_inner [Run.MessageLimit] (lim : Report.Limits) (log : List Run.Event) : ∀ {es : List Event},
    (∀ e ∈ log, Run.isInner e = true) → ToldAll log es →
    (∀ m ∈ es.flatMap (told lim), m.name ∉ frames) ∧
    (log.any isRealFailure = true ↔ ∃ m ∈ es.flatMap (told lim), m.name = "testFailed".toList) := by
  induction log with
  | nil => intro es _ h; cases h; simp
  | cons x log ih =>
    intro es hi h
    obtain ⟨e1, e2, rfl, hx, hr⟩ := h.cons_inv
    obtain ⟨i1, i2⟩ := ih (fun e he => hi e (by simp [he])) hr
    have hix := hi x (by simp)
    have key : (∀ m ∈ e1.flatMap (told lim), m.name ∉ frames) ∧
        (isRealFailure x = true ↔ ∃ m ∈ e1.flatMap (told lim), m.name = "testFailed".toList) := by
      cases hx with
      | caseStarted => cases hix
      | caseEnded => cases hix
      | runStarted => cases hix
      | runEnded => cases hix
      | assertionFailed ctx t ex al => cases ex <;> cases al <;> simp [told, frames, isRealFailure]
      | _ => simp [told, frames, isRealFailure]
    rw [List.flatMap_append, List.any_cons, Bool.or_eq_true, key.2, i2]
    constructor
    · intro m hm
      rcases List.mem_append.mp hm with h | h
      · exact key.1 m h
      · exact i1 m h
    · constructor
      · rintro (⟨m, hm, e⟩ | ⟨m, hm, e⟩)
        · exact ⟨m, List.mem_append_left _ hm, e⟩
        · exact ⟨m, List.mem_append_right _ hm, e⟩
      · rintro ⟨m, hm, e⟩
        rcases List.mem_append.mp hm with h | h
        · exact .inl ⟨m, h, e⟩
        · exact .inr ⟨m, h, e⟩

/-- The full name of a test. -/
def testFullName (t : Run.TestCase) : Text := Spec.fullName ⟨t.id.name, t.id.tags, t.id.type, []⟩

theorem teamcity_tests [Run.MessageLimit] (lim : Report.Limits) {cfg : Run.Cfg} {fuel : Nat} (hv : 2 ≤ cfg.verbosity)
    (ts : List Run.TestCase) : ∀ {rs : List Run.TS} {es : List Event},
    ts.map (fun t => Run.run cfg fuel t) = rs.map (fun r => some (.ok r)) →
    ToldAll (rs.flatMap (·.log)) es →
    TestsTold ((ts.zip rs).map fun x => (testFullName x.1, decide (x.2.state = .failed)))
      (es.flatMap (told lim)) := by
  induction ts with
  | nil =>
    intro rs es h ht
    cases rs with
    | nil => cases ht; exact .nil
    | cons r rs => simp at h
  | cons t ts ih =>
    intro rs es h ht
    cases rs with
    | nil => simp at h
    | cons r rs =>
      simp only [List.map_cons, List.cons.injEq] at h
      rw [List.flatMap_cons] at ht
      obtain ⟨e1, e2, rfl, t1, t2⟩ := ht.append_inv
      have hf := C26_failed_iff_reported h.1
      obtain ⟨mid, a, f, al, st, hl, hin⟩ := Run.run_log_shape hv h.1
      rw [hl, List.cons_append] at t1
      obtain ⟨e3, e4, rfl, t3, t4⟩ := t1.cons_inv
      obtain ⟨e5, e6, rfl, t5, t6⟩ := t4.append_inv
      obtain ⟨e7, e8, rfl, t7, t8⟩ := t6.cons_inv
      cases t8
      obtain ⟨k1, k2⟩ := teamcity_inner lim mid hin t5
      have hany : r.log.any isRealFailure = mid.any isRealFailure := by
        rw [hl]; simp [isRealFailure]
      rw [hany, k2] at hf
      cases t3
      cases t7
      simp only [List.flatMap_append, List.append_assoc, List.zip_cons_cons, List.map_cons,
        List.flatMap_cons, List.flatMap_nil, List.append_nil]
      exact TestsTold.test k1 (by rw [decide_eq_true_iff]; exact hf) (ih h.2 t2)

private theorem zip_states {ts : List Run.TestCase} {rs : List Run.TS} {cs : List Reg.Case}
    (h1 : cs.map (·.test) = ts) (h2 : cs.map (·.state) = rs.map (·.state)) :
    (ts.zip rs).map (fun x => (testFullName x.1, decide (x.2.state = .failed))) =
      cs.map fun c => (testFullName c.test, decide (c.state = .failed)) := by
  induction cs generalizing ts rs with
  | nil =>
    cases h1
    cases rs with
    | nil => rfl
    | cons r rs => simp at h2
  | cons c cs ih =>
    cases rs with
    | nil => simp at h2
    | cons r rs =>
      subst h1
      simp only [List.map_cons, List.cons.injEq] at h2
      simp only [List.map_cons, List.zip_cons_cons, List.cons.injEq]
      exact ⟨by rw [h2.1], ih rfl h2.2⟩

private theorem filter_tests {p : Run.TestCase → Bool} {a b : List Reg.Case}
    (h : a.map (·.test) = b.map (·.test)) :
    (a.filter fun c => p c.test).map (·.test) = (b.filter fun c => p c.test).map (·.test) := by
  have e : ∀ l : List Reg.Case, (l.filter fun c => p c.test).map (·.test) = (l.map (·.test)).filter p :=
    fun l => by rw [List.filter_map]; rfl
  rw [e, e, h]

private theorem any_failed {tests : List (Text × Bool)} {ms : List Message} (h : TestsTold tests ms) :
    (∃ m ∈ ms, m.name = "testFailed".toList) ↔ ∃ x ∈ tests, x.2 = true := by
  induction h with
  | nil => simp
  | @test name failed inner more tests ms h1 h2 _ ih =>
    constructor
    · rintro ⟨m, hm, e⟩
      simp only [List.cons_append, List.mem_cons, List.mem_append] at hm
      rcases hm with rfl | hm | rfl | hm
      · exact absurd e (show "testStarted".toList ≠ _ by decide)
      · exact ⟨_, List.mem_cons_self .., h2.mpr ⟨m, hm, e⟩⟩
      · exact absurd e (show "testFinished".toList ≠ _ by decide)
      · obtain ⟨x, hx, e⟩ := ih.mp ⟨m, hm, e⟩
        exact ⟨x, List.mem_cons_of_mem _ hx, e⟩
    · rintro ⟨x, hx, e⟩
      rcases List.mem_cons.mp hx with rfl | hx
      · obtain ⟨m, hm, e⟩ := h2.mp e
        exact ⟨m, by simp [hm], e⟩
      · obtain ⟨m, hm, e⟩ := ih.mpr ⟨x, hx, e⟩
        exact ⟨m, by simp [hm], e⟩

/-- **C55**. The TeamCity report of a run, at whatever verbosity was asked for: the messages can be read back;
they are a start of the suite, the messages of the tests that were selected, in registration order, each
between its start and its finish, and the finish of the suite. A test has a `testFailed` message if and only
if it ended as failed, and the run is a success if and only if there is no `testFailed` message. -/
theorem C55_run [Run.MessageLimit] {rl : Reg.Limits} {v fuel : Nat} {pred : Filter.TestId → Outcome Bool}
    {cases cases' : List Reg.Case} {log : List Run.Event} {success : Bool}
    (hv : rl.cfg.verbosity = TeamCity.initVerbosity v)
    (h : Reg.runSelected rl fuel pred cases = some (.ok (cases', log, success)))
    {lim : Report.Limits} (hlim : LimitsOk lim) {es : List Event} (ht : ToldAll log es)
    (hok : ∀ e ∈ es, EventOk lim e) :
    ∃ rep ms name filters name' filters', TeamCity.reportAll lim es {} = .ok rep ∧
      messages rep.out = some (⟨"testSuiteStarted".toList, [("name".toList, suite name filters)]⟩ :: ms ++
        [⟨"testSuiteFinished".toList, [("name".toList, suite name' filters')]⟩]) ∧
      TestsTold ((cases'.filter fun c => decide (pred c.test.id = .ok true)).map fun c =>
        (testFullName c.test, decide (c.state = .failed))) ms ∧
      cases'.map (·.test) = cases.map (·.test) ∧
      (success = true ↔ ∀ m ∈ ms, m.name ≠ "testFailed".toList) ∧
      es.head? = some (.runStarted name filters) ∧
      ∃ run fail allowedFail skip counts, es.getLast? = some (.runEnded name' filters' run fail allowedFail skip counts) := by
  have hv2 : 2 ≤ rl.cfg.verbosity := by rw [hv]; unfold TeamCity.initVerbosity; split <;> omega
  obtain ⟨rep, hrep, hms⟩ := C42_messages hlim es hok
  obtain ⟨rs, h1, h2, -, h4, -, h6, h7, -⟩ := C29_run h
  rw [h2 (by omega)] at ht
  obtain ⟨e1, e2, rfl, t1, t2⟩ := ht.append_inv
  rw [List.singleton_append] at t1
  obtain ⟨e3, e4, rfl, t3, t4⟩ := t1.cons_inv
  obtain ⟨e5, e6, rfl, t5, t6⟩ := t2.cons_inv
  cases t6
  cases t3
  cases t5
  rename_i name filters name' filters'
  have k := teamcity_tests lim (cfg := rl.cfg) (fuel := fuel) hv2
    ((cases.filter fun c => decide (pred c.test.id = .ok true)).map (·.test)) (rs := rs)
    (by rw [List.map_map]; exact h1) t4
  rw [zip_states (filter_tests (p := fun t => decide (pred t.id = .ok true)) h6) h7] at k
  refine ⟨rep, e4.flatMap (told lim), name, filters, name', filters', hrep, ?_, k, h6, ?_, rfl, _, _, _, _, _,
    List.getLast?_concat ..⟩
  · rw [hms]; simp [told]
  · rw [h4]
    have := any_failed k
    constructor
    · intro hall m hm e
      obtain ⟨x, hx, hf⟩ := this.mp ⟨m, hm, e⟩
      obtain ⟨c, hc, rfl⟩ := List.mem_map.mp hx
      have hmem : c.state ∈ rs.map (·.state) := by rw [← h7]; exact List.mem_map.mpr ⟨c, hc, rfl⟩
      obtain ⟨r, hr, e⟩ := List.mem_map.mp hmem
      exact hall r hr (by rw [e]; simpa using hf)
    · intro hall r hr e
      have hmem : r.state ∈ (cases'.filter fun c => decide (pred c.test.id = .ok true)).map (·.state) := by
        rw [h7]; exact List.mem_map.mpr ⟨r, hr, rfl⟩
      obtain ⟨c, hc, e'⟩ := List.mem_map.mp hmem
      obtain ⟨m, hm, hf⟩ := this.mpr ⟨_, List.mem_map.mpr ⟨c, hc, rfl⟩, by simp [e', e]⟩
      exact hall m hm hf

/-- Three tests, of which the second is hidden and the third fails (in a section). -/
def teamcityCases : List Reg.Case :=
  [ { test := mkTest "first" "" .done }, { test := mkTest "hidden" "[.]" .done },
    { test := mkTest "it's third" "[x]"
        (.sec 1 2 (.stmt (.check 2 (.val false) false "x".toList) .done) .done) } ]

/-- The events of the run. -/
def teamcityLog : List Run.Event :=
  [.runStarted, .caseStarted ⟨"first".toList, [], []⟩,
    .caseEnded ⟨"first".toList, [], []⟩ 1 0 0 .success,
    .caseStarted ⟨"it's third".toList, "[x]".toList, []⟩, .sectionStarted 1,
    .assertionFailed ⟨[1], [], 2, .exact⟩ "x".toList false false, .sectionEnded 1 false 1 1 0,
    .caseEnded ⟨"it's third".toList, "[x]".toList, []⟩ 2 1 0 .failed,
    .runEnded 2 1 0 0 3 1 0 false]

/-- The tests after the run. -/
def teamcityCases' : List Reg.Case :=
  [ { test := mkTest "first" "" .done, state := .success }, { test := mkTest "hidden" "[.]" .done },
    { test := mkTest "it's third" "[x]"
        (.sec 1 2 (.stmt (.check 2 (.val false) false "x".toList) .done) .done), state := .failed } ]

theorem teamcityRun [Run.MessageLimit] : Reg.runSelected (defaultLimits 2) 5 (Filter.selectDefault 256) teamcityCases =
    some (.ok (teamcityCases', teamcityLog, false)) := by rfl

/-- What the reporter is told about it. -/
def teamcityTold : List Event :=
  [.runStarted "prog".toList [], .caseStarted ⟨"first".toList, [], [], []⟩ ⟨"f.cpp".toList, 1⟩,
    .caseEnded ⟨"first".toList, [], [], []⟩ ⟨"f.cpp".toList, 1⟩ .success "0e+0".toList 12,
    .caseStarted ⟨"it's third".toList, "[x]".toList, [], []⟩ ⟨"f.cpp".toList, 1⟩,
    .sectionStarted ⟨"s".toList, []⟩ ⟨"f.cpp".toList, 2⟩,
    .assertionFailed ⟨"it's third".toList, "[x]".toList, [], []⟩ [] ⟨"f.cpp".toList, 3⟩
      (.expression "CHECK".toList "a[0] == 1".toList "0 != 1".toList) false false,
    .sectionEnded ⟨"s".toList, []⟩ ⟨"f.cpp".toList, 2⟩ false ⟨1, 1, 0⟩ "0e+0".toList,
    .caseEnded ⟨"it's third".toList, "[x]".toList, [], []⟩ ⟨"f.cpp".toList, 1⟩ .failed "0e+0".toList 7,
    .runEnded "prog".toList [] 2 1 0 0 ⟨3, 1, 0⟩]

theorem teamcityTold_told : ToldAll teamcityLog teamcityTold :=
  .cons (.runStarted ..) (.cons (.caseStarted ⟨"first".toList, [], []⟩ _ _)
    (.cons (.caseEnded ⟨"first".toList, [], []⟩ _ _ _ _ _ _ _ _ _ rfl)
    (.cons (.caseStarted ⟨"it's third".toList, "[x]".toList, []⟩ _ _) (.cons (.sectionStarted ..)
    (.cons (.assertionFailed ⟨[1], [], 2, .exact⟩ ..) (.cons (.sectionEnded ..)
    (.cons (.caseEnded ⟨"it's third".toList, "[x]".toList, []⟩ _ _ _ _ _ _ _ _ _ rfl)
      (.cons (.runEnded ..) .nil))))))))

/-- The limits of a default build. -/
def teamcityLimits : Report.Limits :=
  { message := 1024, name := 1024, version := "1.3.2".toList, timings := true }

theorem teamcityTold_ok : ∀ e ∈ teamcityTold, EventOk teamcityLimits e := by
  simp only [teamcityTold, List.forall_mem_cons, EventOk, AssertionOk, teamcityLimits]
  refine ⟨?_, ?_, ?_, ?_, ?_, ?_, ?_, ?_, ?_, by simp⟩
  all_goals decide

open Defaults in
example : ∃ rep ms name filters name' filters', TeamCity.reportAll teamcityLimits teamcityTold {} = .ok rep ∧
    messages rep.out = some (⟨"testSuiteStarted".toList, [("name".toList, suite name filters)]⟩ :: ms ++
      [⟨"testSuiteFinished".toList, [("name".toList, suite name' filters')]⟩]) ∧
    TestsTold [("first".toList, false), ("it's third".toList, true)] ms := by
  obtain ⟨rep, ms, n, f, n', f', h1, h2, h3, _⟩ := C55_run (v := 1) rfl teamcityRun
    (lim := teamcityLimits) (by unfold LimitsOk teamcityLimits; decide) teamcityTold_told teamcityTold_ok
  exact ⟨rep, ms, n, f, n', f', h1, h2, h3⟩

/-- The messages read back from what is printed about the failed test. -/
example : ∃ rep, TeamCity.reportAll teamcityLimits teamcityTold {} = .ok rep ∧
    (messages rep.out).map (fun ms => ms[5]?) = some (some ⟨"testFailed".toList,
      [("name".toList, "it's third".toList),
       ("message".toList, "f.cpp:3\n  CHECK(a[0] == 1), got: 0 != 1".toList)]⟩) := by
  obtain ⟨rep, h1, h2⟩ := C42_messages (lim := teamcityLimits) (by unfold LimitsOk teamcityLimits; decide)
    teamcityTold teamcityTold_ok
  exact ⟨rep, h1, by rw [h2]; decide +kernel⟩

/-- Whether the reporter is done and its report cannot be read. -/
def teamcityUnreadable (lim : Report.Limits) (es : List Event) : Bool :=
  match TeamCity.reportAll lim es {} with
  | .ok rep => messages rep.out = none
  | _ => false

/-- **C42** does not hold for the names of sections: these are printed as they are. -/
theorem C42_not_section_names : teamcityUnreadable { teamcityLimits with message := 40, name := 40 }
    [.sectionStarted ⟨"it's".toList, []⟩ ⟨"f".toList, 2⟩] = true := by decide +kernel

end Verif.Props
