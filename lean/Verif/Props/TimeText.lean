import Verif.Lemmas.TimeText
import Verif.Props.Timing
import Verif.Props.Declared
/-!
# C94: the times in a report are the times that passed

From the clock to the text of the report: C90 says what is measured and told to the reporter, C93 what the report says.
-/
namespace Verif.Props
open Verif.Timing Verif.Timing.Spec Verif.Whole Verif.Whole.Spec Verif.Report Verif.Report.Spec Verif.Events Verif.Events.Spec

/-- **C94** (what is written). For two times of a clock that has not reached 2 ^ 63 ns (292 years): the seconds between them,
computed as `float`, are a number whose text `append` appends to any string, as far as it fits, and this text is as good as
`Rendered` demands. -/
theorem C94_text {start stop : Nat} (h : start ≤ stop) (hb : stop < 2 ^ 63) :
    ∃ pattern d, Verif.Spec.single.Finite pattern ∧ Verif.Spec.single.value pattern = seconds Verif.Spec.toSingle start stop ∧
      Rendered start stop d ∧ ∀ ss : Str, ss.size ≤ ss.capacity → ss.capacity < 2 ^ 64 →
        ∃ r, Float.appendFloat Float.word64 Float.binary32 ss pattern Float.binary32.precision = some r ∧
          Verif.Spec.Appended ss d.text r := by
  obtain ⟨pattern, k1, k2, -, k4⟩ := seconds_pattern h hb
  obtain ⟨text, ht, ha⟩ := float_shown k1 k2
  obtain ⟨m, hm, -⟩ := micros_near Verif.Spec.toSingle_rounds h hb
  refine ⟨pattern, ⟨text, m⟩, k1, ?_, ⟨by rw [← k4]; exact ht, hm⟩, ha⟩
  unfold Verif.Spec.Binary.value
  rw [k2, ← k4]
  rfl

/-- **C94** (what it says). The text says the seconds that passed, up to seven parts in ten million, and the number for the
TeamCity reporter the microseconds. -/
theorem C94_says {start stop : Nat} (h : start ≤ stop) (hb : stop < 2 ^ 63) {d : Duration} (hd : Rendered start stop d) :
    SaysSeconds start stop d.text ∧ SaysMicros start stop d.micros := ⟨rendered_seconds h hb hd, rendered_micros h hb hd⟩

private theorem number_plain {c : Char} (h : numberChar c = true) :
    legal c = true ∧ c ≠ '<' ∧ c ≠ '>' ∧ c ≠ '&' ∧ c ≠ '"' ∧ c ≠ '\x1b' ∧ attrChar c = c := by
  unfold numberChar at h
  rcases of_decide_eq_true h with ⟨h1, h2⟩ | h
  · have h1 : 48 ≤ c.toNat := h1
    have h2 : c.toNat ≤ 57 := h2
    refine ⟨?_, ?_, ?_, ?_, ?_, ?_, ?_⟩
    · unfold legal
      simp only [Bool.or_eq_true, decide_eq_true_eq]
      exact .inl (.inl (by omega))
    · rintro rfl; exact absurd h2 (by decide)
    · rintro rfl; exact absurd h2 (by decide)
    · rintro rfl; exact absurd h1 (by decide)
    · rintro rfl; exact absurd h1 (by decide)
    · rintro rfl; exact absurd h1 (by decide)
    · unfold attrChar
      rw [if_neg]
      intro hb
      unfold blank at hb
      simp only [Bool.or_eq_true, decide_eq_true_eq] at hb
      rcases hb with (rfl | rfl) | rfl <;> exact absurd h1 (by decide)
  · simp only [List.mem_cons, List.not_mem_nil, or_false] at h
    rcases h with rfl | rfl | rfl | rfl <;> decide

/-- The text of a duration needs no escaping, and fits in any buffer that is used for it. -/
private theorem rendered_conditions {start stop : Nat} {d : Duration} (hd : Rendered start stop d) :
    d.text.length ≤ 13 ∧ Plain d.text ∧ '\x1b' ∉ d.text ∧ attr d.text = d.text := by
  obtain ⟨h0, n, e, h1, -⟩ := hd.text
  have hch := fun c hc => number_plain (scientific_chars h1 c hc)
  refine ⟨h0, ?_, ?_, ?_⟩
  · unfold Plain
    rw [List.all_eq_true]
    intro c hc
    obtain ⟨a, b, c', d', e', -⟩ := hch c hc
    simp [a, b, c', d', e']
  · intro hm
    exact (hch _ hm).2.2.2.2.2.1 rfl
  · unfold attr
    exact (List.map_congr_left fun c hc => (hch c hc).2.2.2.2.2.2).trans (List.map_id _)

private theorem forall₂_filterMap {α β γ δ : Type} {R : α → β → Prop} {S : γ → δ → Prop} {f : α → Option γ} {g : β → Option δ}
    (h : ∀ x y, R x y → (f x = none ∧ g y = none) ∨ ∃ a b, f x = some a ∧ g y = some b ∧ S a b) {l : List α} {l' : List β}
    (hl : List.Forall₂ R l l') : List.Forall₂ S (l.filterMap f) (l'.filterMap g) := by
  induction hl with
  | nil => exact .nil
  | @cons x y l l' hxy _ ih =>
    rcases h x y hxy with ⟨h1, h2⟩ | ⟨a, b, h1, h2, h3⟩
    · rw [List.filterMap_cons_none h1, List.filterMap_cons_none h2]; exact ih
    · rw [List.filterMap_cons_some h1, List.filterMap_cons_some h2]; exact .cons h3 ih

private def ofTest {α : Type} : Named × α → Option α
  | (.test _, x) => some x
  | _ => none

private def ofRun {α : Type} : Named × α → Option α
  | (.run, x) => some x
  | _ => none

private theorem testDurations_eq (es : List Events.Event) : testDurations es = (es.filterMap durationOf).filterMap ofTest := by
  rw [List.filterMap_filterMap]
  unfold testDurations
  congr 1
  funext e
  cases e <;> rfl

private theorem runDurations_eq (es : List Events.Event) : runDurations es = (es.filterMap durationOf).filterMap ofRun := by
  rw [List.filterMap_filterMap]
  unfold runDurations
  congr 1
  funext e
  cases e <;> rfl

private theorem spans_tests (src : Source) {v : Nat} (hv : 2 ≤ v) (r : RunTimes) :
    (spans src v r).filterMap ofTest = r.tests.map fun t => (t.start, t.stop) := by
  unfold spans
  rw [List.filterMap_append, if_pos (by omega)]
  have : ∀ l : List Ran, (l.flatMap (spansOfTest src v)).filterMap ofTest = l.map fun t => (t.start, t.stop) := by
    intro l
    induction l with
    | nil => rfl
    | cons t l ih =>
      rw [List.flatMap_cons, List.filterMap_append, ih]
      unfold spansOfTest
      rw [if_pos hv, List.filterMap_append, List.filterMap_map]
      have : (tolds t.marks).filterMap (ofTest ∘ fun x => (Named.section (src.sec x.1), x.2)) = [] := by
        rw [List.filterMap_eq_nil_iff]; intros; rfl
      rw [this]
      rfl
  rw [this]
  simp [ofTest]

private theorem spans_run (src : Source) {v : Nat} (hv : 1 ≤ v) (r : RunTimes) :
    (spans src v r).filterMap ofRun = [(r.start, r.stop)] := by
  unfold spans
  rw [List.filterMap_append, if_pos hv]
  have : (r.tests.flatMap (spansOfTest src v)).filterMap ofRun = [] := by
    rw [List.filterMap_eq_nil_iff]
    intro x hx
    obtain ⟨t, -, hx⟩ := List.mem_flatMap.1 hx
    unfold spansOfTest at hx
    rcases List.mem_append.1 hx with hx | hx
    · obtain ⟨y, -, rfl⟩ := List.mem_map.1 hx; rfl
    · split at hx
      · rw [List.mem_singleton.1 hx]; rfl
      · cases hx
  rw [this]
  rfl

private def grouped {α : Type} (before : List α) : List (Named × α) → List (List α)
  | [] => []
  | (.section _, x) :: l => grouped (before ++ [x]) l
  | (.test _, _) :: l => before :: grouped [] l
  | (.run, _) :: l => grouped before l

private theorem sectionDurations_eq (es : List Events.Event) : ∀ before, sectionDurations before es =
    grouped before (es.filterMap durationOf) := by
  induction es with
  | nil => intro _; rfl
  | cons e es ih =>
    intro before
    cases e <;> simp [sectionDurations, durationOf, grouped, ih, List.filterMap_cons]

private theorem grouped_rel {α β : Type} {S : α → β → Prop} {l : List (Named × α)} {l' : List (Named × β)}
    (h : List.Forall₂ (fun x y => x.1 = y.1 ∧ S x.2 y.2) l l') : ∀ {a : List α} {b : List β}, List.Forall₂ S a b →
    List.Forall₂ (List.Forall₂ S) (grouped a l) (grouped b l') := by
  induction h with
  | nil => intro a b _; exact .nil
  | @cons x y l l' hxy _ ih =>
    intro a b hab
    obtain ⟨w, x⟩ := x
    obtain ⟨w', y⟩ := y
    obtain ⟨rfl, hxy⟩ := hxy
    cases w
    · exact ih (List.rel_append hab (.cons hxy .nil))
    · exact .cons hab (ih .nil)
    · exact ih hab

private theorem grouped_section {α β : Type} (f : β → Named × α) (hf : ∀ x, ∃ s, (f x).1 = .section s) (l : List β)
    (rest : List (Named × α)) : ∀ before, grouped before (l.map f ++ rest) = grouped (before ++ l.map fun x => (f x).2) rest := by
  induction l with
  | nil => intro before; simp
  | cons x l ih =>
    intro before
    obtain ⟨s, hs⟩ := hf x
    rw [List.map_cons, List.cons_append]
    rcases hx : f x with ⟨w, y⟩
    rw [hx] at hs
    obtain rfl : w = .section s := hs
    rw [grouped, ih]
    simp [hx]

private theorem spans_sections (src : Source) {v : Nat} (hv : 2 ≤ v) (r : RunTimes) :
    grouped [] (spans src v r) = r.tests.map fun t => (tolds t.marks).map (·.2) := by
  unfold spans
  rw [if_pos (by omega)]
  have : ∀ l : List Ran, ∀ more, grouped [] (l.flatMap (spansOfTest src v) ++ more) =
      (l.map fun t => (tolds t.marks).map (·.2)) ++ grouped [] more := by
    intro l more
    induction l with
    | nil => rfl
    | cons t l ih =>
      rw [List.flatMap_cons, List.append_assoc]
      unfold spansOfTest
      rw [if_pos hv, List.append_assoc, grouped_section _ (fun x => ⟨_, rfl⟩), List.singleton_append, grouped]
      exact congrArg _ ih
  rw [this]
  simp [grouped]

section
variable [Run.MessageLimit] {p : Program} {fuel : Nat} {argv0 : Text} {argv : List Text} {ts : List Cli.Spec.Token}
  {clock : Nat → Nat} {n : Nat} {r : RunTimes} {tags : Reg.Case → List Text}

/-- With measured durations, the conditions on durations are met. -/
private theorem measured_meets {k : Conditions} (hm : Measured p fuel argv0 argv ts clock n r)
    (hk : ∀ start stop d, Rendered start stop d → k.duration d.text) (h : Meets p tags (timeless k)) : Meets p tags k where
  test := h.test
  section' := h.section'
  file := h.file
  sectionFile := h.sectionFile
  duration i := by obtain ⟨a, b, -, -, hd⟩ := hm.each i; exact hk a b _ hd
  capture := h.capture
  skip := h.skip
  data := h.data

/-- The durations of the tests are those measured. -/
private theorem measured_tests (hm : Measured p fuel argv0 argv ts clock n r) {code : Nat} {es : List Events.Event}
    (h : Events.main p.src p.lim fuel p.maxArgs (p.reporters.map (·.1)) (Whole.init p) (Whole.config p) argv0 argv p.cases =
      some (.ok (code, es.map .event))) :
    (2 ≤ verbosityIn p ts → List.Forall₂ (fun d (t : Ran) => Rendered t.start t.stop d) (testDurations es) r.tests) ∧
    (1 ≤ verbosityIn p ts → List.Forall₂ (fun d (x : Nat × Nat) => Rendered x.1 x.2 d) (runDurations es) [(r.start, r.stop)]) := by
  have ht := hm.told code es h
  constructor
  · intro hv
    have := forall₂_filterMap (f := ofTest) (g := ofTest) (S := fun d (x : Nat × Nat) => Rendered x.1 x.2 d) (fun x y hxy => by
      obtain ⟨w, d⟩ := x
      obtain ⟨w', z⟩ := y
      obtain ⟨h1, h2⟩ := hxy
      dsimp only at h1 h2
      subst h1
      cases w
      · exact .inl ⟨rfl, rfl⟩
      · exact .inr ⟨_, _, rfl, rfl, h2⟩
      · exact .inl ⟨rfl, rfl⟩) ht
    rw [← testDurations_eq, spans_tests _ hv] at this
    exact List.forall₂_map_right_iff.1 this
  · intro hv
    have := forall₂_filterMap (f := ofRun) (g := ofRun) (S := fun d (x : Nat × Nat) => Rendered x.1 x.2 d) (fun x y hxy => by
      obtain ⟨w, d⟩ := x
      obtain ⟨w', z⟩ := y
      obtain ⟨h1, h2⟩ := hxy
      dsimp only at h1 h2
      subst h1
      cases w
      · exact .inl ⟨rfl, rfl⟩
      · exact .inl ⟨rfl, rfl⟩
      · exact .inr ⟨_, _, rfl, rfl, h2⟩) ht
    rw [← runDurations_eq, spans_run _ hv] at this
    exact this

/-- The durations of the sections are those measured. -/
private theorem measured_sections (hm : Measured p fuel argv0 argv ts clock n r) {code : Nat} {es : List Events.Event}
    (h : Events.main p.src p.lim fuel p.maxArgs (p.reporters.map (·.1)) (Whole.init p) (Whole.config p) argv0 argv p.cases =
      some (.ok (code, es.map .event))) (hv : 2 ≤ verbosityIn p ts) :
    List.Forall₂ (fun ds (t : Ran) => List.Forall₂ (fun d (x : Nat × Nat × Nat) => Rendered x.2.1 x.2.2 d) ds (tolds t.marks))
      (sectionDurations [] es) r.tests := by
  have := grouped_rel (S := fun (d : Duration) (x : Nat × Nat) => Rendered x.1 x.2 d) (hm.told code es h) .nil
  rw [← sectionDurations_eq, spans_sections _ hv] at this
  exact (List.forall₂_map_right_iff.1 this).imp fun ds t h => List.forall₂_map_right_iff.1 h

/-- All spans are of a clock that does not go back and has not reached 2 ^ 63 ns. -/
private theorem spans_fair (hc : Steady clock) (hb : ∀ n, clock n < 2 ^ 63) {lim : Reg.Limits}
    {pred : Filter.TestId → Outcome Bool} {cases : List Reg.Case} (h : runSelected clock n lim fuel pred cases = some (.ok r)) :
    r.start ≤ r.stop ∧ r.stop < 2 ^ 63 ∧ (∀ t ∈ r.tests, t.start ≤ t.stop ∧ t.stop < 2 ^ 63) ∧
      (∀ t ∈ r.tests, ∀ x ∈ tolds t.marks, x.2.1 ≤ x.2.2 ∧ x.2.2 < 2 ^ 63) ∧
      ∀ src v, ∀ x ∈ spans src v r, x.2.1 ≤ x.2.2 ∧ x.2.2 < 2 ^ 63 := by
  obtain ⟨-, h1, -, h2⟩ := C90_nested hc h
  obtain ⟨-, ⟨m, -, h3⟩, -⟩ := runSelected_inTurn h
  have hstop : r.stop < 2 ^ 63 := by rw [h3]; exact hb m
  have ht : ∀ t ∈ r.tests, t.start ≤ t.stop ∧ t.stop < 2 ^ 63 := fun t ht => by
    obtain ⟨-, j2, j3, -⟩ := h1 t ht
    exact ⟨j2, by omega⟩
  refine ⟨by omega, hstop, ht, ?_, ?_⟩
  · intro t hmem y hy
    obtain ⟨-, j2, j3, j4⟩ := h1 t hmem
    obtain ⟨-, i2, i3⟩ := j4 y hy
    exact ⟨i2, by omega⟩
  intro src v x hx
  unfold spans at hx
  rcases List.mem_append.1 hx with hx | hx
  · obtain ⟨t, hmem, hx⟩ := List.mem_flatMap.1 hx
    unfold spansOfTest at hx
    rcases List.mem_append.1 hx with hx | hx
    · obtain ⟨y, hy, rfl⟩ := List.mem_map.1 hx
      obtain ⟨-, j2, j3, j4⟩ := h1 t hmem
      obtain ⟨-, i2, i3⟩ := j4 y hy
      exact ⟨i2, by dsimp only; omega⟩
    · split at hx
      · rw [List.mem_singleton.1 hx]; exact ht t hmem
      · cases hx
  · split at hx
    · rw [List.mem_singleton.1 hx]; exact ⟨by dsimp only; omega, hstop⟩
    · cases hx

omit [Run.MessageLimit] in
private theorem pair_up {α ε : Type} {f : α → ε} {g : Duration → ε} {c : α → Run.TestCase} : ∀ {tests : List α}
    {ds : List Duration} {rs : List Ran}, tests.map f = ds.map g → tests.map c = rs.map (·.test) →
    List.Forall₂ (fun d (t : Ran) => Rendered t.start t.stop d) ds rs →
    List.Forall₂ (fun q (t : Ran) => c q = t.test ∧ ∃ d, f q = g d ∧ Rendered t.start t.stop d) tests rs := by
  intro tests
  induction tests with
  | nil =>
    intro ds rs h1 h2 h
    cases h with
    | nil => exact .nil
    | cons => simp at h1
  | cons q tests ih =>
    intro ds rs h1 h2 h
    cases h with
    | nil => simp at h1
    | cons h h' =>
      simp only [List.map_cons, List.cons.injEq] at h1 h2
      exact .cons ⟨h2.1, _, h1.1, h⟩ (ih h1.2 h2.2 h')

omit [Run.MessageLimit] in
private theorem forall₂_mem {α β : Type} {R S : α → β → Prop} {l : List α} {l' : List β} (h : List.Forall₂ R l l')
    (H : ∀ x, ∀ y ∈ l', R x y → S x y) : List.Forall₂ S l l' := by
  induction h with
  | nil => exact .nil
  | @cons x y l l' h _ ih => exact .cons (H _ _ (by simp) h) (ih fun x y hy => H x y (by simp [hy]))

omit [Run.MessageLimit] in
private theorem says_time {rl : Report.Limits} {start stop : Nat} (h : start ≤ stop) (hb : stop < 2 ^ 63) {d : Duration}
    (hd : Rendered start stop d) : SaysTime rl start stop (if rl.timings then some (attr d.text) else none) := by
  unfold SaysTime
  cases rl.timings with
  | false => rfl
  | true => exact ⟨d.text, by rw [(rendered_conditions hd).2.2.2]; rfl, rendered_seconds h hb hd⟩

/-- The tests that were measured are those selected. -/
private theorem measured_selected (argv0 : Text) (hlen : argv.length ≤ p.maxArgs)
    (hcases : ∀ c ∈ p.cases, Sound p.lim fuel c.test (tags c)) (hts : Cli.Spec.tokens argv = some ts)
    (hn : (Cli.Spec.optionNames ts).Nodup) (hno : ∀ l ∈ listing, l ∉ Cli.Spec.optionNames ts) (hc : Steady clock)
    (hm : Measured p fuel argv0 argv ts clock n r) {sel : Reg.Case → Bool} (hsel : ∀ c ∈ p.cases, sel c = true ↔
      Verif.Spec.Selected (Cli.Spec.positionalsOf ts) ⟨Reg.Spec.fullName c.test.id, tags c⟩) :
    (p.cases.filter sel).map (·.test) = r.tests.map (·.test) := by
  obtain ⟨v, pred, -, -, -, -, -, -, -, ⟨-, -, -, -, -, -, hp⟩, -, hs, -⟩ := main_parts (p.reporters.map (·.1)) (Whole.init p)
    (Whole.config p) argv0 hlen tags hcases hts hn hno
  subst hp
  rw [(C90_nested hc hm.ran).1]
  congr 1
  apply List.filter_congr
  intro c hmem
  obtain ⟨b, h1, h2⟩ := hs c hmem
  rw [h1, Bool.eq_iff_iff, hsel c hmem, ← h2]
  simp

end

/-- **C94** (console reporter). As `C93_console`, with the durations measured by a clock that does not go back: next to each test
the report says the seconds between its start and its end, and for the whole run those between its start and its end, up to
seven parts in ten million. -/
theorem C94_console [Run.MessageLimit] {p : Program} (hr : Roomy p) (hrl : Console.LimitsOk p.rl) {fuel : Nat}
    {opens : Text → Bool} (argv0 : Text) {argv : List Text} (hlen : argv.length ≤ p.maxArgs) (tags : Reg.Case → List Text)
    (hcases : ∀ c ∈ p.cases, Sound p.lim fuel c.test (tags c)) (hc : Countable p tags)
    {ts : List Cli.Spec.Token} (hts : Cli.Spec.tokens argv = some ts) (hn : (Cli.Spec.optionNames ts).Nodup)
    (hno : ∀ l ∈ listing, l ∉ Cli.Spec.optionNames ts) (ho : Writable p.maxPath opens ts)
    (hk : kindFor p ts = .console)
    (hm : Meets p tags (timeless (consoleConditions p.rl)))
    (hname : ∀ name, IsNameOf argv0 name → name.length + 11 ≤ p.rl.message) (hb : eventBound tags p.cases < 2 ^ 64)
    (hcol : (settled p ts).1.withColor = true → Meets p tags (timeless escapeFree) ∧ '\x1b' ∉ p.rl.version ∧
      ∀ name, IsNameOf argv0 name → '\x1b' ∉ name)
    {clock : Nat → Nat} (hclock : Steady clock) (hsmall : ∀ n, clock n < 2 ^ 63) {n : Nat} {r : RunTimes}
    (hmeas : Measured p fuel argv0 argv ts clock n r) :
    ∃ (code : Nat) (w : Output.State) (report name duration : Text) (sel : Reg.Case → Bool)
      (tests : List (Reg.Case × Text)),
      Whole.main p fuel opens argv0 argv = some (.ok (code, w)) ∧ Delivered p argv ts report w ∧
      (∀ c ∈ p.cases, sel c = true ↔
        Verif.Spec.Selected (Cli.Spec.positionalsOf ts) ⟨Reg.Spec.fullName c.test.id, tags c⟩) ∧
      tests.map (·.1) = p.cases.filter sel ∧
      (if (settled p ts).1.withColor then Console.strip report else report) =
        Console.unlines (reportLines p.src p.rl (verbosityIn p ts) name tags tests (decide (code = 0)) duration) ∧
      (2 ≤ verbosityIn p ts → List.Forall₂ (fun q t => q.1.test = t.test ∧ SaysSeconds t.start t.stop q.2) tests r.tests) ∧
      (1 ≤ verbosityIn p ts → SaysSeconds r.start r.stop duration) := by
  obtain ⟨code, es, sel, name, tests, duration, h1, h2, h3, h4, h5, h6, t1, t2, h7⟩ := C87_console hr hrl (opens := opens) argv0
    hlen tags hcases hts hn hno ho hk
  obtain ⟨code', es', name', sel', g1, g2, -, g3, g4, -⟩ := C80_only p.src (p.reporters.map (·.1)) (Whole.init p)
    (Whole.config p) argv0 hlen tags hcases hts hn hno
  obtain rfl := same_events h1 g1
  have hmsg : 32 ≤ p.rl.message := hrl.2.2.1
  obtain ⟨w, report, k1, k2, k3⟩ := h7 (fun e he => console_ok hc (measured_meets hmeas (fun a b d hd => by
      have := (rendered_conditions hd).1
      show d.text.length ≤ p.rl.message
      omega) hm) (hname _ g2) (g3 e he)) (by omega)
    (fun h => fun e he => console_without (measured_meets hmeas (fun a b d hd => (rendered_conditions hd).2.2.1) (hcol h).1)
      (hcol h).2.1 ((hcol h).2.2 _ g2) (g3 e he))
  obtain ⟨s1, s2, s3, s5, -⟩ := spans_fair hclock hsmall hmeas.ran
  obtain ⟨m1, m2⟩ := measured_tests hmeas h1
  refine ⟨code, w, report, name, duration, sel, tests, k1, k2, h2, h6, k3, ?_, ?_⟩
  · intro hv
    have := pair_up (c := fun q => q.1.test) (t1 hv) (by
      rw [← measured_selected argv0 hlen hcases hts hn hno hclock hmeas h2, ← h6, List.map_map]; rfl) (m1 hv)
    refine forall₂_mem this ?_
    rintro q t ht ⟨e1, d, e2, e3⟩
    obtain ⟨f1, f2⟩ := s3 t ht
    exact ⟨e1, by rw [e2]; exact rendered_seconds f1 f2 e3⟩
  · intro hv
    have h := m2 hv
    have ht := t2 hv
    generalize runDurations es = ds at h ht
    cases h with
    | cons h h' =>
      cases h'
      simp only [List.map_cons, List.map_nil, List.cons.injEq, and_true] at ht
      rw [ht]
      exact rendered_seconds s1 s2 h

/-- **C94** (TeamCity reporter). As `C94_console`; the messages about the end of a test say the microseconds. -/
theorem C94_teamcity [Run.MessageLimit] {p : Program} (hr : Roomy p) (hrl : TeamCity.LimitsOk p.rl) {fuel : Nat}
    {opens : Text → Bool} (argv0 : Text) {argv : List Text} (hlen : argv.length ≤ p.maxArgs) (tags : Reg.Case → List Text)
    (hcases : ∀ c ∈ p.cases, Sound p.lim fuel c.test (tags c)) (hc : Countable p tags)
    {ts : List Cli.Spec.Token} (hts : Cli.Spec.tokens argv = some ts) (hn : (Cli.Spec.optionNames ts).Nodup)
    (hno : ∀ l ∈ listing, l ∉ Cli.Spec.optionNames ts) (ho : Writable p.maxPath opens ts)
    (hk : kindFor p ts = .teamcity)
    (hm : Meets p tags (teamcityConditions p.rl)) (hname : ∀ name, IsNameOf argv0 name →
      TeamCity.Short p.rl.message (TeamCity.suite name (Cli.Spec.positionalsOf ts)))
    {clock : Nat → Nat} (hclock : Steady clock) (hsmall : ∀ n, clock n < 2 ^ 63) {n : Nat} {r : RunTimes}
    (hmeas : Measured p fuel argv0 argv ts clock n r) :
    ∃ (code : Nat) (w : Output.State) (report name : Text) (sel : Reg.Case → Bool) (tests : List (Reg.Case × Nat)),
      Whole.main p fuel opens argv0 argv = some (.ok (code, w)) ∧ Delivered p argv ts report w ∧
      (∀ c ∈ p.cases, sel c = true ↔
        Verif.Spec.Selected (Cli.Spec.positionalsOf ts) ⟨Reg.Spec.fullName c.test.id, tags c⟩) ∧
      tests.map (·.1) = p.cases.filter sel ∧
      TeamCity.messages report = some (reportMessages p.src p.rl (verbosityIn p ts) name (Cli.Spec.positionalsOf ts)
        tags tests) ∧
      List.Forall₂ (fun q t => q.1.test = t.test ∧ SaysMicros t.start t.stop q.2) tests r.tests := by
  obtain ⟨code, es, sel, name, tests, h1, h2, h3, h4, h5, h6, t1, h7⟩ := C87_teamcity hr hrl (opens := opens) argv0 hlen
    tags hcases hts hn hno ho hk
  obtain ⟨code', es', name', sel', g1, g2, -, g3, g4, -⟩ := C80_only p.src (p.reporters.map (·.1)) (Whole.init p)
    (Whole.config p) argv0 hlen tags hcases hts hn hno
  obtain rfl := same_events h1 g1
  obtain ⟨w, report, k1, k2, k3⟩ := h7 (fun e he => teamcity_ok hc hm (hname _ g2) (g3 e he))
  obtain ⟨s1, s2, s3, s5, -⟩ := spans_fair hclock hsmall hmeas.ran
  have hv : 2 ≤ verbosityIn p ts := by
    unfold verbosityIn
    rw [hk, if_neg (by decide)]
    omega
  have := pair_up (c := fun q : Reg.Case × Nat => q.1.test) t1 (by
    rw [← measured_selected argv0 hlen hcases hts hn hno hclock hmeas h2, ← h6, List.map_map]; rfl)
    ((measured_tests hmeas h1).1 hv)
  refine ⟨code, w, report, name, sel, tests, k1, k2, h2, h6, k3, forall₂_mem this ?_⟩
  rintro q t ht ⟨e1, d, e2, e3⟩
  obtain ⟨f1, f2⟩ := s3 t ht
  exact ⟨e1, by rw [e2]; exact rendered_micros f1 f2 e3⟩

/-- **C94** (XML reporter). As `C94_console`; the element of each test says the seconds, if times are to be shown
(`SNITCH_WITH_TIMINGS`); so do the elements of its sections, in the order in which their ends are told. (The time told of a section
counts from its last entry, see `C90_child_longer`.) -/
theorem C94_xml [Run.MessageLimit] {p : Program} (hr : Roomy p) (hrl : Report.Spec.LimitsOk p.rl) {fuel : Nat}
    {opens : Text → Bool} (argv0 : Text) {argv : List Text} (hlen : argv.length ≤ p.maxArgs) (tags : Reg.Case → List Text)
    (hcases : ∀ c ∈ p.cases, Sound p.lim fuel c.test (tags c)) (hc : Countable p tags)
    (hnest : ∀ c ∈ p.cases, Nested (marksOf (storyOf c.test (tags c))))
    {ts : List Cli.Spec.Token} (hts : Cli.Spec.tokens argv = some ts) (hn : (Cli.Spec.optionNames ts).Nodup)
    (hno : ∀ l ∈ listing, l ∉ Cli.Spec.optionNames ts) (ho : Writable p.maxPath opens ts)
    (hk : kindFor p ts = .xml) (hm : Meets p tags (timeless (xmlConditions p.rl)))
    (hname : ∀ name, IsNameOf argv0 name → Short p.rl.message name)
    (hq : Short p.rl.message (quoted (Cli.Spec.positionalsOf ts)))
    {clock : Nat → Nat} (hclock : Steady clock) (hsmall : ∀ n, clock n < 2 ^ 63) {n : Nat} {r : RunTimes}
    (hmeas : Measured p fuel argv0 argv ts clock n r) :
    ∃ (code : Nat) (w : Output.State) (report name : Text) (sel : Reg.Case → Bool) (tests : List (Reg.Case × Node))
      (counts : Counts),
      Whole.main p fuel opens argv0 argv = some (.ok (code, w)) ∧ Delivered p argv ts report w ∧
      (∀ c ∈ p.cases, sel c = true ↔
        Verif.Spec.Selected (Cli.Spec.positionalsOf ts) ⟨Reg.Spec.fullName c.test.id, tags c⟩) ∧
      tests.map (·.1) = p.cases.filter sel ∧
      document report = some (runNode p.rl name (Cli.Spec.positionalsOf ts) (tests.map (·.2)) tests.length
        (ending tags .failed tests) (ending tags .allowedFail tests) (ending tags .skipped tests) counts) ∧
      List.Forall₂ (fun q t => q.1.test = t.test ∧ SaysTime p.rl t.start t.stop (timeIn q.2)) tests r.tests ∧
      List.Forall₂ (fun q t => List.Forall₂ (fun o x => SaysTime p.rl x.2.1 x.2.2 o) (sectionTimesIn q.2) (tolds t.marks))
        tests r.tests := by
  obtain ⟨code, es, sel, name, h1, h2, h3, h4, h5, h7⟩ := C87_xml hr hrl (opens := opens) argv0 hlen
    tags hcases hts hn hno ho hk (fun c hc v r hv hr => by rw [marks_of_run (hcases c hc) hv hr]; exact hnest c hc)
  obtain ⟨code', es', name', sel', g1, g2, gs, g3, g4, g5, g6⟩ := C80_only p.src (p.reporters.map (·.1)) (Whole.init p)
    (Whole.config p) argv0 hlen tags hcases hts hn hno
  obtain rfl := same_events h1 g1
  obtain ⟨w, report, tests, counts, k1, k2, k3, k4, k5, t1, t2, -⟩ := h7 (fun e he => xml_ok hc (measured_meets hmeas
    (fun a b d hd => (rendered_conditions hd).2.1) hm) (hname _ g2) hq (g3 e he))
  obtain ⟨s1, s2, s3, s5, -⟩ := spans_fair hclock hsmall hmeas.ran
  have hv : 2 ≤ verbosityIn p ts := by
    unfold verbosityIn
    rw [hk, if_neg (by decide)]
    omega
  have := pair_up (c := fun q : Reg.Case × Node => q.1.test) t1 (by
    rw [← measured_selected argv0 hlen hcases hts hn hno hclock hmeas h2, ← k4, List.map_map]; rfl)
    ((measured_tests hmeas h1).1 hv)
  refine ⟨code, w, report, name, sel, tests, counts, k1, k2, h2, k4, k3, forall₂_mem this ?_, ?_⟩
  · rintro q t ht ⟨e1, d, e2, e3⟩
    obtain ⟨f1, f2⟩ := s3 t ht
    refine ⟨e1, ?_⟩
    rw [e2]
    exact says_time f1 f2 e3
  · have h := measured_sections hmeas h1 hv
    have h' := List.forall₂_map_left_iff (f := fun q : Reg.Case × Node => sectionTimesIn q.2)
      (R := fun os t => List.Forall₂ (fun o x => SaysTime p.rl x.2.1 x.2.2 o) os (tolds t.marks)) (l := tests) (u := r.tests)
    rw [← h', t2, List.forall₂_map_left_iff]
    refine forall₂_mem h fun ds t ht hds => ?_
    rw [List.forall₂_map_left_iff]
    refine forall₂_mem hds fun d x hx hd => ?_
    obtain ⟨f1, f2⟩ := s5 t ht x hx
    exact says_time f1 f2 hd

/-- **C94** (there are such durations). For every program and every clock that does not go back and has not reached 2 ^ 63 ns,
`Measured` holds for some durations: those that the program computes. -/
theorem C94_measured [Run.MessageLimit] (p : Program) {fuel : Nat} (argv0 : Text) {argv : List Text}
    (hlen : argv.length ≤ p.maxArgs) (tags : Reg.Case → List Text)
    (hcases : ∀ c ∈ p.cases, Sound p.lim fuel c.test (tags c))
    {ts : List Cli.Spec.Token} (hts : Cli.Spec.tokens argv = some ts) (hn : (Cli.Spec.optionNames ts).Nodup)
    (hno : ∀ l ∈ listing, l ∉ Cli.Spec.optionNames ts)
    {clock : Nat → Nat} (hclock : Steady clock) (hsmall : ∀ n, clock n < 2 ^ 63) (n : Nat) :
    ∃ duration r, Measured { p with src := { p.src with duration } } fuel argv0 argv ts clock n r := by
  obtain ⟨v, pred, cases', log, success, color, msgs, input, config', ⟨hp, hexe, hc, hv, hnone, hfil, rfl⟩, hv', -, -, hrun, -⟩ :=
    main_parts (p.reporters.map (·.1)) (Whole.init p) (Whole.config p) argv0 hlen tags hcases hts hn hno
  rw [verbosityOfRun_eq] at hv'
  obtain ⟨r, hran⟩ := (C90_harmless clock n _ fuel _ p.cases).2 _ hrun
  obtain ⟨s1, s2, s3, -, s4⟩ := spans_fair hclock hsmall hran
  classical
  let conv : Nat → Nat → Duration := fun a b => if h : a ≤ b ∧ b < 2 ^ 63 then (rendered_exists h.1 h.2).choose else ⟨[], 0⟩
  have hconv : ∀ a b, a ≤ b → b < 2 ^ 63 → Rendered a b (conv a b) := by
    intro a b h1 h2
    dsimp only [conv]
    rw [dif_pos ⟨h1, h2⟩]
    exact (rendered_exists h1 h2).choose_spec
  obtain ⟨duration, es, e1, e2, e3⟩ := runSelected_durations p.src conv (conv r.start r.stop) (Cli.extractExecutable argv0)
    (Cli.Spec.positionalsOf ts) hran
  subst hv'
  refine ⟨duration, r, hran, ?_, ?_⟩
  · intro code es' h
    have hmain : Events.main { p.src with duration } p.lim fuel p.maxArgs (p.reporters.map (·.1)) (Whole.init p) (Whole.config p)
        argv0 argv p.cases = some (.ok (if r.success then 0 else 1, es.map .event)) := by
      unfold Events.main
      rw [hp]
      simp only [hc]
      rw [hv]
      have : Events.runTests { p.src with duration } { p.lim with cfg := { p.lim.cfg with verbosity := verbosityIn p ts } } fuel
          (p.reporters.map (·.1)) input p.cases = Events.afterRun (Events.runSelected { p.src with duration }
            { p.lim with cfg := { p.lim.cfg with verbosity := verbosityIn p ts } } fuel (Cli.extractExecutable argv0)
            (Cli.Spec.positionalsOf ts)
            (Filter.selectForRun p.lim.cfg.maxTag p.lim.maxName (Cli.Spec.positionalsOf ts)) p.cases) := by
        unfold Events.runTests
        rw [hnone "--help".toList (by decide), hnone "--list-tests-with-tag".toList (by decide),
          hnone "--list-tags".toList (by decide), hnone "--list-reporters".toList (by decide),
          hnone "--list-tests".toList (by decide), hfil]
        simp only [Option.isSome_none, Bool.false_eq_true, if_false, Events.runOrList]
        rw [hexe]
        by_cases hne : Cli.Spec.positionalsOf ts = []
        · rw [hne]
          rfl
        · rw [if_neg (by simpa using hne), selectForRun_filters hne]
      rw [this, e1]
      rfl
    have := same_events h hmain
    subst this
    rw [e2]
    show List.Forall₂ _ _ (spans p.src _ r)
    rw [List.forall₂_map_left_iff]
    refine List.forall₂_same.2 ?_
    intro x hx
    obtain ⟨f1, f2⟩ := s4 _ _ x hx
    exact ⟨rfl, hconv _ _ f1 f2⟩
  · intro i
    rcases e3 i with h | ⟨x, hx, h⟩
    · exact ⟨r.start, r.stop, s1, s2, by show Rendered _ _ (duration i); rw [h]; exact hconv _ _ s1 s2⟩
    · obtain ⟨f1, f2⟩ := s4 _ _ x hx
      exact ⟨x.2.1, x.2.2, f1, f2, by show Rendered _ _ (duration i); rw [h]; exact hconv _ _ f1 f2⟩

/-! ## Examples -/

/-- A clock that goes one second from one reading to the next, for a hundred seconds. -/
def ticks (n : Nat) : Nat := min n 100 * 10 ^ 9

theorem ticks_steady : Steady ticks := by
  intro m n h
  unfold ticks
  exact Nat.mul_le_mul_right _ (by omega)

theorem ticks_small (n : Nat) : ticks n < 2 ^ 63 := by
  unfold ticks
  have : min n 100 * 10 ^ 9 ≤ 100 * 10 ^ 9 := Nat.mul_le_mul_right _ (by omega)
  omega

/-- From three to five seconds: the number is 2. -/
example : ∃ d, Rendered (3 * 10 ^ 9) (5 * 10 ^ 9) d ∧ SaysSeconds (3 * 10 ^ 9) (5 * 10 ^ 9) d.text ∧
    SaysMicros (3 * 10 ^ 9) (5 * 10 ^ 9) d.micros := by
  obtain ⟨-, d, -, -, h, -⟩ := C94_text (start := 3 * 10 ^ 9) (stop := 5 * 10 ^ 9) (by decide) (by decide)
  exact ⟨d, h, C94_says (by decide) (by decide) h⟩

/-- `2.000000e+00` says two seconds, `2.000002e+00` does not. -/
example : SaysSeconds (3 * 10 ^ 9) (5 * 10 ^ 9) "2.000000e+00".toList ∧
    ¬ SaysSeconds (3 * 10 ^ 9) (5 * 10 ^ 9) "2.000002e+00".toList := by
  constructor
  · exact ⟨2000000, -6, by decide, by norm_num⟩
  · rintro ⟨d, e, h, h'⟩
    rw [show Verif.Spec.readScientific "2.000002e+00".toList = some (false, 2000002, -6) by decide] at h
    cases h
    norm_num at h'

/-- `plainProgram` with other durations. -/
def retimed (duration : Nat → Duration) : Program := { plainProgram with src := { plainProgram.src with duration } }

theorem retimed_rl (duration : Nat → Duration) : (retimed duration).rl = plainProgram.rl := rfl

theorem retimed_roomy (duration : Nat → Duration) : Roomy (retimed duration) :=
  ⟨plainProgram_roomy.1, plainProgram_roomy.2, plainProgram_roomy.3⟩

open Defaults in
/-- What is measured is small enough for the reporters. -/
theorem retimed_countable {duration : Nat → Duration} {fuel : Nat} {argv0 : Text} {argv : List Text}
    {ts : List Cli.Spec.Token} {clock : Nat → Nat} {n : Nat} {r : RunTimes}
    (h : Measured (retimed duration) fuel argv0 argv ts clock n r) : Countable (retimed duration) teamcityTags :=
  ⟨plainProgram_countable.lines, plainProgram_countable.sections, fun i => by
    obtain ⟨_, _, -, -, hd⟩ := h.each i
    exact micros_small hd.micros, plainProgram_countable.tests, plainProgram_countable.assertions, plainProgram_countable.names⟩

open Defaults in
theorem retimed_meets {duration : Nat → Duration} {k : Conditions} (hk : ∀ d, k.duration d)
    (h : Meets plainProgram teamcityTags k) : Meets (retimed duration) teamcityTags k :=
  ⟨h.test, h.section', h.file, h.sectionFile, fun _ => hk _, h.capture, h.skip, h.data⟩

open Defaults in
/-- The times at which the run and the tests of `plainProgram` start and end. -/
theorem plain_times : timesOf (runSelected ticks 0 { plainProgram.lim with cfg := { plainProgram.lim.cfg with verbosity := 2 } }
    5 (Filter.selectForRun plainProgram.lim.cfg.maxTag plainProgram.lim.maxName []) plainProgram.cases) =
    [(0, 7 * 10 ^ 9, []), (1 * 10 ^ 9, 2 * 10 ^ 9, []), (3 * 10 ^ 9, 6 * 10 ^ 9, [(1, 4 * 10 ^ 9, 5 * 10 ^ 9)])] := by
  decide +kernel

open Defaults in
/-- The same, for what is measured. -/
theorem retimed_times {duration : Nat → Duration} {argv0 : Text} {argv : List Text} {ts : List Cli.Spec.Token} {r : RunTimes}
    (hm : Measured (retimed duration) 5 argv0 argv ts ticks 0 r) (hv : verbosityIn plainProgram ts = 2)
    (hp : Cli.Spec.positionalsOf ts = []) : r.start = 0 ∧ r.stop = 7 * 10 ^ 9 ∧
      r.tests.map (fun t => (t.start, t.stop)) = [(1 * 10 ^ 9, 2 * 10 ^ 9), (3 * 10 ^ 9, 6 * 10 ^ 9)] ∧
      r.tests.map (fun t => tolds t.marks) = [[], [(1, 4 * 10 ^ 9, 5 * 10 ^ 9)]] := by
  have h := plain_times
  have hr := hm.ran
  rw [hp, show verbosityIn (retimed duration) ts = 2 from hv] at hr
  have hr' : runSelected ticks 0 { plainProgram.lim with cfg := { plainProgram.lim.cfg with verbosity := 2 } }
    5 (Filter.selectForRun plainProgram.lim.cfg.maxTag plainProgram.lim.maxName []) plainProgram.cases = some (.ok r) := hr
  rw [hr'] at h
  simp only [timesOf, List.cons.injEq, Prod.mk.injEq, and_true] at h
  refine ⟨h.1.1, h.1.2, ?_, ?_⟩
  · have h2 := congrArg (List.map fun x : Nat × Nat × List (Nat × Nat × Nat) => (x.1, x.2.1)) h.2
    rw [List.map_map] at h2
    exact h2
  · have h2 := congrArg (List.map fun x : Nat × Nat × List (Nat × Nat × Nat) => x.2.2) h.2
    rw [List.map_map] at h2
    exact h2

private theorem forall₂_times {α : Type} {R : α → Nat → Nat → Prop} {S : α → Ran → Prop} (hR : ∀ x t, S x t → R x t.start t.stop)
    {l : List α} {l' : List Ran} {l'' : List (Nat × Nat)} (h : List.Forall₂ S l l')
    (he : l'.map (fun t => (t.start, t.stop)) = l'') : List.Forall₂ (fun x t => R x t.1 t.2) l l'' := by
  subst he
  rw [List.forall₂_map_right_iff]
  exact h.imp fun x t h => hR x t h

open Defaults in
/-- Two tests, of one second and of three, in a run of seven. -/
example : ∃ (duration : Nat → Duration) (code : Nat) (w : Output.State) (name d : Text) (tests : List (Reg.Case × Text))
      (report : Text),
    Whole.main (retimed duration) 5 (fun _ => true) "bin/prog.exe".toList (["-v", "high"].map String.toList) =
      some (.ok (code, w)) ∧ Shows w report none ∧
    report = Console.unlines (reportLines (retimed duration).src teamcityLimits 2 name teamcityTags tests (decide (code = 0)) d) ∧
    SaysSeconds 0 (7 * 10 ^ 9) d ∧
    List.Forall₂ (fun q t => SaysSeconds t.1 t.2 q.2) tests [(1 * 10 ^ 9, 2 * 10 ^ 9), (3 * 10 ^ 9, 6 * 10 ^ 9)] := by
  obtain ⟨duration, r, hm⟩ := C94_measured plainProgram (fuel := 5) "bin/prog.exe".toList
    (argv := ["-v", "high"].map String.toList) (by decide) teamcityTags teamcity_sound (ts := _) rfl (by decide) (by decide)
    ticks_steady ticks_small 0
  obtain ⟨code, w, report, name, d, sel, tests, h1, h2, -, -, h3, h4, h5⟩ := C94_console (retimed_roomy duration)
    (show Console.LimitsOk plainProgram.rl by unfold Console.LimitsOk; decide) (opens := fun _ => true) "bin/prog.exe".toList
    (argv := ["-v", "high"].map String.toList) (show 2 ≤ plainProgram.maxArgs by decide) teamcityTags teamcity_sound
    (retimed_countable hm) (ts := _) rfl (by decide) (by decide) (by intro path h; cases h) rfl
    (retimed_meets (fun _ => trivial) (plainProgram_meets (by simp only [timeless, consoleConditions, retimed_rl]; decide)
      (by simp only [timeless, consoleConditions, retimed_rl]; decide) trivial trivial
      (by simp only [timeless, consoleConditions, retimed_rl]; decide)))
    (fun name h => by rw [named_prog h]; show _ ≤ plainProgram.rl.message; decide)
    (show eventBound teamcityTags plainProgram.cases < 2 ^ 64 by decide) (by intro h; cases h) ticks_steady ticks_small hm
  obtain ⟨r1, r2, r3, r4⟩ := retimed_times hm rfl rfl
  rw [r1, r2] at h5
  exact ⟨duration, code, w, name, d, tests, report, h1, h2, h3, h5 (show 1 ≤ 2 by decide),
    forall₂_times (R := fun q a b => SaysSeconds a b q.2) (fun _ _ h => h.2) (h4 (show 2 ≤ 2 by decide)) r3⟩

open Defaults in
/-- In microseconds. -/
example : ∃ (duration : Nat → Duration) (code : Nat) (w : Output.State) (name : Text) (tests : List (Reg.Case × Nat))
      (report : Text),
    Whole.main (retimed duration) 5 (fun _ => true) "bin/prog.exe".toList (["-r", "teamcity"].map String.toList) =
      some (.ok (code, w)) ∧ Shows w report none ∧
    TeamCity.messages report = some (reportMessages (retimed duration).src teamcityLimits 2 name [] teamcityTags tests) ∧
    List.Forall₂ (fun q t => SaysMicros t.1 t.2 q.2) tests [(1 * 10 ^ 9, 2 * 10 ^ 9), (3 * 10 ^ 9, 6 * 10 ^ 9)] := by
  obtain ⟨duration, r, hm⟩ := C94_measured plainProgram (fuel := 5) "bin/prog.exe".toList
    (argv := ["-r", "teamcity"].map String.toList) (by decide) teamcityTags teamcity_sound (ts := _) rfl (by decide) (by decide)
    ticks_steady ticks_small 0
  obtain ⟨code, w, report, name, sel, tests, h1, h2, -, -, h3, h4⟩ := C94_teamcity (retimed_roomy duration)
    (show TeamCity.LimitsOk plainProgram.rl by unfold TeamCity.LimitsOk; decide) (opens := fun _ => true)
    "bin/prog.exe".toList
    (argv := ["-r", "teamcity"].map String.toList) (show 2 ≤ plainProgram.maxArgs by decide) teamcityTags teamcity_sound
    (retimed_countable hm) (ts := _) rfl (by decide) (by decide) (by intro path h; cases h) rfl
    (retimed_meets (fun _ => trivial) (plainProgram_meets (by simp only [teamcityConditions, TeamCity.Short, retimed_rl]; decide)
      (by simp only [teamcityConditions, TeamCity.Plain]; decide)
      (by simp only [teamcityConditions, TeamCity.Short, retimed_rl]; decide) trivial
      (by simp only [teamcityConditions, TeamCity.Plain, TeamCity.Short, retimed_rl]; decide)))
    (fun name h => by rw [named_prog h]; simp only [TeamCity.Short, retimed_rl]; decide) ticks_steady ticks_small hm
  obtain ⟨r1, r2, r3, r4⟩ := retimed_times hm rfl rfl
  have h5 := forall₂_times (R := fun (q : Reg.Case × Nat) a b => SaysMicros a b q.2) (fun _ _ h => h.2) h4 r3
  exact ⟨duration, code, w, name, tests, report, h1, h2, h3, h5⟩

open Defaults in
/-- In attributes of elements; the second test has a section. -/
example : ∃ (duration : Nat → Duration) (code : Nat) (w : Output.State) (tests : List (Reg.Case × Node)) (report : Text),
    Whole.main (retimed duration) 5 (fun _ => true) "bin/prog.exe".toList (["-r", "xml", "-o", "f"].map String.toList) =
      some (.ok (code, w)) ∧ Shows w [] (some ("f".toList, report)) ∧
    (∃ name counts, document report = some (runNode teamcityLimits name [] (tests.map (·.2)) tests.length
      (ending teamcityTags .failed tests) (ending teamcityTags .allowedFail tests) (ending teamcityTags .skipped tests)
      counts)) ∧
    List.Forall₂ (fun q t => ∃ text, timeIn q.2 = some text ∧ SaysSeconds t.1 t.2 text) tests
      [(1 * 10 ^ 9, 2 * 10 ^ 9), (3 * 10 ^ 9, 6 * 10 ^ 9)] ∧
    List.Forall₂ (fun q xs => List.Forall₂ (fun o x => ∃ text, o = some text ∧ SaysSeconds x.2.1 x.2.2 text)
      (sectionTimesIn q.2) xs) tests [[], [(1, 4 * 10 ^ 9, 5 * 10 ^ 9)]] := by
  obtain ⟨duration, r, hm⟩ := C94_measured plainProgram (fuel := 5) "bin/prog.exe".toList
    (argv := ["-r", "xml", "-o", "f"].map String.toList) (by decide) teamcityTags teamcity_sound (ts := _) rfl (by decide)
    (by decide) ticks_steady ticks_small 0
  obtain ⟨code, w, report, name, sel, tests, counts, h1, h2, -, -, h3, h4, h5⟩ := C94_xml (retimed_roomy duration)
    (show LimitsOk plainProgram.rl by unfold LimitsOk; decide) (opens := fun _ => true) "bin/prog.exe".toList
    (argv := ["-r", "xml", "-o", "f"].map String.toList) (show 4 ≤ plainProgram.maxArgs by decide) teamcityTags teamcity_sound
    (retimed_countable hm) (by
      intro c hc
      refine C83_nested_once (teamcity_sound c hc) ?_
      simp only [retimed, plainProgram, exampleProgram, teamcityCases, List.mem_cons, List.not_mem_nil, or_false] at hc
      rcases hc with rfl | rfl | rfl <;> exact Run.always_one (by simp [Run.Spec.Once, Run.Spec.leaves]))
    (ts := _) rfl (by decide) (by decide) (by
      intro path h
      obtain rfl : "f".toList = path := Option.some.inj h
      exact ⟨rfl, show _ ≤ plainProgram.maxPath by decide, by decide⟩) rfl
    (retimed_meets (fun _ => trivial) (plainProgram_meets
      (by simp only [timeless, xmlConditions, Short, retimed_rl]; decide)
      (by simp only [timeless, xmlConditions, Short, retimed_rl]; decide)
      (by simp only [timeless, xmlConditions, Short, retimed_rl]; decide) trivial
      (by simp only [timeless, xmlConditions, DataOk, Plain, Short, retimed_rl]; decide)))
    (fun name h => by rw [named_prog h]; simp only [Short, retimed_rl]; decide)
    (by simp only [Short, retimed_rl]; decide) ticks_steady ticks_small hm
  obtain ⟨r1, r2, r3, r4⟩ := retimed_times hm rfl rfl
  exact ⟨duration, code, w, tests, report, h1, h2, ⟨name, counts, h3⟩,
    forall₂_times (R := fun q a b => ∃ text, timeIn q.2 = some text ∧ SaysSeconds a b text)
      (fun _ _ h => by simpa [SaysTime, show (retimed duration).rl.timings = true from rfl] using h.2) h4 r3, by
    rw [← r4, List.forall₂_map_right_iff]
    simpa [SaysTime, show (retimed duration).rl.timings = true from rfl] using h5⟩

end Verif.Props
