import Verif.Spec.Whole
import Verif.Lemmas.Growth
import Verif.Props.Events
import Verif.Props.Configure
import Verif.Props.Help
import Verif.Props.Output
/-!
# Lemmas about test programs as a whole
-/
namespace Verif.Whole
open Verif Verif.Whole.Spec Verif.Cli.Spec

section Put

/-- The events passed to the reporter, one after the other. -/
def reportAll (rl : Report.Limits) (color : Bool) : List Events.Event → Device → Outcome Device
  | [], d => .ok d
  | e :: es, d => do
    let d ← d.report rl color e
    reportAll rl color es d

theorem reportAll_console (rl : Report.Limits) (color : Bool) : ∀ (es : List Events.Event) (st : Report.Console.State),
    reportAll rl color es (.console st) =
      (Report.Console.reportAll rl color (es.map Events.Event.console) st >>= fun st => .ok (.console st))
  | [], _ => rfl
  | e :: es, st => by
    simp only [reportAll, Device.report, List.map_cons, Report.Console.reportAll]
    cases h : Report.Console.report rl color st e.console with
    | ok st' => exact reportAll_console rl color es st'
    | abort => rfl
    | ub => rfl

theorem reportAll_teamcity (rl : Report.Limits) (color : Bool) : ∀ (es : List Events.Event) (rep : Report.Rep),
    reportAll rl color es (.teamcity rep) =
      (Report.TeamCity.reportAll rl (es.map Events.Event.report) rep >>= fun rep => .ok (.teamcity rep))
  | [], _ => rfl
  | e :: es, rep => by
    simp only [reportAll, Device.report, List.map_cons, Report.TeamCity.reportAll]
    cases h : Report.TeamCity.report rl rep e.report with
    | ok st' => exact reportAll_teamcity rl color es st'
    | abort => rfl
    | ub => rfl

theorem reportAll_xml (rl : Report.Limits) (color : Bool) : ∀ (es : List Events.Event) (rep : Report.Rep),
    reportAll rl color es (.xml rep) =
      (Report.Xml.reportAll rl (es.map Events.Event.report) rep >>= fun rep => .ok (.xml rep))
  | [], _ => rfl
  | e :: es, rep => by
    simp only [reportAll, Device.report, List.map_cons, Report.Xml.reportAll]
    cases h : Report.Xml.report rl rep e.report with
    | ok st' => exact reportAll_xml rl color es st'
    | abort => rfl
    | ub => rfl

theorem put_screen {p : Program} {color : Bool} {name : Text} : ∀ {es : List Events.Event} {d d' : Device} {w : Output.State},
    reportAll p.rl color es d = .ok d' → w.callback = .stdout →
    ∃ texts : List Text, put p color name (es.map .event) d w =
        .ok { w with others := w.others ++ texts.map fun t => (none, t) } ∧ d'.out = d.out ++ texts.flatten
  | [], d, d', w, h, _ => by
    cases h
    exact ⟨[], by simp [put], by simp⟩
  | e :: es, d, d', w, h, hw => by
    rw [reportAll] at h
    cases hd : d.report p.rl color e with
    | abort => rw [hd] at h; cases h
    | ub => rw [hd] at h; cases h
    | ok d₁ =>
      rw [hd] at h
      obtain ⟨texts, h1, h2⟩ := put_screen (name := name) (w := { w with others := w.others ++ [(none, d₁.out.drop d.out.length)] })
        h hw
      refine ⟨d₁.out.drop d.out.length :: texts, ?_, ?_⟩
      · have hp : Output.print p.maxPath (d₁.out.drop d.out.length) w =
            .ok { w with others := w.others ++ [(none, d₁.out.drop d.out.length)] } := by rw [Output.print, hw]
        rw [List.map_cons, put, hd, Outcome.bind_ok, hp, Outcome.bind_ok, h1, List.append_assoc]
        rfl
      · rw [h2, List.flatten_cons, ← List.append_assoc, ← Device.grows hd]

theorem put_file {p : Program} {color : Bool} {name : Text} {i f : Nat} : ∀ {es : List Events.Event} {d d' : Device}
    {w : Output.State}, reportAll p.rl color es d = .ok d' → w.callback = .writer → w.held = some i →
    w.files.at i = some (some f) → w.files.isOpen f = true →
    ∃ texts : List Text, put p color name (es.map .event) d w =
        .ok { w with files := { w.files with calls := w.files.calls ++ texts.map (.written f) } } ∧
      d'.out = d.out ++ texts.flatten
  | [], d, d', w, h, _, _, _, _ => by
    cases h
    exact ⟨[], by simp [put], by simp⟩
  | e :: es, d, d', w, h, hw, hh, ha, ho => by
    rw [reportAll] at h
    cases hd : d.report p.rl color e with
    | abort => rw [hd] at h; cases h
    | ub => rw [hd] at h; cases h
    | ok d₁ =>
      rw [hd] at h
      obtain ⟨m, hm⟩ : ∃ m, m = d₁.out.drop d.out.length := ⟨_, rfl⟩
      have ho' : ({ w.files with calls := w.files.calls ++ [.written f m] } : File.World).isOpen f = true := by
        rw [File.World.isOpen] at ho ⊢
        simpa [File.Call.opens, File.Call.closes] using ho
      obtain ⟨texts, h1, h2⟩ := put_file (name := name)
        (w := { w with files := { w.files with calls := w.files.calls ++ [.written f m] } }) h hw hh ha ho'
      refine ⟨m :: texts, ?_, ?_⟩
      · have hp : Output.print p.maxPath m w =
            .ok { w with files := { w.files with calls := w.files.calls ++ [.written f m] } } := by
          simp only [Output.print, hw, hh, File.step, ha, File.write, ho, if_true, Outcome.bind_ok, Outcome.pure_eq]
        rw [List.map_cons, put, hd, Outcome.bind_ok, ← hm, hp, Outcome.bind_ok, h1, List.append_assoc]
        rfl
      · rw [h2, hm, List.flatten_cons, ← List.append_assoc, ← Device.grows hd]

end Put

/-- Lines printed with `cli::print`. -/
theorem put_lines {p : Program} (hcap : p.rl.message + 3 < 2 ^ 64) {color : Bool} {name : Text} {d : Device} :
    ∀ (ls : List Text) (w : Output.State), put p color name (ls.map .line) d w =
        .ok { w with others := w.others ++ ls.map fun l => (none, Verif.Spec.cut p.rl.message (l ++ "\n".toList)) }
  | [], w => by simp [put]
  | l :: ls, w => by
    have hs : Cli.say p.rl.message [.str l, Cli.str "\n"] = .ok (Verif.Spec.cut p.rl.message (l ++ "\n".toList)) := by
      rw [Cli.say_eq hcap (show Cli.Room p.rl.message 0 [.str l, Cli.str "\n"] from fun _ _ => trivial)]
      simp [Print.Spec.whole, Cli.str]
    rw [List.map_cons, put, hs, Outcome.bind_ok, put_lines hcap ls, onScreen, List.append_assoc]
    rfl

/-! ## Opening and closing the file -/

/-- The output once a file has been opened. -/
def opened (path : Text) (w : Output.State) : Output.State :=
  { w with files := ⟨[none, some (some 0)], 1, [.opened 0 path]⟩, held := some 1, callback := .writer }

theorem configureOut_eq {maxPath : Nat} (hm : maxPath + 1 < 2 ^ 64) {path : Text} (hl : path.length ≤ maxPath)
    (h0 : '\x00' ∉ path) {w : Output.State} (hf : w.files = {}) (hh : w.held = none) :
    Output.configureOut maxPath path true w = .ok (opened path w) := by
  have hstep : File.step maxPath w.files (.open path true) = .ok ⟨[some (some 0)], 1, [.opened 0 path]⟩ := by
    rw [hf]
    simp only [File.step, File.openFile, File.pathFor_ok maxPath hm path hl h0, Outcome.bind_ok, if_true]
    rfl
  simp only [Output.configureOut, Output.assignWriter, hstep, Outcome.bind_ok, hh]
  rw [hf]
  rfl

theorem endRun_eq {maxPath : Nat} {path : Text} {w : Output.State} {texts : List Text} :
    Output.endRun maxPath { opened path w with files :=
        { (opened path w).files with calls := (opened path w).files.calls ++ texts.map (.written 0) } } =
      .ok { opened path w with
        files := ⟨[none, none], 1, [.opened 0 path] ++ texts.map (.written 0) ++ [.closed 0]⟩, held := none } := by
  have ho : (⟨[none, some (some 0)], 1, [.opened 0 path] ++ texts.map (.written 0)⟩ : File.World).isOpen 0 = true := by
    simp [File.World.isOpen, File.Call.opens, File.Call.closes]
  simp only [opened, Output.endRun, File.step, File.World.at, List.getElem?_cons_succ, List.getElem?_cons_zero,
    Option.join_some, File.close, ho, if_true, Outcome.bind_ok, Outcome.pure_eq]
  rfl

/-! ## The settings -/

theorem verbosityOfRun_eq (p : Program) (ts : List Token) :
    Props.verbosityOfRun (p.reporters.map (·.1)) (init p) (config p) ts = verbosityIn p ts := by
  obtain ⟨asked, ha⟩ : ∃ asked, asked = (verbosityOf (given "--verbosity" ts)).getD p.verbosity := ⟨_, rfl⟩
  have hk : ∀ k, kindFor p ts = k → verbosityIn p ts = if k = .console then asked else max 2 asked := by
    rintro k rfl
    rw [ha]
    rfl
  unfold Props.verbosityOfRun
  rw [show (config p).reporter = none from rfl, show (config p).verbosity = p.verbosity from rfl, ← ha, Option.map_none,
    Option.or_none]
  cases hc : Configure.Spec.choice (p.reporters.map (·.1)) (given "--reporter" ts) with
  | none => rw [hk .console (by unfold kindFor; rw [hc])]; rfl
  | some i =>
    rcases h : p.reporters[i]? with _ | ⟨n, k⟩
    · rw [hk .console (by unfold kindFor; rw [hc]; dsimp only; rw [h])]
      dsimp only [init]
      rw [h]
      rfl
    · rw [hk k (by unfold kindFor; rw [hc]; dsimp only; rw [h])]
      dsimp only [init]
      rw [h]
      dsimp only
      cases k
      · rfl
      · show (if asked < 2 then 2 else asked) = max 2 asked
        split <;> omega
      · show (if asked < 2 then 2 else asked) = max 2 asked
        split <;> omega

theorem receiving_verbosity (k : Kind) (name : Text) : ∀ (calls : List (Text × Text)) (s : Configure.Settings Unit),
    (Props.receiving (k.reporter name) calls s).verbosity = s.verbosity
  | [], _ => rfl
  | c :: cs, s => by
    have h : ((k.reporter name).configure c.1 c.2 s).1.verbosity = s.verbosity := by
      cases k with
      | console =>
        simp only [Kind.reporter, Configure.console]
        split
        · unfold Configure.color; repeat' split
          all_goals rfl
        · split
          · unfold Configure.colourMode; repeat' split
            all_goals rfl
          · rfl
      | teamcity => rfl
      | xml => rfl
    rw [← h]
    exact receiving_verbosity k name cs _

theorem value_given {maxArgs : Nat} {dflt color : Bool} {argv0 : Text} {argv : List Text} (hlen : argv.length ≤ maxArgs)
    {msgs : List Cli.Msg} {input : Cli.Input} (hp : Cli.parseArguments maxArgs dflt argv0 argv = .ok (color, msgs, some input))
    {ts : List Token} (hts : tokens argv = some ts) (name : String) (hn : name.toList ≠ []) :
    Props.valueOf input name = given name ts := by
  obtain ⟨ts', ht', hl, _⟩ := Props.C31_lookup hlen hp
  rw [hts] at ht'
  cases ht'
  rw [given, ← hl _ hn, Props.valueOf]
  cases Cli.getOption input name.toList <;> rfl

/-- The reporters, with what they do when settings are made. -/
def reporters (p : Program) : List (Configure.Reporter Unit) := p.reporters.map fun r => r.2.reporter r.1

theorem reporters_names (p : Program) : (reporters p).map (·.name) = p.reporters.map (·.1) := by
  rw [reporters, List.map_map]
  apply List.map_congr_left
  intro r _
  rcases r with ⟨n, k⟩
  cases k <;> rfl

theorem reporters_printable {p : Program} (h : 19 ≤ p.rl.message) : ∀ r ∈ reporters p, Configure.Printable p.rl.message r := by
  intro r hr
  obtain ⟨⟨n, k⟩, _, rfl⟩ := List.mem_map.mp hr
  cases k
  · exact (Props.C70_built_in h n).1
  · exact (Props.C70_built_in h n).2
  · exact (Props.C70_built_in h n).2

/-- The output after the settings have been made. -/
def ready (p : Program) (ts : List Token) (w : Output.State) : Output.State :=
  match given "--out" ts with
  | none => onScreen (settled p ts).2.2 w
  | some path => opened path (onScreen (settled p ts).2.2 w)

/-- Making the settings. -/
theorem prepare_eq {p : Program} (hr : Roomy p) {opens : Text → Bool} {color : Bool} {argv0 : Text} {argv : List Text}
    (hlen : argv.length ≤ p.maxArgs) {msgs : List Cli.Msg} {input : Cli.Input}
    (hp : Cli.parseArguments p.maxArgs p.color argv0 argv = .ok (color, msgs, some input))
    {ts : List Token} (hts : tokens argv = some ts) (ho : Writable p.maxPath opens ts) {w : Output.State}
    (hf : w.files = {}) (hh : w.held = none) :
    ∃ st config', prepare p opens input w = .ok (st, ready p ts w) ∧ st.settings = (settled p ts).1 ∧
      st.reporter = Configure.Spec.choice (p.reporters.map (·.1)) (given "--reporter" ts) ∧
      Cli.configure (p.reporters.map (·.1)) input (config p) = .ok config' ∧
      Reg.verbosityFor (init p) config' = st.settings.verbosity := by
  have h19 : 19 ≤ p.rl.message := by have := hr.version; omega
  have hv := Props.C32_values_present hlen hp
  have hval := value_given hlen hp hts
  obtain ⟨calls, e1, e2⟩ := Props.C70_configure hr.message h19 (reporters_printable h19) hv
    ({ settings := ⟨p.color, p.verbosity, ()⟩ } : Configure.State Unit)
  obtain ⟨c', st', f1, f2, f3, f4⟩ := Props.C70_agrees (reporters p) hv (config p)
    ({ settings := ⟨p.color, p.verbosity, ()⟩ } : Configure.State Unit) rfl rfl rfl
  have f5 := Props.C70_choice hv f1
  rw [reporters_names] at f1 f5
  rw [e1] at f2
  cases f2
  rw [hval _ (by decide), hval _ (by decide), hval _ (by decide), hval _ (by decide), hval _ (by decide)] at e1 e2 f4
  rw [hval _ (by decide)] at f5
  have hs : Configure.configure (reporters p) input { settings := ⟨p.color, p.verbosity, ()⟩ } =
      .ok ⟨(settled p ts).1, given "--out" ts, (settled p ts).2.1, calls⟩ := by
    rw [e1]
    simp only [Option.or_none, List.nil_append]
    rfl
  have hb : Configure.sayEach p.rl.message calls = .ok (settled p ts).2.2 := e2
  have hrep : (settled p ts).2.1 = Configure.Spec.choice (p.reporters.map (·.1)) (given "--reporter" ts) ∧
      Reg.verbosityFor (init p) c' = (settled p ts).1.verbosity := by
    have f4 : (c'.reporter = none ∧ (settled p ts).2.1 = none ∧ (settled p ts).1 = ⟨c'.withColor, c'.verbosity, ()⟩) ∨
        ∃ i r calls, c'.reporter = some (i, calls) ∧ (reporters p)[i]? = some r ∧ (settled p ts).2.1 = some i ∧
        (settled p ts).1 = Props.receiving r calls (r.prepare ⟨c'.withColor, c'.verbosity, ()⟩) := by
      simp only [Option.or_none] at f4
      exact f4
    rw [show (config p).reporter = none from rfl, Option.map_none, Option.or_none] at f5
    unfold Reg.verbosityFor
    rcases f4 with ⟨a, b, c⟩ | ⟨i, r, calls', a, b, c, d⟩
    · rw [← f5, a, b, c]
      exact ⟨rfl, rfl⟩
    · rw [← f5, a, c, d]
      refine ⟨rfl, ?_⟩
      rw [reporters, List.getElem?_map] at b
      dsimp only [init]
      rcases h : p.reporters[i]? with _ | ⟨n, k⟩
      · rw [h] at b; cases b
      · rw [h] at b
        cases b
        rw [receiving_verbosity]
        cases k <;> rfl
  refine ⟨⟨(settled p ts).1, given "--out" ts, (settled p ts).2.1, calls⟩, c', ?_, rfl, hrep.1, f1, hrep.2⟩
  rw [prepare, show (p.reporters.map fun r => r.2.reporter r.1) = reporters p from rfl, hs, Outcome.bind_ok]
  dsimp only
  rw [hb, Outcome.bind_ok, ready]
  cases hg : given "--out" ts with
  | none => rfl
  | some path =>
    obtain ⟨g1, g2, g3⟩ := ho path hg
    dsimp only
    rw [g1, configureOut_eq (w := onScreen (settled p ts).2.2 w) hr.path g2 g3 hf hh]
    rfl

theorem kindOf_eq {p : Program} (ts : List Token) :
    kindOf p (Configure.Spec.choice (p.reporters.map (·.1)) (given "--reporter" ts)) = .ok (kindFor p ts) := by
  unfold kindOf kindFor
  cases hc : Configure.Spec.choice (p.reporters.map (·.1)) (given "--reporter" ts) with
  | none => rfl
  | some i =>
    dsimp only
    have hi : i < p.reporters.length := by
      unfold Configure.Spec.choice at hc
      split at hc
      · cases hc
      · split at hc
        · cases hc
        · split at hc
          · rename_i hm
            cases hc
            simpa using List.idxOf_lt_length_of_mem hm
          · cases hc
    rw [List.getElem?_eq_getElem hi]

/-! ## The whole program -/

/-- The file cannot be opened: the program ends in the assertion handler. -/
theorem prepare_abort {p : Program} (hr : Roomy p) {opens : Text → Bool} {color : Bool} {argv0 : Text} {argv : List Text}
    (hlen : argv.length ≤ p.maxArgs) {msgs : List Cli.Msg} {input : Cli.Input}
    (hp : Cli.parseArguments p.maxArgs p.color argv0 argv = .ok (color, msgs, some input))
    {ts : List Token} (hts : tokens argv = some ts) {path : Text} (hg : given "--out" ts = some path)
    (ho : File.openFile p.maxPath {} path (opens path) = .abort) {w : Output.State} (hf : w.files = {}) :
    prepare p opens input w = .abort := by
  have h19 : 19 ≤ p.rl.message := by have := hr.version; omega
  have hv := Props.C32_values_present hlen hp
  have hval := value_given hlen hp hts
  obtain ⟨calls, e1, e2⟩ := Props.C70_configure hr.message h19 (reporters_printable h19) hv
    ({ settings := ⟨p.color, p.verbosity, ()⟩ } : Configure.State Unit)
  rw [hval _ (by decide), hval _ (by decide), hval _ (by decide), hval _ (by decide), hval _ (by decide)] at e1 e2
  have hs : Configure.configure (reporters p) input { settings := ⟨p.color, p.verbosity, ()⟩ } =
      .ok ⟨(settled p ts).1, given "--out" ts, (settled p ts).2.1, calls⟩ := by
    rw [e1]
    simp only [Option.or_none, List.nil_append]
    rfl
  have hb : Configure.sayEach p.rl.message calls = .ok (settled p ts).2.2 := e2
  rw [prepare, show (p.reporters.map fun r => r.2.reporter r.1) = reporters p from rfl, hs, Outcome.bind_ok]
  dsimp only
  rw [hb, Outcome.bind_ok, hg]
  have hstep : File.step p.maxPath w.files (.open path (opens path)) = .abort := by
    rw [hf]; exact ho
  simp only [Output.configureOut, Output.assignWriter, onScreen, hstep]
  rfl

variable [Run.MessageLimit]

/-- The output when the tests are about to run. -/
def start (p : Program) (argv : List Text) (ts : List Token) : Output.State :=
  ready p ts (onScreen ((complaints [] argv).flatMap (complaintLine p.rl.message (earlyColor p ts))) {})

/-- A command line that is not refused: what the program does is what the model of events says, put out. -/
theorem main_eq {p : Program} (hr : Roomy p) {fuel : Nat} {opens : Text → Bool} {argv0 : Text} {argv : List Text}
    (hlen : argv.length ≤ p.maxArgs) {ts : List Token} (hts : tokens argv = some ts) (hn : (optionNames ts).Nodup)
    (ho : Writable p.maxPath opens ts) {code : Nat} {out : List Events.Out}
    (hm : Events.main p.src p.lim fuel p.maxArgs (p.reporters.map (·.1)) (init p) (config p) argv0 argv p.cases =
      some (.ok (code, out))) :
    main p fuel opens argv0 argv = some (do
      let w ← put p (settled p ts).1.withColor (Cli.extractExecutable argv0) out (kindFor p ts).new (start p argv ts)
      let w ← Output.endRun p.maxPath w
      return (code, w)) := by
  obtain ⟨msgs, r, hp, hw, hpr⟩ := Props.C61_printed (maxArgs := p.maxArgs) hr.message hr.version p.color argv0 hlen
  obtain ⟨input, rfl⟩ := Option.isSome_iff_exists.mp (hw.mpr ⟨ts, hts, hn⟩)
  have hcol : colorFor p.color argv = earlyColor p ts := by
    rw [Props.C51_color_while_parsing hlen hp, value_given hlen hp hts _ (by decide), value_given hlen hp hts _ (by decide)]
    rfl
  have hexe : input.executable = Cli.extractExecutable argv0 := by
    obtain ⟨_, _, _, hp', _, hi⟩ := Props.C31_parse (maxArgs := p.maxArgs) p.color argv0 hlen
    rw [hp] at hp'
    cases hp'
    obtain ⟨_, _, _, _, h⟩ := hi input rfl
    exact h
  obtain ⟨st, config', g1, g2, g3, g4, g5⟩ := prepare_eq hr (opens := opens) hlen hp hts ho
    (w := onScreen ((complaints [] argv).flatMap (complaintLine p.rl.message (earlyColor p ts))) {}) rfl rfl
  rw [Option.isSome_some, if_pos rfl, List.append_nil, hcol] at hpr
  unfold Events.main at hm
  rw [show (config p).withColor = p.color from rfl, hp] at hm
  simp only [g4, g5] at hm
  unfold main
  rw [hpr]
  simp only [g1]
  cases hrun : Events.runTests p.src { p.lim with cfg := { p.lim.cfg with verbosity := st.settings.verbosity } } fuel
      (p.reporters.map (·.1)) input p.cases with
  | none => rw [hrun] at hm; cases hm
  | some o =>
    rw [hrun] at hm
    cases o with
    | abort => cases hm
    | ub => cases hm
    | ok x =>
      obtain ⟨cases', out', success⟩ := x
      rw [Option.map_some] at hm
      cases hm
      dsimp only
      rw [finish, g3, kindOf_eq, Outcome.bind_ok, g2, hexe]
      rfl

/-- Only events: they are in the report. -/
theorem main_events {p : Program} (hr : Roomy p) {fuel : Nat} {opens : Text → Bool} {argv0 : Text} {argv : List Text}
    (hlen : argv.length ≤ p.maxArgs) {ts : List Token} (hts : tokens argv = some ts) (hn : (optionNames ts).Nodup)
    (ho : Writable p.maxPath opens ts) {code : Nat} {es : List Events.Event}
    (hm : Events.main p.src p.lim fuel p.maxArgs (p.reporters.map (·.1)) (init p) (config p) argv0 argv p.cases =
      some (.ok (code, es.map .event))) {d : Device}
    (hd : reportAll p.rl (settled p ts).1.withColor es (kindFor p ts).new = .ok d) :
    ∃ w, main p fuel opens argv0 argv = some (.ok (code, w)) ∧ Delivered p argv ts d.out w := by
  have hnew : (kindFor p ts).new.out = [] := by cases kindFor p ts <;> rfl
  rw [main_eq hr hlen hts hn ho hm]
  unfold start ready Delivered remarks
  cases hg : given "--out" ts with
  | none =>
    obtain ⟨texts, h1, h2⟩ := put_screen (name := Cli.extractExecutable argv0) (w := onScreen (settled p ts).2.2 (onScreen
      ((complaints [] argv).flatMap (complaintLine p.rl.message (earlyColor p ts))) {})) hd rfl
    dsimp only
    rw [h1, Outcome.bind_ok]
    refine ⟨_, rfl, ?_, ?_, rfl⟩
    · intro x hx
      simp [onScreen] at hx
      rcases hx with rfl | rfl | ⟨a, _, rfl⟩ <;> rfl
    · rw [h2, hnew]
      simp [onScreen, List.append_assoc, Function.comp_def]
  | some path =>
    obtain ⟨texts, h1, h2⟩ := put_file (name := Cli.extractExecutable argv0) (i := 1) (f := 0) (w := opened path
      (onScreen (settled p ts).2.2 (onScreen
      ((complaints [] argv).flatMap (complaintLine p.rl.message (earlyColor p ts))) {}))) hd rfl rfl rfl rfl
    dsimp only
    rw [h1, Outcome.bind_ok, endRun_eq]
    refine ⟨_, rfl, ?_, ?_, texts, rfl, ?_⟩
    · intro x hx
      simp [onScreen, opened] at hx
      rcases hx with rfl | rfl <;> rfl
    · simp [onScreen, opened]
    · rw [h2, hnew, List.nil_append]

/-- Only lines: they are on the standard output. -/
theorem main_lines {p : Program} (hr : Roomy p) {fuel : Nat} {opens : Text → Bool} {argv0 : Text} {argv : List Text}
    (hlen : argv.length ≤ p.maxArgs) {ts : List Token} (hts : tokens argv = some ts) (hn : (optionNames ts).Nodup)
    (ho : Writable p.maxPath opens ts) {code : Nat} {lines : List Text}
    (hm : Events.main p.src p.lim fuel p.maxArgs (p.reporters.map (·.1)) (init p) (config p) argv0 argv p.cases =
      some (.ok (code, lines.map .line))) :
    ∃ w, main p fuel opens argv0 argv = some (.ok (code, w)) ∧
      Announced p argv ts (lines.flatMap fun l => Verif.Spec.cut p.rl.message (l ++ "\n".toList)) w := by
  rw [main_eq hr hlen hts hn ho hm, put_lines hr.message, Outcome.bind_ok]
  unfold start ready Announced remarks
  cases hg : given "--out" ts with
  | none =>
    refine ⟨_, rfl, ?_, ?_, rfl⟩
    · intro x hx
      simp [onScreen] at hx
      rcases hx with rfl | rfl | ⟨a, _, rfl⟩ <;> rfl
    · simp [onScreen, List.append_assoc, Function.comp_def, List.flatMap_def]
  | some path =>
    dsimp only
    have he := fun w => endRun_eq (maxPath := p.maxPath) (path := path) (w := w) (texts := [])
    simp only [List.map_nil, List.append_nil] at he
    refine ⟨_, rfl, ?_, ?_, [], rfl, rfl⟩
    · intro x hx
      simp [onScreen, opened] at hx
      rcases hx with rfl | rfl | ⟨a, _, rfl⟩ <;> rfl
    · simp [onScreen, opened, List.append_assoc, Function.comp_def, List.flatMap_def]

/-- The help text is on the standard output. -/
theorem main_help {p : Program} (hr : Roomy p) {fuel : Nat} {opens : Text → Bool} {argv0 : Text} {argv : List Text}
    (hlen : argv.length ≤ p.maxArgs) {ts : List Token} (hts : tokens argv = some ts) (hn : (optionNames ts).Nodup)
    (ho : Writable p.maxPath opens ts) {code : Nat}
    (hm : Events.main p.src p.lim fuel p.maxArgs (p.reporters.map (·.1)) (init p) (config p) argv0 argv p.cases =
      some (.ok (code, [.help]))) :
    ∃ w, main p fuel opens argv0 argv = some (.ok (code, w)) ∧ Announced p argv ts
      (helpText p.rl.message (settled p ts).1.withColor p.rl.version (Cli.extractExecutable argv0)) w := by
  rw [main_eq hr hlen hts hn ho hm, put, Props.C61_help hr.message _ _ hr.version, Outcome.bind_ok, put, Outcome.bind_ok]
  unfold start ready Announced remarks
  cases hg : given "--out" ts with
  | none =>
    refine ⟨_, rfl, ?_, ?_, rfl⟩
    · intro x hx
      simp [onScreen] at hx
      rcases hx with rfl | rfl | rfl <;> rfl
    · simp [onScreen, List.append_assoc]
  | some path =>
    dsimp only
    refine ⟨_, rfl, ?_, ?_, [], rfl, rfl⟩
    · intro x hx
      simp [onScreen, opened] at hx
      rcases hx with rfl | rfl | rfl <;> rfl
    · simp [onScreen, opened, List.append_assoc]

/-- A command line that is refused. -/
theorem main_refused {p : Program} (hr : Roomy p) (fuel : Nat) (opens : Text → Bool) (argv0 : Text) {argv : List Text}
    (hlen : argv.length ≤ p.maxArgs) (hw : ¬ WellFormed argv) :
    ∃ w, main p fuel opens argv0 argv = some (.ok (1, w)) ∧
      Shows w ((complaints [] argv).flatMap (complaintLine p.rl.message (colorFor p.color argv)) ++
        ("\n".toList ++ helpText p.rl.message (colorFor p.color argv) p.rl.version argv0)) none := by
  obtain ⟨msgs, r, hp, hw', hpr⟩ := Props.C61_printed (maxArgs := p.maxArgs) hr.message hr.version p.color argv0 hlen
  cases r with
  | some r => exact absurd (hw'.mp rfl) hw
  | none =>
    refine ⟨onScreen _ {}, by unfold main; rw [hpr], ?_, ?_, rfl⟩
    · intro x hx
      simp [onScreen] at hx
      rw [hx]
    · simp [onScreen]

/-- The file asked for cannot be opened. -/
theorem main_unwritable {p : Program} (hr : Roomy p) (fuel : Nat) {opens : Text → Bool} (argv0 : Text) {argv : List Text}
    (hlen : argv.length ≤ p.maxArgs) {ts : List Token} (hts : tokens argv = some ts) (hn : (optionNames ts).Nodup)
    {path : Text} (hg : given "--out" ts = some path)
    (ho : File.openFile p.maxPath {} path (opens path) = .abort) :
    main p fuel opens argv0 argv = some .abort := by
  obtain ⟨msgs, r, hp, hw, hpr⟩ := Props.C61_printed (maxArgs := p.maxArgs) hr.message hr.version p.color argv0 hlen
  obtain ⟨input, rfl⟩ := Option.isSome_iff_exists.mp (hw.mpr ⟨ts, hts, hn⟩)
  unfold main
  rw [hpr]
  dsimp only
  rw [prepare_abort hr hlen hp hts hg ho rfl]

end Verif.Whole
