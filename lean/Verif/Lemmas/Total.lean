import Verif.Lemmas.XmlLevel
import Verif.Lemmas.Listing
import Verif.Spec.Telling
/-!
# The reporters always come to an end, whatever the texts
-/
namespace Verif.Report
open Verif

/-- The call returns. -/
def Returns {α : Type} (o : Outcome α) : Prop := ∃ a, o = .ok a

theorem Returns.ok {α : Type} (a : α) : Returns (.ok a) := ⟨a, rfl⟩

theorem Returns.pure {α : Type} (a : α) : Returns (pure a : Outcome α) := ⟨a, rfl⟩

theorem Returns.bind {α β : Type} {o : Outcome α} {f : α → Outcome β} (h : Returns o) (hf : ∀ a, Returns (f a)) :
    Returns (o >>= f) := by
  obtain ⟨a, rfl⟩ := h
  exact hf a

theorem makeNumber_returns {n : Nat} (h : n < 2 ^ 64) : Returns (makeNumber 32 n) := ⟨_, makeNumber_eq h⟩

theorem print_returns {cap : Nat} (h : cap < 2 ^ 64) (args : List Print.Arg) : Returns (Print.print cap args) := by
  obtain ⟨chunks, e, _⟩ := Print.print_eq (cap := cap) h args
  exact ⟨chunks, e⟩

variable {lim : Limits}

theorem fullName_returns (h : lim.name + 3 < 2 ^ 64) (id : Id) : ∃ v s, fullName lim id = .ok v ∧ v.Holds lim.name s := by
  obtain ⟨v, e, hv⟩ := Append.variadic_holds false (show lim.name < sizeT by rw [sizeT_eq]; omega)
    (if id.type.length ≠ 0 then [id.name, " <".toList, id.type, ">".toList] else [id.name])
    (SV.holds_empty lim.name ' ')
  unfold fullName
  rw [e, Outcome.bind_ok]
  exact ⟨v, _, rfl, hv⟩

namespace Console

theorem say_returns (h : lim.message < 2 ^ 64) (args : List Print.Arg) (st : State) : Returns (say lim args st) :=
  (print_returns h args).bind fun _ => .pure _

theorem printSections_returns (h : lim.message < 2 ^ 64) (color : Bool) : ∀ (ss : List SectionId) (st : State),
    Returns (printSections lim color ss st)
  | [], st => .ok st
  | _ :: ss, st => (say_returns h _ st).bind fun st => printSections_returns h color ss st

theorem printCaptures_returns (h : lim.message < 2 ^ 64) (color : Bool) : ∀ (cs : List Text) (st : State),
    Returns (printCaptures lim color cs st)
  | [], st => .ok st
  | _ :: ss, st => (say_returns h _ st).bind fun st => printCaptures_returns h color ss st

theorem printType_returns (h : lim.message < 2 ^ 64) (color : Bool) (id : Id) (st : State) :
    Returns (printType lim color id st) := by
  unfold printType
  split
  · exact .ok _
  · exact say_returns h _ st

theorem printLocation_returns (h : lim.message < 2 ^ 64) (color : Bool) (id : Id) {place : Place} (hl : place.loc.line < 2 ^ 64)
    (st : State) : Returns (printLocation lim color id place st) := by
  unfold printLocation
  refine (say_returns h _ st).bind fun st => ?_
  refine (printSections_returns h color _ st).bind fun st => ?_
  refine (makeNumber_returns hl).bind fun n => ?_
  refine (say_returns h _ st).bind fun st => ?_
  refine (printType_returns h color id st).bind fun st => ?_
  exact printCaptures_returns h color _ st

theorem printActual_returns (h : lim.message < 2 ^ 64) (color : Bool) (type expected actual : Text) (st : State) :
    Returns (printActual lim color type expected actual st) := by
  unfold printActual
  split
  · exact .ok _
  · split
    · exact say_returns h _ st
    · exact say_returns h _ st

theorem printMessage_returns (h : lim.message + 3 < 2 ^ 64) (color : Bool) (data : Data) (st : State) :
    Returns (printMessage lim color data st) := by
  have h' : lim.message < 2 ^ 64 := by omega
  cases data with
  | message m => exact say_returns h' _ st
  | expression type expected actual =>
    obtain ⟨v, e, hv⟩ := Util.appendOrTruncate_holds false (SV.holds_empty lim.message ' ') h
      [type, "(".toList, expected, ")".toList]
    unfold printMessage
    dsimp only
    rw [e, Outcome.bind_ok]
    exact (say_returns h' _ st).bind fun st => printActual_returns h' color type expected actual st

theorem num_returns {n : Nat} (h : n < 2 ^ 64) : Returns (num n) := (makeNumber_returns h).bind fun _ => .pure _

/-- The numbers told by an event can be printed. Lists of tests are left out. -/
def Small : Event → Prop
  | .runEnded _ run fail skip asserts _ => run < 2 ^ 64 ∧ fail < 2 ^ 64 ∧ skip < 2 ^ 64 ∧ asserts < 2 ^ 64
  | .caseStarted _ loc => loc.line < 2 ^ 64
  | .sectionStarted _ loc => loc.line < 2 ^ 64
  | .caseSkipped _ place _ => place.loc.line < 2 ^ 64
  | .assertionFailed _ place _ _ _ => place.loc.line < 2 ^ 64
  | .assertionSucceeded _ place _ => place.loc.line < 2 ^ 64
  | .listStarted | .listEnded | .listed _ => False
  | _ => True

theorem report_returns (h : lim.message + 3 < 2 ^ 64) (hn : lim.name + 3 < 2 ^ 64) (color : Bool) {e : Event} (hs : Small e)
    (st : State) : Returns (report lim color st e) := by
  have h' : lim.message < 2 ^ 64 := by omega
  cases e with
  | runStarted name => exact (say_returns h' _ st).bind fun _ => .pure _
  | runEnded success run fail skip asserts duration =>
    obtain ⟨s1, s2, s3, s4⟩ := hs
    unfold report printTotals
    refine Returns.bind ?_ fun st => ?_
    · unfold printVerdict
      split
      · unfold printSuccess
        refine (num_returns s1).bind fun _ => (num_returns s4).bind fun _ => say_returns h' _ _
      · unfold printError
        refine (num_returns s2).bind fun _ => (num_returns s1).bind fun _ => (num_returns s4).bind fun _ => say_returns h' _ _
    refine Returns.bind ?_ fun st => ?_
    · unfold printSkips
      split
      · exact (num_returns s3).bind fun _ => say_returns h' _ _
      · exact .ok _
    refine Returns.bind ?_ fun st => ?_
    · unfold printSeconds
      split
      · exact say_returns h' _ _
      · exact .ok _
    · exact .pure _
  | caseStarted id loc =>
    obtain ⟨v, s, e, -⟩ := fullName_returns hn id
    unfold report
    dsimp only
    rw [e, Outcome.bind_ok]
    exact (num_returns hs).bind fun _ => say_returns h' _ st
  | caseEnded id duration =>
    obtain ⟨v, s, e, -⟩ := fullName_returns hn id
    unfold report printFinished
    dsimp only
    rw [e, Outcome.bind_ok]
    split
    · exact say_returns h' _ st
    · exact say_returns h' _ st
  | sectionStarted id loc => exact (num_returns hs).bind fun _ => say_returns h' _ st
  | sectionEnded id => exact say_returns h' _ st
  | caseSkipped id place message =>
    exact (say_returns h' _ st).bind fun st => (printLocation_returns h' color id hs st).bind fun st => say_returns h' _ st
  | assertionFailed id place data expected allowed =>
    exact (say_returns h' _ st).bind fun st => (printLocation_returns h' color id hs st).bind fun st =>
      printMessage_returns h color data st
  | assertionSucceeded id place data =>
    exact (say_returns h' _ st).bind fun st => (printLocation_returns h' color id hs st).bind fun st =>
      printMessage_returns h color data st
  | listStarted => exact hs.elim
  | listEnded => exact hs.elim
  | listed id => exact hs.elim

theorem reportAll_returns (h : lim.message + 3 < 2 ^ 64) (hn : lim.name + 3 < 2 ^ 64) (color : Bool) : ∀ (es : List Event),
    (∀ e ∈ es, Small e) → ∀ st : State, Returns (reportAll lim color es st)
  | [], _, st => .ok st
  | e :: es, hs, st => (report_returns h hn color (hs e (by simp)) st).bind fun st =>
      reportAll_returns h hn color es (fun x hx => hs x (by simp [hx])) st

theorem say_counter (h : lim.message < 2 ^ 64) (args : List Print.Arg) (st : State) :
    ∃ st', say lim args st = .ok st' ∧ st'.counter = st.counter := by
  obtain ⟨chunks, e⟩ := print_returns h args
  unfold say
  rw [e, Outcome.bind_ok]
  exact ⟨_, rfl, rfl⟩

theorem listed_returns (h : lim.message + 3 < 2 ^ 64) (hn : lim.name + 3 < 2 ^ 64) (color : Bool) : ∀ (ids : List Id) (st : State),
    st.counter < 2 ^ 64 → Returns (reportAll lim color (ids.map .listed ++ [.listEnded]) st)
  | [], st, hc => ((num_returns hc).bind fun _ => say_returns (by omega) _ st).bind fun _ => .ok _
  | id :: ids, st, hc => by
    have h' : lim.message < 2 ^ 64 := by omega
    obtain ⟨v, s, e, -⟩ := fullName_returns hn id
    have hone : ∃ st', printListed lim id st = .ok st' ∧ st'.counter < 2 ^ 64 := by
      have hm : (st.counter + 1) % sizeT < 2 ^ 64 := Nat.mod_lt _ (by decide)
      unfold printListed
      rw [e, Outcome.bind_ok]
      dsimp only
      obtain ⟨st1, e1, h1⟩ := say_counter h' [str "  ", .str v.contents, str "\n"]
        { st with counter := (st.counter + 1) % sizeT }
      rw [e1, Outcome.bind_ok]
      split
      · exact ⟨st1, rfl, by rw [h1]; exact hm⟩
      · obtain ⟨st2, e2, h2⟩ := say_counter h' [str "      ", .str id.tags, str "\n"] st1
        exact ⟨st2, e2, by rw [h2, h1]; exact hm⟩
    obtain ⟨st', e', hc'⟩ := hone
    show Returns (printListed lim id st >>= fun st => reportAll lim color (ids.map .listed ++ [.listEnded]) st)
    rw [e', Outcome.bind_ok]
    exact listed_returns h hn color ids st' hc'

end Console

namespace TeamCity

theorem say_returns (h : lim.message < 2 ^ 64) (args : List Text) (rep : Rep) : Returns (say lim args rep) :=
  (print_returns h _).bind fun _ => .pure _

theorem escape_returns {cap : Nat} (hcap : cap + 3 < 2 ^ 64) {v : Str} {s : Text} (hv : v.Holds cap s) :
    Returns (escapeStages stages v) := by
  obtain ⟨v', s', b, e', -⟩ := Xml.escapeStages_total hcap [('|', "||".toList), ('\'', "|'".toList), ('\n', "|n".toList),
    ('\r', "|r".toList), ('[', "|[".toList), (']', "|]".toList)] (by decide) hv
  exact ⟨_, e'⟩

theorem makeEscaped_returns {cap : Nat} (hcap : cap + 3 < 2 ^ 64) (s : Text) : Returns (makeEscaped cap s) := by
  obtain ⟨v, e, hv⟩ := Util.appendOrTruncate_holds false (SV.holds_empty cap ' ') hcap [s]
  unfold makeEscaped
  rw [e, Outcome.bind_ok]
  exact (escape_returns hcap hv).bind fun _ => .pure _

theorem makeFullName_returns (h : lim.name + 3 < 2 ^ 64) (id : Id) : Returns (makeFullName lim id) := by
  obtain ⟨v, s, e, hv⟩ := fullName_returns h id
  unfold makeFullName
  rw [e, Outcome.bind_ok]
  exact (escape_returns h hv).bind fun _ => .pure _

theorem filtersLoop_returns {cap : Nat} (hcap : cap + 3 < 2 ^ 64) : ∀ (fs : List Text) {v : Str} {s : Text}, v.Holds cap s →
    ∃ v' s', filtersLoop fs v = .ok v' ∧ v'.Holds cap s'
  | [], v, s, hv => ⟨v, s, rfl, hv⟩
  | f :: fs, v, s, hv => by
    obtain ⟨v1, e, hv1⟩ := Util.appendOrTruncate_holds false hv hcap [" \"".toList, f, "\"".toList]
    obtain ⟨v2, s2, e2, hv2⟩ := filtersLoop_returns hcap fs hv1
    exact ⟨v2, s2, by rw [filtersLoop, e, Outcome.bind_ok]; exact e2, hv2⟩

theorem makeSuiteName_returns (h : lim.message + 3 < 2 ^ 64) (app : Text) (filters : List Text) :
    Returns (makeSuiteName lim app filters) := by
  obtain ⟨v, e, hv⟩ := Util.appendOrTruncate_holds false (SV.holds_empty lim.message ' ') h [app]
  obtain ⟨v2, s2, e2, hv2⟩ := filtersLoop_returns h filters hv
  unfold makeSuiteName
  rw [e, Outcome.bind_ok]
  dsimp only
  rw [e2, Outcome.bind_ok]
  exact (escape_returns h hv2).bind fun _ => .pure _

theorem printCaptures_returns (h : lim.message + 3 < 2 ^ 64) : ∀ (cs : List Text) (rep : Rep),
    Returns (printCaptures lim cs rep)
  | [], rep => .ok rep
  | c :: cs, rep => (makeEscaped_returns h c).bind fun _ => (say_returns (by omega) _ rep).bind fun rep =>
      printCaptures_returns h cs rep

theorem printData_returns (h : lim.message + 3 < 2 ^ 64) (data : Data) (rep : Rep) : Returns (printData lim data rep) := by
  have h' : lim.message < 2 ^ 64 := by omega
  cases data with
  | message m => exact (makeEscaped_returns h m).bind fun _ => say_returns h' _ rep
  | expression type expected actual =>
    refine (makeEscaped_returns h expected).bind fun _ => (say_returns h' _ rep).bind fun rep => ?_
    unfold printActual
    split
    · split
      · exact (makeEscaped_returns h actual).bind fun _ => say_returns h' _ rep
      · exact (makeEscaped_returns h actual).bind fun _ => say_returns h' _ rep
    · exact .pure _

theorem printAssertion_returns (h : lim.message + 3 < 2 ^ 64) {loc : Location} (hl : loc.line < 2 ^ 64) (captures : List Text)
    (data : Data) (rep : Rep) : Returns (printAssertion lim loc captures data rep) := by
  have h' : lim.message < 2 ^ 64 := by omega
  unfold printAssertion
  refine Returns.bind ?_ fun rep => ?_
  · unfold printLocation
    exact (makeEscaped_returns h loc.file).bind fun _ => (makeNumber_returns hl).bind fun _ => (print_returns h' _).bind fun _ =>
      .pure _
  · exact (printCaptures_returns h captures rep).bind fun rep => printData_returns h data rep

/-- The value can be printed. -/
def ValueSmall : Value → Prop
  | .text _ => True
  | .assertion loc _ _ => loc.line < 2 ^ 64

theorem sendArgs_returns (h : lim.message + 3 < 2 ^ 64) : ∀ (args : List (Text × Value)), (∀ a ∈ args, ValueSmall a.2) →
    ∀ rep : Rep, Returns (sendArgs lim args rep)
  | [], _, rep => .ok rep
  | (key, value) :: args, hs, rep => by
    have h' : lim.message < 2 ^ 64 := by omega
    unfold sendArgs
    have hv := hs (key, value) (by simp)
    have hrest := sendArgs_returns h args (fun a ha => hs a (by simp [ha]))
    refine (say_returns h' _ rep).bind fun rep => ?_
    cases value with
    | text s => exact (say_returns h' _ rep).bind hrest
    | assertion loc captures data => exact (printAssertion_returns h hv captures data rep).bind hrest

theorem sendMessage_returns (h : lim.message + 3 < 2 ^ 64) (message : Text) {args : List (Text × Value)}
    (hs : ∀ a ∈ args, ValueSmall a.2) (rep : Rep) : Returns (sendMessage lim message args rep) :=
  (say_returns (by omega) _ rep).bind fun rep => (sendArgs_returns h args hs rep).bind fun _ => .pure _

/-- The numbers told by an event can be printed. -/
def Small : Event → Prop
  | .caseEnded _ _ _ _ micros => micros < 2 ^ 64
  | .assertionFailed _ _ loc _ _ _ => loc.line < 2 ^ 64
  | .assertionSucceeded _ _ loc _ => loc.line < 2 ^ 64
  | .caseSkipped _ _ loc _ => loc.line < 2 ^ 64
  | _ => True

theorem report_returns (h : lim.message + 3 < 2 ^ 64) (hn : lim.name + 3 < 2 ^ 64) {e : Event} (hs : Small e)
    (rep : Rep) : Returns (report lim rep e) := by
  have h' : lim.message < 2 ^ 64 := by omega
  cases e with
  | runStarted name filters =>
    exact (makeSuiteName_returns h name filters).bind fun _ => sendMessage_returns h _ (by simp [ValueSmall]) rep
  | runEnded name filters _ _ _ _ _ =>
    exact (makeSuiteName_returns h name filters).bind fun _ => sendMessage_returns h _ (by simp [ValueSmall]) rep
  | caseStarted id loc =>
    exact (makeFullName_returns hn id).bind fun _ => sendMessage_returns h _ (by simp [ValueSmall]) rep
  | caseEnded id _ _ _ micros =>
    unfold report
    refine (makeFullName_returns hn id).bind fun name => ?_
    unfold finishedArgs makeDuration
    obtain ⟨n, hnum⟩ := makeNumber_returns hs
    rw [hnum]
    split
    · exact sendMessage_returns h _ (by simp [ValueSmall]) rep
    · exact sendMessage_returns h _ (by simp [ValueSmall]) rep
  | sectionStarted id loc => exact sendMessage_returns h _ (by simp [ValueSmall]) rep
  | sectionEnded id _ _ _ _ => exact sendMessage_returns h _ (by simp [ValueSmall]) rep
  | caseSkipped id captures loc message =>
    have hl : loc.line < 2 ^ 64 := hs
    exact (makeFullName_returns hn id).bind fun _ => sendMessage_returns h _ (by simpa [ValueSmall] using hl) rep
  | assertionFailed id captures loc data expected allowed =>
    have hl : loc.line < 2 ^ 64 := hs
    exact (makeFullName_returns hn id).bind fun _ => sendMessage_returns h _ (by simpa [ValueSmall] using hl) rep
  | assertionSucceeded id captures loc data =>
    have hl : loc.line < 2 ^ 64 := hs
    exact (makeFullName_returns hn id).bind fun _ => sendMessage_returns h _ (by simpa [ValueSmall] using hl) rep
  | listStarted _ _ => exact .ok _
  | listEnded _ _ => exact .ok _
  | listed id _ => exact (makeFullName_returns hn id).bind fun _ => say_returns h' _ rep

theorem reportAll_returns (h : lim.message + 3 < 2 ^ 64) (hn : lim.name + 3 < 2 ^ 64) : ∀ (es : List Event),
    (∀ e ∈ es, Small e) → ∀ rep : Rep, Returns (reportAll lim es rep)
  | [], _, rep => .ok rep
  | e :: es, hs, rep => (report_returns h hn (hs e (by simp)) rep).bind fun rep =>
      reportAll_returns h hn es (fun x hx => hs x (by simp [hx])) rep

end TeamCity
end Verif.Report

namespace Verif.Whole
open Verif Verif.Report Verif.Whole.Spec

/-- The numbers in an event can be printed. -/
def Small (e : Events.Event) : Prop :=
  Console.Small e.console ∧ TeamCity.Small e.report ∧ Report.Spec.SizesOk e.report

/-- Whatever the texts, the reporter comes to an end. -/
theorem run_returns {rl : Limits} (h : rl.message + 3 < 2 ^ 64) (hn : rl.name + 3 < 2 ^ 64) (color : Bool) (k : Kind)
    {es : List Events.Event} (hs : ∀ e ∈ es, Small e) : Returns (reportAll rl color es k.new) := by
  cases k with
  | console =>
    rw [Kind.new, reportAll_console]
    exact (Console.reportAll_returns h hn color _ (by simpa using fun e he => (hs e he).1) _).bind fun _ => .ok _
  | teamcity =>
    rw [Kind.new, reportAll_teamcity]
    exact (TeamCity.reportAll_returns h hn _ (by simpa using fun e he => (hs e he).2.1) _).bind fun _ => .ok _
  | xml =>
    rw [Kind.new, reportAll_xml]
    obtain ⟨rep, e, -⟩ := Xml.reportAll_lvl h hn (es.map Events.Event.report) {} (by decide)
      (by simpa using fun e he => (hs e he).2.2)
    rw [e, Outcome.bind_ok]
    exact .ok _

/-- The same for lists of tests. -/
theorem list_returns {rl : Limits} (h : rl.message + 3 < 2 ^ 64) (hn : rl.name + 3 < 2 ^ 64) (color : Bool) (k : Kind)
    {tests : List (Id × Location)} (hs : ∀ t ∈ tests, t.2.line < 2 ^ 64) :
    Returns (reportAll rl color (listEvents tests) k.new) := by
  cases k with
  | console =>
    rw [Kind.new, reportAll_console, show (listEvents tests).map Events.Event.console =
        [.listStarted] ++ ((tests.map (·.1)).map .listed ++ [.listEnded]) by
      simp [listEvents, Events.Event.console, Function.comp_def]]
    refine Returns.bind ?_ fun _ => .ok _
    exact Console.listed_returns h hn color (tests.map (·.1))
      { Report.Console.say1 "Matching test cases:\n".toList {} with counter := 0 } (Nat.two_pow_pos 64)
  | teamcity =>
    rw [Kind.new, reportAll_teamcity]
    refine (TeamCity.reportAll_returns h hn _ ?_ _).bind fun _ => .ok _
    intro e he
    obtain ⟨e', he', rfl⟩ := List.mem_map.1 he
    simp only [listEvents, List.mem_cons, List.mem_append, List.mem_map, List.not_mem_nil, or_false] at he'
    rcases he' with (rfl | ⟨t, _, rfl⟩) | rfl <;> trivial
  | xml =>
    rw [Kind.new, reportAll_xml]
    obtain ⟨rep, e, -⟩ := Xml.reportAll_lvl h hn ((listEvents tests).map Events.Event.report) {} (by decide) (by
      intro e he
      obtain ⟨e', he', rfl⟩ := List.mem_map.1 he
      simp only [listEvents, List.mem_cons, List.mem_append, List.mem_map, List.not_mem_nil, or_false] at he'
      rcases he' with (rfl | ⟨t, ht, rfl⟩) | rfl
      · trivial
      · exact hs t ht
      · trivial)
    rw [e, Outcome.bind_ok]
    exact .ok _

end Verif.Whole
