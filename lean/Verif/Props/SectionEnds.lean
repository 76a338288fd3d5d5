import Verif.Lemmas.SectionEnds
import Verif.Lemmas.SectionOnce
import Verif.Props.Sections
/-!
# C81, C82: what the ends of sections tell, and where assertions are told
-/
namespace Verif.Props
open Verif Verif.Run Verif.Run.Spec Verif.Filter

/-! ## C81 -/

/-- **C81** (what the ends tell). At verbosity high or full, the end events of sections come in the order of the last exits,
and each tells the section, whether the test has been skipped, and the numbers of assertions, failures, and expected or allowed
failures **since the section was entered for the last time**. At lower verbosity there are none. -/
theorem C81_last_execution [Run.MessageLimit] {cfg : Cfg} {t : TestCase} {tags : List ParsedTag} (hf : Fits cfg t tags)
    (ht : Always Tidy t.body) {fuel : Nat} (hfuel : passCount t.body.first ≤ fuel) :
    ∃ s, run cfg fuel t = some (.ok s) ∧ sectionEnds s.log = if 2 ≤ cfg.verbosity then
      (lefts [] [] (caseStory t (tags.contains .shouldFail))).map
        (Left.told (tags.contains .mayFail || tags.contains .shouldFail)) else [] := by
  obtain ⟨s, hs, _⟩ := C19_meaning hf ht hfuel
  exact ⟨s, hs, run_ends ht hf.alike hf.sections hf.captures hf.tags hs⟩

/-- **C81** (partial: missing are bodies in which a section contains two leaf sections, where the claim is false). If each section
is executed once, its end tells all assertions and failures in it. -/
theorem C81_counts_partial [Run.MessageLimit] {cfg : Cfg} {t : TestCase} {tags : List ParsedTag} (hf : Fits cfg t tags)
    (ht : Always Tidy t.body) (ho : Always Once t.body) (hn : (sectionIds t.body.first).Nodup) {fuel : Nat} (hfuel : passCount t.body.first ≤ fuel) :
    ∃ s, run cfg fuel t = some (.ok s) ∧
      EndsTellAll (tags.contains .mayFail || tags.contains .shouldFail) (caseStory t (tags.contains .shouldFail)) s.log := by
  obtain ⟨s, hs, he⟩ := C81_last_execution hf ht hfuel
  refine ⟨s, hs, ?_⟩
  intro e hm
  rw [he] at hm
  split at hm
  · obtain ⟨x, hx, rfl⟩ := List.mem_map.1 hm
    rw [told_all (lefts_all ht hf.alike ho hn _ x hx)]
  · cases hm

/-- A section with a section in it, checks in both, and another section; one check fails. -/
def onceBody : Prog :=
  .stmt (.check 1 (.val true) false []) (.sec 10 100 (.stmt (.check 2 (.val true) false [])
    (.sec 11 101 (.stmt (.check 3 (.val false) false []) .done) (.stmt (.check 4 (.val true) false []) .done)))
    (.sec 12 102 (.stmt (.check 5 (.val true) false []) .done) .done))

open Defaults in
example : Fits (defaults 2) (plain onceBody) [] ∧ Tidy onceBody ∧ Once onceBody ∧ (sectionIds onceBody).Nodup ∧
    (lefts [] [] (caseStory (plain onceBody) false)).map (Left.told false) =
      [(11, false, 1, 1, 0), (10, false, 3, 1, 0), (12, false, 1, 0, 0)] := by
  refine ⟨plain_fits (by decide) (by decide), ?_, ?_, by decide, by decide⟩
  · simp [onceBody, Tidy]
  · simp [onceBody, Once, leaves]

/-- A section containing two: a check in the first fails, one in the second does not. -/
def twiceBody : Prog :=
  .sec 10 100 (.sec 11 101 (.stmt (.check 1 (.val false) false []) .done)
    (.sec 12 102 (.stmt (.check 2 (.val true) false []) .done) .done)) .done

open Defaults in
/-- **C81** (violated). The end of a section executed twice says that nothing failed in it, although a check in it did: a new
counter is started at each entry. -/
theorem C81_counts_lost : ∃ s, run (defaults 2) 2 (plain twiceBody) = some (.ok s) ∧
    sectionEnds s.log = [(11, false, 1, 1, 0), (12, false, 1, 0, 0), (10, false, 1, 0, 0)] ∧
    allOf false 10 (caseStory (plain twiceBody) false) = (2, 1, 0) ∧
    ¬ EndsTellAll false (caseStory (plain twiceBody) false) s.log := by
  refine ⟨_, rfl, by decide, by decide, ?_⟩
  intro h
  have := h (10, false, 1, 0, 0) (by decide)
  revert this
  decide

/-! ## C82 -/

/-- **C82** (partial: told may be more sections than those the assertion is in). At verbosity high or full, every assertion and
every skip is told while all sections it is in are open, in that order, outermost first. -/
theorem C82_inside_partial [Run.MessageLimit] {cfg : Cfg} {t : TestCase} {tags : List ParsedTag} (hf : Fits cfg t tags)
    (ht : Always Tidy t.body) (hv : 2 ≤ cfg.verbosity) {fuel : Nat} (hfuel : passCount t.body.first ≤ fuel) :
    ∃ s, run cfg fuel t = some (.ok s) ∧ ToldInside (fun path opened => path <+: opened) [] s.log := by
  obtain ⟨s, hs, hlog⟩ := C19_meaning hf ht hfuel
  exact ⟨s, hs, told_of_items hv hlog fun x hx => told_places ht hf.alike x hx⟩

/-- **C82** (partial: missing are bodies in which a section contains two leaf sections, where the claim is false). If each section
is executed once, every assertion and every skip is told while exactly the sections it is in are open. -/
theorem C82_exactly_partial [Run.MessageLimit] {cfg : Cfg} {t : TestCase} {tags : List ParsedTag} (hf : Fits cfg t tags)
    (ht : Always Tidy t.body) (ho : Always Once t.body) (hv : 2 ≤ cfg.verbosity) {fuel : Nat} (hfuel : passCount t.body.first ≤ fuel) :
    ∃ s, run cfg fuel t = some (.ok s) ∧ ToldInside Eq [] s.log := by
  obtain ⟨s, hs, hlog⟩ := C19_meaning hf ht hfuel
  exact ⟨s, hs, told_of_items hv hlog fun x hx => exact_told ht ho x hx⟩

open Defaults in
example : ∃ s, run (defaults 2) 2 (plain onceBody) = some (.ok s) ∧ ToldInside Eq [] s.log :=
  C82_exactly_partial (plain_fits (by decide) (by decide)) (plain_always (by simp [onceBody, Tidy]))
    (plain_always (by simp [onceBody, Once, leaves])) (by decide) (by decide)

/-- A check before a section that contains two. -/
def beforeBody : Prog :=
  .stmt (.check 1 (.val false) false []) (.sec 10 100 (.sec 11 101 (.stmt (.act 1) .done) (.sec 12 102 (.stmt (.act 2) .done) .done))
    .done)

open Defaults in
/-- **C82** (violated). The second time, the check that is in no section is told between the start and the end of a section. -/
theorem C82_told_in_other_section : ∃ s, run (defaults 2) 2 (plain beforeBody) = some (.ok s) ∧
    ToldInside (fun path opened => path <+: opened) [] s.log ∧ ¬ ToldInside Eq [] s.log ∧
    ∃ ctx d, ctx.path = [] ∧ s.log.drop 2 = [.sectionStarted 10, .sectionStarted 11, .user 1, .sectionEnded 11 false 0 0 0,
      .assertionFailed ctx d false false, .sectionStarted 12, .user 2, .sectionEnded 12 false 0 0 0,
      .sectionEnded 10 false 0 0 0, .caseEnded (plain beforeBody).id 3 2 0 .failed] := by
  refine ⟨_, rfl, ?_, ?_, { path := [], caps := [], loc := 1, locType := .exact }, [], rfl, rfl⟩
  · exact ⟨List.nil_prefix, List.nil_prefix, trivial⟩
  · intro h
    exact absurd (show ([] : List Nat) = [10] from h.2.1) (by decide)

end Verif.Props
