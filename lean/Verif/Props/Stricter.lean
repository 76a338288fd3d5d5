import Verif.Lemmas.Stricter
import Verif.Props.Infos
import Verif.Props.Program
/-!
# C100: `REQUIRE` in place of `CHECK`
-/
namespace Verif.Props
open Verif.Run Verif.Run.Spec Verif.Reg Verif.Reg.Spec

/-- **C100**. Replacing any number of `CHECK...` in a test by `REQUIRE...` does not change the verdict (if both tests end): neither from
success to failure nor from failure to success, nor to or from allowed failures and skips. -/
theorem C100_verdict [Run.MessageLimit] {cfg : Cfg} {fuel fuel' : Nat} {t u : TestCase} (h : StricterTest t u) {x y : TS}
    (hx : run cfg fuel t = some (.ok x)) (hy : run cfg fuel' u = some (.ok y)) : x.state = y.state := by
  have key : ∀ {t : TestCase} {fuel : Nat} {x : TS}, run cfg fuel t = some (.ok x) →
      ∃ x', run (full cfg) fuel t = some (.ok x') ∧ x.state = x'.state := by
    intro t fuel x hx
    rw [run_hide] at hx
    cases ho : run (full cfg) fuel t with
    | none => rw [ho] at hx; cases hx
    | some o =>
      rw [ho] at hx
      cases o with
      | abort => cases hx
      | ub => cases hx
      | ok x' => cases hx; exact ⟨x', rfl, rfl⟩
  obtain ⟨x', hx', ex⟩ := key hx
  obtain ⟨y', hy', ey⟩ := key hy
  rw [ex, ey]
  rcases Stricter.run_related h hx' hy' with hb | hb
  · exact (Neutral.like_iff.mp hb.kept).2.2.2.2.2.2.2.2.2.2.2.1
  · exact hb.1

/-- **C100**. What is told (with full verbosity): either the same, with the same numbers of assertions and failures; or the same up to the
first failure of a check that was replaced, which is told in both; or the test had been skipped with `SKIP_CHECK` before. -/
theorem C100_told [Run.MessageLimit] {cfg : Cfg} (hv : cfg.verbosity = 3) {fuel fuel' : Nat} {t u : TestCase} (h : StricterTest t u)
    {x y : TS} (hx : run cfg fuel t = some (.ok x)) (hy : run cfg fuel' u = some (.ok y)) :
    (x.asserts = y.asserts ∧ x.failures = y.failures ∧ x.allowed = y.allowed ∧ x.log.filterMap essence = y.log.filterMap essence) ∨
    Forked (x.log.filterMap essence) (y.log.filterMap essence) ∨ (x.state = .skipped ∧ y.state = .skipped) := by
  rw [← full_full hv] at hx hy
  rcases Stricter.run_related h hx hy with hb | ⟨hs, hb | hb⟩
  · have h1 := Neutral.like_iff.mp hb.kept
    have h2 := Neutral.like_iff.mp hb.counted
    rw [Neutral.ess_true] at h1
    exact .inl ⟨congrArg Prod.snd h2.2.2.2.2.1, h1.2.2.2.2.2.2.1, h1.2.2.2.2.2.2.2.1, h1.2.2.2.2.2.2.2.2.2.2.2.2⟩
  · exact .inr (.inr ⟨hb, hs ▸ hb⟩)
  · exact .inr (.inl hb)

private theorem forall₂_mem {α β : Type} {R : α → β → Prop} {l : List α} {l' : List β} (h : List.Forall₂ R l l') :
    ∀ a ∈ l, ∃ b ∈ l', R a b := by
  induction h with
  | nil => intro a ha; cases ha
  | cons h _ ih =>
    intro a ha
    rcases List.mem_cons.mp ha with rfl | ha
    · exact ⟨_, List.mem_cons_self, h⟩
    · obtain ⟨b, hb, hr⟩ := ih a ha
      exact ⟨b, List.mem_cons_of_mem _ hb, hr⟩

/-- A test that keeps within the limits does so with `REQUIRE` too. -/
theorem sound_stricter {lim : Limits} {fuel : Nat} {t u : TestCase} {ts : List Text} (h : StricterTest t u) (hs : Sound lim fuel t ts)
    (hu : Always Tidy u.body) : Sound lim fuel u ts := by
  have key : ∀ {p q : Prog}, Stricter p q → secDepth q = secDepth p ∧ capDepth q = capDepth p ∧ sections q = sections p ∧
      leaves q = leaves p := by
    intro p q hpq
    induction hpq <;> simp_all [secDepth, capDepth, sections, leaves]
  refine ⟨?_, ?_, hu, fun n => ?_, fun n => ?_, fun n => ?_, ?_⟩
  · have := hs.name
    unfold Registrable at this ⊢
    rw [h.id]
    exact this
  · rw [h.id]
    exact hs.tags
  · have h1 := hs.alike n
    have h0 := (key (h.body 0)).2.2.1
    have hn := (key (h.body n)).2.2.1
    show sections _ = sections (u.body.no 0)
    rw [hn, h0]
    exact h1
  · show secDepth _ ≤ _
    rw [(key (h.body n)).1]
    exact hs.sections n
  · show capDepth _ ≤ _
    rw [(key (h.body n)).2.1]
    exact hs.captures n
  · show max 1 (leaves (u.body.no 0)) ≤ _
    rw [(key (h.body 0)).2.2.2]
    exact hs.fuel

/-- **C100**. Tests that are written as documented do end, with the same verdict. -/
theorem C100_sound [Run.MessageLimit] {lim : Limits} {fuel : Nat} {t u : TestCase} {ts : List Text} (h : StricterTest t u)
    (hs : Sound lim fuel t ts) (hu : Always Tidy u.body) :
    ∃ x y, run lim.cfg fuel t = some (.ok x) ∧ run lim.cfg fuel u = some (.ok y) ∧ x.state = y.state := by
  have hs' := sound_stricter h hs hu
  obtain ⟨x, hx, _⟩ := C67_verdict hs.alike hs.sections hs.captures hs.tags hs.tidy hs.fuel
  obtain ⟨y, hy, _⟩ := C67_verdict hs'.alike hs'.sections hs'.captures hs'.tags hs'.tidy hs'.fuel
  exact ⟨x, y, hx, hy, C100_verdict h hx hy⟩

/-- **C100**. For a whole program of such tests, with any well-formed command line that asks for a run: the same exit status. -/
theorem C100_program [Run.MessageLimit] {lim : Limits} {fuel maxArgs : Nat} (reporters : List Text) (init : Nat → Nat → Nat)
    (config : Cli.Config) (argv0 : Text) {argv : List Text} {cs ds : List Case} (hlen : argv.length ≤ maxArgs)
    (h : List.Forall₂ (fun c d : Case => StricterTest c.test d.test) cs ds) (tags : Filter.TestId → List Text)
    (hcs : ∀ c ∈ cs, Sound lim fuel c.test (tags c.test.id)) (hds : ∀ d ∈ ds, Always Tidy d.test.body)
    {ts : List Cli.Spec.Token} (hts : Cli.Spec.tokens argv = some ts) (hn : (Cli.Spec.optionNames ts).Nodup)
    (hno : ∀ l ∈ listing, l ∉ Cli.Spec.optionNames ts) :
    ∃ code out out', main lim fuel maxArgs reporters init config argv0 argv cs = some (.ok (code, out)) ∧
      main lim fuel maxArgs reporters init config argv0 argv ds = some (.ok (code, out')) := by
  have hsound : ∀ d ∈ ds, Sound lim fuel d.test (tags d.test.id) := by
    intro d hd
    obtain ⟨c, hc, hcd⟩ := forall₂_mem h.flip d hd
    rw [hcd.id]
    exact sound_stricter hcd (hcs c hc) (hds d hd)
  obtain ⟨code, out, sel, v, h1, h2, h3, h4, _⟩ := C67_program (lim := lim) (fuel := fuel) (maxArgs := maxArgs) reporters init config argv0
    hlen (fun c => tags c.test.id) hcs hts hn hno
  obtain ⟨code', out', sel', v', g1, g2, g3, g4, _⟩ := C67_program (lim := lim) (fuel := fuel) (maxArgs := maxArgs) reporters init config
    argv0 hlen (fun c => tags c.test.id) hsound hts hn hno
  have hv : ∀ {c d : Case}, StricterTest c.test d.test → Sound lim fuel c.test (tags c.test.id) → Sound lim fuel d.test (tags d.test.id) →
      verdictOf c.test (tags c.test.id) = verdictOf d.test (tags d.test.id) := by
    intro c d hcd hs hs'
    obtain ⟨x, hx, ex, _⟩ := C67_verdict hs.alike hs.sections hs.captures hs.tags hs.tidy hs.fuel
    obtain ⟨y, hy, ey, _⟩ := C67_verdict hs'.alike hs'.sections hs'.captures hs'.tags hs'.tidy hs'.fuel
    rw [← ex, ← ey]
    exact C100_verdict hcd hx hy
  have hiff : code = 0 ↔ code' = 0 := by
    rw [h4, g4]
    constructor
    · intro hh d hd hsel
      obtain ⟨c, hc, hcd⟩ := forall₂_mem h.flip d hd
      have := (g2 d hd).mp hsel
      rw [hcd.id] at this
      have := hh c hc ((h2 c hc).mpr this)
      rwa [hv hcd (hcs c hc) (hsound d hd)] at this
    · intro hh c hc hsel
      obtain ⟨d, hd, hcd⟩ := forall₂_mem h c hc
      have := (h2 c hc).mp hsel
      rw [← hcd.id] at this
      have := hh d hd ((g2 d hd).mpr this)
      rwa [← hv hcd (hcs c hc) (hsound d hd)] at this
  have hcode : code' = code := by
    rcases h3 with rfl | rfl <;> rcases g3 with rfl | rfl <;> simp_all
  exact ⟨code, out, out', h1, by rw [← hcode]; exact g1⟩

/-! ## The hypotheses can be met -/

/-- `CHECK(a); SECTION(1) { user 10; CHECK(b); user 11; } SECTION(2) { CHECK_THROWS_AS(f(), e); user 20; }`, where `a` holds and `b` does
not. -/
def withChecks : Prog :=
  .stmt (.check 2 (.val true) false "CHECK(a)".toList)
    (.sec 1 3 (.stmt (.act 10) (.stmt (.check 4 (.val false) false "CHECK(b)".toList) (.stmt (.act 11) .done)))
      (.sec 2 5 (.stmt (.throwsAs 6 (some ⟨[7], none, false⟩) 7 "e".toList false) (.stmt (.act 20) .done)) .done))

/-- The same with `REQUIRE(a)`, `REQUIRE(b)` and `REQUIRE_THROWS_AS(f(), e)`. -/
def withRequires : Prog :=
  .stmt (.check 2 (.val true) true "REQUIRE(a)".toList)
    (.sec 1 3 (.stmt (.act 10) (.stmt (.check 4 (.val false) true "REQUIRE(b)".toList) (.stmt (.act 11) .done)))
      (.sec 2 5 (.stmt (.throwsAs 6 (some ⟨[7], none, false⟩) 7 "e".toList true) (.stmt (.act 20) .done)) .done))

theorem withRequires_stricter : Stricter withChecks withRequires :=
  .stmt .check (.sec (.stmt .same (.stmt .check (.stmt .same .done))) (.sec (.stmt .throwsAs (.stmt .same .done)) .done))

theorem stricter_one {name tags : String} {p q : Prog} (h : Stricter p q) : StricterTest (mkTest name tags p) (mkTest name tags q) :=
  ⟨rfl, rfl, fun n => by cases n <;> exact h⟩

/-- The conditions can be met. -/
example : StricterTest (mkTest "t" "" withChecks) (mkTest "t" "" withRequires) ∧
    Sound (defaultLimits 3) 2 (mkTest "t" "" withChecks) [] ∧ Always Tidy (mkTest "t" "" withRequires).body := by
  have h1 : Tidy withChecks := by simp [Tidy, withChecks]
  have h2 : Tidy withRequires := by simp [Tidy, withRequires]
  refine ⟨stricter_one withRequires_stricter, sound_same rfl ?_ ?_ h1 (by decide) (by decide) (by decide), always_one h2⟩
  · decide
  · exact ⟨rfl, by simp, by simp⟩

/-- A command line that asks for a run. -/
example : ∃ ts, Cli.Spec.tokens ["-v".toList, "quiet".toList, "t".toList] = some ts ∧ (Cli.Spec.optionNames ts).Nodup ∧
    ∀ l ∈ listing, l ∉ Cli.Spec.optionNames ts := ⟨_, rfl, by decide, by decide⟩

/-- What the user's code does and the verdict. -/
def actsIn (o : Option (Outcome TS)) : Option (List Nat × CaseState) :=
  match o with
  | some (.ok s) => some (userActs s.log, s.state)
  | _ => none

open Defaults in
/-- In the example the first test executes more of the user's code, and both fail. -/
example : actsIn (run (defaults 3) 2 (mkTest "t" "" withChecks)) = some ([10, 11, 20], .failed) ∧
    actsIn (run (defaults 3) 2 (mkTest "t" "" withRequires)) = some ([10], .failed) := by decide +kernel

/-! ## What may change -/

open Defaults in
/-- **C100**. That both tests end has to be asked for: `REQUIRE` in place of `CHECK` in a destructor ends the program when it fails. -/
theorem C100_destructor :
    (∃ x, run (defaults 3) 1 (plain (.guard (.stmt (.check 2 (.val false) false []) .done) .done)) = some (.ok x) ∧ x.state = .failed) ∧
    run (defaults 3) 1 (plain (.guard (.stmt (.check 2 (.val false) true []) .done) .done)) = some .abort :=
  ⟨⟨_, rfl, by decide⟩, rfl⟩

end Verif.Props
