import Verif.Lemmas.Configure
import Verif.Props.Cli
/-!
# C70: what configuring says, and what reporters do to the settings
-/
namespace Verif.Props
open Verif Verif.Cli Verif.Cli.Spec Verif.Print Verif.Configure Verif.Configure.Spec

variable {σ : Type}

private theorem given {α : Type} {input : Input} {name : String}
    (h : ∀ a, getOption input name.toList = some a → a.value.isSome) (dflt : α) (f : Text → Outcome α) :
    (valueOf input name = none ∧ withValue (getOption input name.toList) dflt f = .ok dflt) ∨
    ∃ v, valueOf input name = some v ∧ withValue (getOption input name.toList) dflt f = f v := by
  unfold valueOf
  cases ho : getOption input name.toList with
  | none => exact .inl ⟨rfl, rfl⟩
  | some a =>
    obtain ⟨v, hv⟩ := Option.isSome_iff_exists.mp (h a ho)
    exact .inr ⟨v, hv, by simp [withValue, hv]⟩

private theorem mode_eq {cap : Nat} (hcap : cap + 3 < sizeT) (h : 19 ≤ cap) (v : Text) (s : Settings σ) :
    (colourMode v s).1 = ⟨(asks "ansi" "none" (some v)).getD s.withColor, s.verbosity, s.own⟩ ∧
    (colourMode v s).2.2 = (asks "ansi" "none" (some v)).isSome ∧
    sayEach cap (colourMode v s).2.1 = .ok (directive cap s.withColor "ansi" "none" (some v)) := by
  unfold colourMode asks directive
  simp only [Option.some.injEq, List.mem_cons, List.not_mem_nil, or_false]
  by_cases h1 : v = "ansi".toList
  · simp only [h1, if_true, true_or]; exact ⟨rfl, rfl, rfl⟩
  · by_cases h2 : v = "none".toList
    · subst h2; exact ⟨rfl, rfl, rfl⟩
    · by_cases h3 : v = "default".toList
      · subst h3; exact ⟨rfl, rfl, rfl⟩
      · simp only [h1, h2, h3, if_false, or_self]
        exact ⟨rfl, rfl, sayEach_one (say_warning hcap h _ (allStr1 _)
          (flat1 _ " unknown color directive; please use one of ansi|default|none" (by decide)))⟩

private theorem color_eq {cap : Nat} (hcap : cap + 3 < sizeT) (h : 19 ≤ cap) (v : Text) (s : Settings σ) :
    (color v s).1 = ⟨(asks "always" "never" (some v)).getD s.withColor, s.verbosity, s.own⟩ ∧
    (color v s).2.2 = (asks "always" "never" (some v)).isSome ∧
    sayEach cap (color v s).2.1 = .ok (directive cap s.withColor "always" "never" (some v)) := by
  unfold color asks directive
  simp only [Option.some.injEq, List.mem_cons, List.not_mem_nil, or_false]
  by_cases h1 : v = "always".toList
  · simp only [h1, if_true, true_or]; exact ⟨rfl, rfl, rfl⟩
  · by_cases h2 : v = "never".toList
    · subst h2; exact ⟨rfl, rfl, rfl⟩
    · by_cases h3 : v = "default".toList
      · subst h3; exact ⟨rfl, rfl, rfl⟩
      · simp only [h1, h2, h3, if_false, or_self]
        exact ⟨rfl, rfl, sayEach_one (say_warning hcap h _ (allStr1 _)
          (flat1 _ " unknown color directive; please use one of always|default|never" (by decide)))⟩

private theorem level_eq {cap : Nat} (hcap : cap + 3 < sizeT) (h : 19 ≤ cap) (v : Text) (s : Settings σ) :
    (verbosity v s).1 = ⟨s.withColor, (verbosityOf (some v)).getD s.verbosity, s.own⟩ ∧
    sayEach cap (verbosity v s).2 = .ok (levelWarning cap s.withColor (some v)) := by
  unfold verbosity verbosityOf levelWarning
  simp only [List.mem_cons, List.not_mem_nil, or_false]
  by_cases h1 : v = "quiet".toList
  · subst h1; exact ⟨rfl, rfl⟩
  · by_cases h2 : v = "normal".toList
    · subst h2; exact ⟨rfl, rfl⟩
    · by_cases h3 : v = "high".toList
      · subst h3; exact ⟨rfl, rfl⟩
      · by_cases h4 : v = "full".toList
        · subst h4; exact ⟨rfl, rfl⟩
        · simp only [h1, h2, h3, h4, if_false, or_self]
          exact ⟨rfl, sayEach_one (say_warning hcap h _ (allStr1 _) (flat1 _ _ (by decide)))⟩

/-- **C70**. Whatever the command line and the reporters, configuring succeeds; settings, output file and reporter are
what the values given ask for (`configured`), and exactly the warnings about them are printed. -/
theorem C70_configure {cap : Nat} (hcap : cap + 3 < sizeT) (h : 19 ≤ cap) {rs : List (Reporter σ)}
    (hr : ∀ r ∈ rs, Printable cap r) {input : Input} (hv : ValuesPresent input) (st : State σ) :
    ∃ calls, configure rs input st =
      .ok ⟨(configured cap rs (valueOf input "--colour-mode") (valueOf input "--color") (valueOf input "--verbosity")
          (valueOf input "--out") (valueOf input "--reporter") st.settings).1,
        (valueOf input "--out").or st.out,
        (configured cap rs (valueOf input "--colour-mode") (valueOf input "--color") (valueOf input "--verbosity")
          (valueOf input "--out") (valueOf input "--reporter") st.settings).2.1.or st.reporter,
        st.said ++ calls⟩ ∧
      sayEach cap calls =
        .ok (configured cap rs (valueOf input "--colour-mode") (valueOf input "--color") (valueOf input "--verbosity")
          (valueOf input "--out") (valueOf input "--reporter") st.settings).2.2 := by
  obtain ⟨⟨c0, v0, own⟩, out0, rep0, said0⟩ := st
  unfold configured
  dsimp only
  -- the first colour option
  obtain ⟨k1, e1, s1⟩ : ∃ k1, withValue (getOption input "--colour-mode".toList)
      ((⟨⟨c0, v0, own⟩, out0, rep0, said0⟩ : State σ), false) (fun v =>
        .ok (⟨(colourMode v (⟨c0, v0, own⟩ : Settings σ)).1, out0, rep0,
          said0 ++ (colourMode v (⟨c0, v0, own⟩ : Settings σ)).2.1⟩,
          (colourMode v (⟨c0, v0, own⟩ : Settings σ)).2.2)) =
        .ok (⟨⟨(asks "ansi" "none" (valueOf input "--colour-mode")).getD c0, v0, own⟩, out0, rep0, said0 ++ k1⟩,
          (asks "ansi" "none" (valueOf input "--colour-mode")).isSome) ∧
      sayEach cap k1 = .ok (directive cap c0 "ansi" "none" (valueOf input "--colour-mode")) := by
    rcases given (hv "--colour-mode" (by simp)) _ _ with ⟨a, b⟩ | ⟨v, a, b⟩
    · exact ⟨[], b.trans (by rw [a, List.append_nil]; rfl), by rw [a]; rfl⟩
    · obtain ⟨x, y, z⟩ := mode_eq hcap h v (⟨c0, v0, own⟩ : Settings σ)
      exact ⟨_, b.trans (by rw [a, x, y]), by rw [a]; exact z⟩
  generalize hm : asks "ansi" "none" (valueOf input "--colour-mode") = m at *
  -- the second
  obtain ⟨k2, e2, s2⟩ : ∃ k2, withValue (getOption input "--color".toList)
      ((⟨⟨m.getD c0, v0, own⟩, out0, rep0, said0 ++ k1⟩ : State σ), m.isSome) (fun v =>
        .ok (⟨(color v (⟨m.getD c0, v0, own⟩ : Settings σ)).1, out0, rep0,
          (said0 ++ k1) ++ (color v (⟨m.getD c0, v0, own⟩ : Settings σ)).2.1⟩,
          (color v (⟨m.getD c0, v0, own⟩ : Settings σ)).2.2 || m.isSome)) =
        .ok (⟨⟨(asks "always" "never" (valueOf input "--color")).getD (m.getD c0), v0, own⟩, out0, rep0,
          said0 ++ (k1 ++ k2)⟩, (asks "always" "never" (valueOf input "--color")).isSome || m.isSome) ∧
      sayEach cap k2 = .ok (directive cap (m.getD c0) "always" "never" (valueOf input "--color")) := by
    rcases given (hv "--color" (by simp)) _ _ with ⟨a, b⟩ | ⟨v, a, b⟩
    · exact ⟨[], b.trans (by rw [a, List.append_nil]; rfl), by rw [a]; rfl⟩
    · obtain ⟨x, y, z⟩ := color_eq hcap h v (⟨m.getD c0, v0, own⟩ : Settings σ)
      exact ⟨_, b.trans (by rw [a, x, y, List.append_assoc]), by rw [a]; exact z⟩
  generalize hc : asks "always" "never" (valueOf input "--color") = c at *
  -- the verbosity
  obtain ⟨k3, e3, s3⟩ : ∃ k3, withValue (getOption input "--verbosity".toList)
      (⟨⟨c.getD (m.getD c0), v0, own⟩, out0, rep0, said0 ++ (k1 ++ k2)⟩ : State σ) (fun v =>
        .ok ⟨(verbosity v (⟨c.getD (m.getD c0), v0, own⟩ : Settings σ)).1, out0, rep0,
          (said0 ++ (k1 ++ k2)) ++ (verbosity v (⟨c.getD (m.getD c0), v0, own⟩ : Settings σ)).2⟩) =
        .ok ⟨⟨c.getD (m.getD c0), (verbosityOf (valueOf input "--verbosity")).getD v0, own⟩, out0, rep0,
          said0 ++ (k1 ++ k2 ++ k3)⟩ ∧
      sayEach cap k3 = .ok (levelWarning cap (c.getD (m.getD c0)) (valueOf input "--verbosity")) := by
    rcases given (hv "--verbosity" (by simp)) _ _ with ⟨a, b⟩ | ⟨v, a, b⟩
    · exact ⟨[], b.trans (by rw [a, List.append_nil]; rfl), by rw [a]; rfl⟩
    · obtain ⟨x, z⟩ := level_eq hcap h v (⟨c.getD (m.getD c0), v0, own⟩ : Settings σ)
      exact ⟨_, b.trans (by rw [a, x, List.append_assoc]), by rw [a]; exact z⟩
  generalize hl : (verbosityOf (valueOf input "--verbosity")).getD v0 = l at *
  -- the output
  have e4 : withValue (getOption input "--out".toList)
      (⟨⟨c.getD (m.getD c0), l, own⟩, out0, rep0, said0 ++ (k1 ++ k2 ++ k3)⟩ : State σ) (fun v =>
        .ok ⟨⟨if (c.isSome || m.isSome) = true then c.getD (m.getD c0) else false, l, own⟩, some v, rep0,
          said0 ++ (k1 ++ k2 ++ k3)⟩) =
        .ok ⟨⟨if (valueOf input "--out").isSome = true ∧ m = none ∧ c = none then false else c.getD (m.getD c0), l, own⟩,
          (valueOf input "--out").or out0, rep0, said0 ++ (k1 ++ k2 ++ k3)⟩ := by
    rcases given (hv "--out" (by simp)) _ _ with ⟨a, b⟩ | ⟨v, a, b⟩
    · exact b.trans (by rw [a]; simp)
    · exact b.trans (by rw [a]; cases m <;> cases c <;> simp)
  generalize (if (valueOf input "--out").isSome = true ∧ m = none ∧ c = none then false else c.getD (m.getD c0)) = c3 at *
  -- the reporter
  obtain ⟨k5, e5, s5⟩ : ∃ k5, withValue (getOption input "--reporter".toList)
      (⟨⟨c3, l, own⟩, (valueOf input "--out").or out0, rep0, said0 ++ (k1 ++ k2 ++ k3)⟩ : State σ) (fun v =>
        Configure.parseReporter rs v
          ⟨⟨c3, l, own⟩, (valueOf input "--out").or out0, rep0, said0 ++ (k1 ++ k2 ++ k3)⟩) =
        .ok ⟨(chosen cap rs (valueOf input "--reporter") ⟨c3, l, own⟩).1, (valueOf input "--out").or out0,
          (chosen cap rs (valueOf input "--reporter") ⟨c3, l, own⟩).2.1.or rep0, said0 ++ (k1 ++ k2 ++ k3 ++ k5)⟩ ∧
      sayEach cap k5 = .ok (chosen cap rs (valueOf input "--reporter") ⟨c3, l, own⟩).2.2 := by
    rcases given (hv "--reporter" (by simp)) _ _ with ⟨a, b⟩ | ⟨v, a, b⟩
    · exact ⟨[], b.trans (by rw [a, List.append_nil]; rfl), by rw [a]; rfl⟩
    · obtain ⟨calls, x, z⟩ := parseReporter_eq hcap h hr v
        (⟨⟨c3, l, own⟩, (valueOf input "--out").or out0, rep0, said0 ++ (k1 ++ k2 ++ k3)⟩ : State σ)
      exact ⟨calls, b.trans (by rw [a, x]; simp only [List.append_assoc]), by rw [a]; exact z⟩
  refine ⟨k1 ++ k2 ++ k3 ++ k5, ?_, sayEach_append (sayEach_append (sayEach_append s1 s2) s3) s5⟩
  unfold Configure.configure Configure.configureColor
  rw [e1, Outcome.bind_ok]
  dsimp only
  rw [e2, Outcome.bind_ok]
  dsimp only
  rw [e3, Outcome.bind_ok]
  dsimp only
  rw [e4, Outcome.bind_ok]
  exact e5

/-! ## The reporters that come with the framework -/

/-- **C70**. The reporters that come with the framework print only what can be printed. -/
theorem C70_built_in {cap : Nat} (h : 19 ≤ cap) (name : Text) :
    Printable cap (console name : Reporter σ) ∧ Printable cap (noOptions name : Reporter σ) := by
  have hw : ∀ (c : Bool) (t : String), Room cap 0 (warning c [str t]) := by
    intro c t
    have a2 : "warning:".toList.length = 8 := by decide
    rw [warning, warningColor]
    exact room_first (by decide) (by decide) (by omega) (allStr1 t)
  refine ⟨fun k v s m hm => ?_, fun k v s m hm => by cases hm⟩
  unfold console at hm
  dsimp only at hm
  split at hm
  · unfold color at hm
    split at hm
    · cases hm
    · split at hm
      · cases hm
      · split at hm
        · cases hm
        · rw [List.mem_singleton.mp hm]; exact hw _ _
  · split at hm
    · unfold colourMode at hm
      split at hm
      · cases hm
      · split at hm
        · cases hm
        · split at hm
          · cases hm
          · rw [List.mem_singleton.mp hm]; exact hw _ _
    · cases hm

private theorem pieces_name {name : Text} (hn : ':' ∉ name) (t : Text) :
    pieces (name ++ ':' :: ':' :: t) = name :: pieces t := by
  induction name with
  | nil => rw [List.nil_append, pieces]
  | cons c name ih =>
    have hc : c ≠ ':' := by rintro rfl; simp at hn
    obtain ⟨w, ws, h1, h2⟩ := pieces_cons (c := c) (r := name ++ ':' :: ':' :: t)
      (fun hp => hc (List.cons_prefix_cons.mp hp).1.symm)
    rw [ih (by simp at hn; exact hn.2)] at h1
    cases h1
    exact h2

private theorem pieces_single {t : Text} (ht : ':' ∉ t) : pieces t = [t] := by
  induction t with
  | nil => rfl
  | cons c t ih =>
    have hc : c ≠ ':' := by rintro rfl; simp at ht
    obtain ⟨w, ws, h1, h2⟩ := pieces_cons (c := c) (r := t) (fun hp => hc (List.cons_prefix_cons.mp hp).1.symm)
    rw [ih (by simp at ht; exact ht.2)] at h1
    cases h1
    exact h2

private theorem chosen_one {cap : Nat} {rs : List (Reporter σ)} {name : Text} {i : Nat} {r : Reporter σ}
    (hr : named name rs = some (i, r)) (hn : name ≠ []) (hn' : ':' ∉ name) {o : Text} (ho : ':' ∉ o) (s : Settings σ) :
    chosen cap rs (some (name ++ ':' :: ':' :: o)) s =
      ((offered cap r [o] (r.prepare s)).1, some i, (offered cap r [o] (r.prepare s)).2) := by
  have hh : ¬ ((name ++ ':' :: ':' :: o) = [] ∨ (name ++ ':' :: ':' :: o).head? = some ':') := by
    cases name with
    | nil => exact absurd rfl hn
    | cons c name =>
      simp only [List.cons_append, reduceCtorEq, List.head?_cons, Option.some.injEq, false_or]
      rintro rfl
      simp at hn'
  unfold chosen
  dsimp only
  rw [if_neg hh, pieces_name hn', pieces_single ho]
  unfold picked
  rw [List.headD_cons, hr]
  rfl

/-- **C70**. An option of the console reporter has the last word about colours: with `-r console::color=always` output is
in colour, and with `never` it is not, whatever `--color`, `--colour-mode` and `--out` say. -/
theorem C70_console_decides {cap : Nat} {rs : List (Reporter σ)} {name : Text} {i : Nat}
    (hr : named name rs = some (i, console name)) (hn : name ≠ []) (hn' : ':' ∉ name) {option : Text} {b : Bool}
    (ho : (option, b) ∈ [("color=always".toList, true), ("color=never".toList, false),
      ("colour-mode=ansi".toList, true), ("colour-mode=none".toList, false)])
    (mode color level out : Option Text) (s : Settings σ) :
    (configured cap rs mode color level out (some (name ++ "::".toList ++ option)) s).1 =
      ⟨b, (verbosityOf level).getD s.verbosity, s.own⟩ := by
  have e : name ++ "::".toList ++ option = name ++ ':' :: ':' :: option := by rw [List.append_assoc]; rfl
  unfold configured
  rw [e]
  simp only [List.mem_cons, Prod.mk.injEq, List.not_mem_nil, or_false] at ho
  rcases ho with ⟨rfl, rfl⟩ | ⟨rfl, rfl⟩ | ⟨rfl, rfl⟩ | ⟨rfl, rfl⟩
  all_goals
    dsimp only
    rw [chosen_one hr hn hn' (by decide)]
    rfl

/-- **C70**. The XML and TeamCity reporters know no option and say so; they leave the colours alone, and make the verbosity
at least `high`. -/
theorem C70_complains {cap : Nat} {rs : List (Reporter σ)} {name : Text} {i : Nat}
    (hr : named name rs = some (i, noOptions name)) (hn : name ≠ []) (hn' : ':' ∉ name) {k v : Text} (hk : k ≠ [])
    (hk' : '=' ∉ k) (ho : ':' ∉ k ∧ ':' ∉ v) (s : Settings σ) :
    chosen cap rs (some (name ++ "::".toList ++ (k ++ '=' :: v))) s =
      (⟨s.withColor, max 2 s.verbosity, s.own⟩, some i,
        warningLine cap s.withColor (" unknown reporter option '".toList ++ k ++ "'".toList)) := by
  have e : name ++ "::".toList ++ (k ++ '=' :: v) = name ++ ':' :: ':' :: (k ++ '=' :: v) := by
    rw [List.append_assoc]; rfl
  have hc : ':' ∉ k ++ '=' :: v := by simp [ho.1, ho.2]
  have ht : (k ++ '=' :: v).takeWhile (· ≠ '=') = k := by
    clear e hc hr hn hn' hk ho
    induction k with
    | nil => rfl
    | cons c k ih =>
      have hc : c ≠ '=' := by rintro rfl; simp at hk'
      simp only [List.cons_append, List.takeWhile_cons, decide_not, hc, decide_false, Bool.not_false, if_true]
      congr 1
      simpa using ih (by simp at hk'; exact hk'.2)
  have hm : max 2 s.verbosity = if s.verbosity < 2 then 2 else s.verbosity := by
    split <;> omega
  rw [e, chosen_one hr hn hn' hc, offered]
  simp only [ht, hk, false_or]
  rw [if_neg (by simp), hm]
  simp [noOptions, offered]

private theorem keyOf {k v : Text} (hk' : '=' ∉ k) : (k ++ '=' :: v).takeWhile (· ≠ '=') = k := by
  induction k with
  | nil => rfl
  | cons c k ih =>
    have hc : c ≠ '=' := by rintro rfl; simp at hk'
    simp only [List.cons_append, List.takeWhile_cons, decide_not, hc, decide_false, Bool.not_false, if_true]
    congr 1
    simpa using ih (by simp at hk'; exact hk'.2)

/-- **C70**. The console reporter knows the options `color` and `colour-mode`, with the values that the options of the
command line with these names have: a value changes the colours as documented, `default` leaves them alone, and there is
a warning about any other value. About any other option it says that it is not known. -/
theorem C70_console_says {cap : Nat} (hcap : cap + 3 < sizeT) (h : 19 ≤ cap) {rs : List (Reporter σ)} {name : Text}
    {i : Nat} (hr : named name rs = some (i, console name)) (hn : name ≠ []) (hn' : ':' ∉ name) {v : Text} (hv : ':' ∉ v)
    (s : Settings σ) :
    chosen cap rs (some (name ++ "::color=".toList ++ v)) s =
      (⟨(asks "always" "never" (some v)).getD s.withColor, s.verbosity, s.own⟩, some i,
        directive cap s.withColor "always" "never" (some v)) ∧
    chosen cap rs (some (name ++ "::colour-mode=".toList ++ v)) s =
      (⟨(asks "ansi" "none" (some v)).getD s.withColor, s.verbosity, s.own⟩, some i,
        directive cap s.withColor "ansi" "none" (some v)) ∧
    ∀ k : Text, k ≠ [] → '=' ∉ k → ':' ∉ k → k ≠ "color".toList → k ≠ "colour-mode".toList →
      chosen cap rs (some (name ++ "::".toList ++ (k ++ '=' :: v))) s =
        (s, some i, warningLine cap s.withColor (" unknown reporter option '".toList ++ k ++ "'".toList)) := by
  refine ⟨?_, ?_, ?_⟩
  · have e : name ++ "::color=".toList ++ v = name ++ ':' :: ':' :: ("color".toList ++ '=' :: v) := by
      rw [List.append_assoc]; rfl
    have hd : ("color".toList ++ '=' :: v).drop ("color".toList.length + 1) = v := rfl
    obtain ⟨e1, _, e3⟩ := color_eq hcap h v s
    have hp := (C70_built_in (σ := σ) h name).1 "color".toList v s
    have hs := sayEach_each hcap hp
    have hc : (console name : Reporter σ).configure "color".toList v s = ((color v s).1, (color v s).2.1, true) := rfl
    rw [hc] at hs
    dsimp only at hs
    rw [e3] at hs
    rw [e, chosen_one hr hn hn' (by simp [hv]), offered, keyOf (by decide)]
    dsimp only
    rw [if_neg (by simp), hd]
    have hpr : (console name : Reporter σ).prepare s = s := rfl
    rw [hpr, hc]
    dsimp only [offered]
    rw [← Outcome.ok.inj hs, e1]
    simp
  · have e : name ++ "::colour-mode=".toList ++ v = name ++ ':' :: ':' :: ("colour-mode".toList ++ '=' :: v) := by
      rw [List.append_assoc]; rfl
    have hd : ("colour-mode".toList ++ '=' :: v).drop ("colour-mode".toList.length + 1) = v := rfl
    obtain ⟨e1, _, e3⟩ := mode_eq hcap h v s
    have hp := (C70_built_in (σ := σ) h name).1 "colour-mode".toList v s
    have hs := sayEach_each hcap hp
    have hc : (console name : Reporter σ).configure "colour-mode".toList v s =
      ((colourMode v s).1, (colourMode v s).2.1, true) := rfl
    rw [hc] at hs
    dsimp only at hs
    rw [e3] at hs
    rw [e, chosen_one hr hn hn' (by simp [hv]), offered, keyOf (by decide)]
    dsimp only
    rw [if_neg (by simp), hd]
    have hpr : (console name : Reporter σ).prepare s = s := rfl
    rw [hpr, hc]
    dsimp only [offered]
    rw [← Outcome.ok.inj hs, e1]
    simp
  · intro k hk hk' hk'' h1 h2
    have e : name ++ "::".toList ++ (k ++ '=' :: v) = name ++ ':' :: ':' :: (k ++ '=' :: v) := by
      rw [List.append_assoc]; rfl
    rw [e, chosen_one hr hn hn' (by simp [hv, hk'']), offered]
    rw [keyOf hk']
    dsimp only
    rw [if_neg (by simp [hk])]
    simp only [console, if_neg h1, if_neg h2, offered]
    simp

private theorem cut_ne {cap : Nat} (h : 19 ≤ cap) {a : Text} (ha : a ≠ []) : Verif.Spec.cut cap a ≠ [] := by
  unfold Verif.Spec.cut
  split
  · exact ha
  · intro he
    have := congrArg List.length he
    simp only [Verif.Spec.marker, List.length_append, List.length_replicate, List.length_nil] at this
    omega

private theorem line_ne {cap : Nat} (h : 19 ≤ cap) (c : Bool) (t : Text) : warningLine cap c t ≠ [] := by
  refine cut_ne h fun he => ?_
  have := (List.append_eq_nil_iff.mp he).2
  exact absurd this (by decide)

/-- **C70**. Nothing is printed exactly if every value given is one of those documented and there is nothing to say about
the reporter. -/
theorem C70_quiet {cap : Nat} (h : 19 ≤ cap) (rs : List (Reporter σ)) (mode color level out reporter : Option Text)
    (s : Settings σ) :
    (configured cap rs mode color level out reporter s).2.2 = [] ↔
      (∀ v, mode = some v → v ∈ ["ansi".toList, "default".toList, "none".toList]) ∧
      (∀ v, color = some v → v ∈ ["always".toList, "default".toList, "never".toList]) ∧
      (∀ v, level = some v → v ∈ ["quiet".toList, "normal".toList, "high".toList, "full".toList]) ∧
      (∀ v, reporter = some v → (chosen cap rs reporter (configured cap rs mode color level out none s).1).2.2 = []) := by
  have hd : ∀ (c : Bool) (yes no : String) (value : Option Text), directive cap c yes no value = [] ↔
      ∀ v, value = some v → v ∈ [yes.toList, "default".toList, no.toList] := by
    intro c yes no value
    unfold directive
    cases value with
    | none => simp
    | some v =>
      dsimp only
      split
      · rename_i hin
        exact ⟨fun _ w hw => by cases hw; exact hin, fun _ => rfl⟩
      · rename_i hout
        exact ⟨fun he => absurd he (line_ne h _ _), fun hall => absurd (hall v rfl) hout⟩
  have hl : ∀ c : Bool, levelWarning cap c level = [] ↔
      ∀ v, level = some v → v ∈ ["quiet".toList, "normal".toList, "high".toList, "full".toList] := by
    intro c
    unfold levelWarning
    cases level with
    | none => simp
    | some v =>
      dsimp only
      split
      · rename_i hin
        exact ⟨fun _ w hw => by cases hw; exact hin, fun _ => rfl⟩
      · rename_i hout
        exact ⟨fun he => absurd he (line_ne h _ _), fun hall => absurd (hall v rfl) hout⟩
  unfold configured
  dsimp only
  simp only [List.append_eq_nil_iff, hd, hl, and_assoc]
  cases reporter with
  | none => simp [chosen]
  | some v => simp [chosen]

/-! ## The part in `Cli.configure` -/

/-- A reporter gets these calls of its `configure`. -/
def receiving (r : Reporter σ) (calls : List (Text × Text)) (s : Settings σ) : Settings σ :=
  calls.foldl (fun s kv => (r.configure kv.1 kv.2 s).1) s

private theorem oneOption_calls (r : Reporter σ) (o : Text) (s : Settings σ) :
    (oneOption r o s).1 = receiving r (reporterOption o).toList s := by
  unfold oneOption reporterOption receiving
  cases o.findIdx? (· == '=') with
  | none => rfl
  | some p =>
    cases p with
    | zero => rfl
    | succ p =>
      show (if (r.configure (o.take (p + 1)) (o.drop (p + 1 + 1)) s).2.2 = true then _ else _ :
        Settings σ × List (List Arg)).1 = (r.configure (o.take (p + 1)) (o.drop (p + 1 + 1)) s).1
      split <;> rfl

private theorem optionLoop_calls (r : Reporter σ) : ∀ (fuel : Nat) (t : Text) (s : Settings σ) (said : List (List Arg))
    {calls : List (Text × Text)}, reporterOptions fuel t = some calls →
    ∃ said', Configure.optionLoop r fuel t s said = .ok (receiving r calls s, said')
  | 0, _, _, _, _, h => by cases h
  | fuel + 1, t, s, said, calls, h => by
    rw [reporterOptions] at h
    rw [Configure.optionLoop]
    cases hf : Util.findFrom t [':', ':'] 2 with
    | none =>
      rw [hf] at h
      cases h
      exact ⟨_, by dsimp only; rw [oneOption_calls]⟩
    | some p =>
      rw [hf] at h
      obtain ⟨rest, h1, h2⟩ := Option.map_eq_some_iff.mp h
      subst h2
      obtain ⟨said', e⟩ := optionLoop_calls r fuel (t.drop p) (oneOption r (((t.drop p).drop 2).take p) s).1
        (said ++ (oneOption r (((t.drop p).drop 2).take p) s).2) h1
      refine ⟨said', e.trans ?_⟩
      rw [oneOption_calls]
      simp only [receiving, List.foldl_append]

/-- **C70**. The reporter chosen and the calls of its `configure` are those of `Cli.parseReporter` (C33); what these calls
do to the settings, after `initialize`, is what happens to the settings. -/
theorem C70_calls (rs : List (Reporter σ)) (arg : Text) (c : Config) (st : State σ) :
    ∃ c' st', Cli.parseReporter (rs.map (·.name)) arg c = .ok c' ∧ Configure.parseReporter rs arg st = .ok st' ∧
      c'.withColor = c.withColor ∧ c'.verbosity = c.verbosity ∧ c'.out = c.out ∧ st'.out = st.out ∧
      ((c'.reporter = c.reporter ∧ st'.reporter = st.reporter ∧ st'.settings = st.settings) ∨
       ∃ i r calls, c'.reporter = some (i, calls) ∧ rs[i]? = some r ∧ st'.reporter = some i ∧
        st'.settings = receiving r calls (r.prepare st.settings)) := by
  obtain ⟨rep, w, ht⟩ := C33_total (rs.map (·.name)) arg c
  refine ⟨{ c with reporter := rep, warnings := w }, ?_⟩
  suffices hs : ∃ st', Configure.parseReporter rs arg st = .ok st' ∧ st'.out = st.out ∧
      ((rep = c.reporter ∧ st'.reporter = st.reporter ∧ st'.settings = st.settings) ∨
       ∃ i r calls, rep = some (i, calls) ∧ rs[i]? = some r ∧ st'.reporter = some i ∧
        st'.settings = receiving r calls (r.prepare st.settings)) by
    obtain ⟨st', a, b, d⟩ := hs
    exact ⟨st', ht, a, rfl, rfl, rfl, b, d⟩
  have hch : ∀ name opts, (match (rs.map (·.name)).findIdx? (· == name) with
      | none => Outcome.ok { c with warnings := c.warnings + 1 }
      | some i => match Util.findFrom opts [':', ':'] 0 with
        | none => .ok { c with reporter := some (i, []) }
        | some _ => match reporterOptions (opts.length + 1) opts with
          | none => .ub
          | some calls => .ok { c with reporter := some (i, calls) }) = .ok { c with reporter := rep, warnings := w } →
      ∃ st', choose rs name opts st = .ok st' ∧ st'.out = st.out ∧
      ((rep = c.reporter ∧ st'.reporter = st.reporter ∧ st'.settings = st.settings) ∨
       ∃ i r calls, rep = some (i, calls) ∧ rs[i]? = some r ∧ st'.reporter = some i ∧
        st'.settings = receiving r calls (r.prepare st.settings)) := by
    intro name opts he
    have hidx : (rs.map (·.name)).findIdx? (· == name) = rs.findIdx? (·.name == name) := by
      rw [List.findIdx?_map]; rfl
    rw [hidx] at he
    unfold choose
    rcases named_eq name rs with ⟨e1, _⟩ | ⟨i, r, e1, e2, _⟩
    · rw [e1] at he ⊢
      simp only [Outcome.ok.injEq, Config.mk.injEq, true_and] at he
      exact ⟨_, rfl, rfl, .inl ⟨he.1.symm, rfl, rfl⟩⟩
    · rw [e1] at he ⊢
      simp only [e2]
      unfold options
      cases hf : Util.findFrom opts [':', ':'] 0 with
      | none =>
        rw [hf] at he
        simp only [Outcome.ok.injEq, Config.mk.injEq, true_and] at he
        exact ⟨_, rfl, rfl, .inr ⟨i, r, [], he.1.symm, e2, rfl, rfl⟩⟩
      | some p =>
        rw [hf] at he
        cases ho : reporterOptions (opts.length + 1) opts with
        | none => simp only [ho] at he; cases he
        | some calls =>
          simp only [ho, Outcome.ok.injEq, Config.mk.injEq, true_and] at he
          obtain ⟨said', e⟩ := optionLoop_calls r _ opts (r.prepare st.settings) [] ho
          dsimp only
          rw [e]
          exact ⟨_, rfl, rfl, .inr ⟨i, r, calls, he.1.symm, e2, rfl, rfl⟩⟩
  unfold Cli.parseReporter at ht
  unfold Configure.parseReporter
  split at ht
  · rename_i hb
    rw [if_pos hb]
    simp only [Outcome.ok.injEq, Config.mk.injEq, true_and] at ht
    exact ⟨_, rfl, rfl, .inl ⟨ht.1.symm, rfl, rfl⟩⟩
  · rename_i hb
    rw [if_neg hb]
    cases hf : Util.findFrom arg [':', ':'] 0 with
    | none => rw [hf] at ht; exact hch arg [] ht
    | some p => rw [hf] at ht; exact hch (arg.take p) (arg.drop p) ht

/-- The same settings in both models. -/
private def Same (own : σ) (c : Config) (st : State σ) : Prop :=
  st.settings = ⟨c.withColor, c.verbosity, own⟩ ∧ st.out = c.out

private theorem step {own : σ} {input : Input} {name : String} {c : Config} {st : State σ} {rep : _} {srep : _}
    (hv : ∀ a, getOption input name.toList = some a → a.value.isSome) (hs : Same own c st)
    (hr : c.reporter = rep) (hr' : st.reporter = srep) {f : Text → Config} {g : Text → State σ}
    (hfg : ∀ v, Same own (f v) (g v) ∧ (f v).reporter = rep ∧ (g v).reporter = srep) :
    ∃ c' st', withValue (getOption input name.toList) c (fun v => .ok (f v)) = .ok c' ∧
      withValue (getOption input name.toList) st (fun v => .ok (g v)) = .ok st' ∧ Same own c' st' ∧
      c'.reporter = rep ∧ st'.reporter = srep := by
  cases ho : getOption input name.toList with
  | none => exact ⟨c, st, rfl, rfl, hs, hr, hr'⟩
  | some a =>
    obtain ⟨v, hv⟩ := Option.isSome_iff_exists.mp (hv a ho)
    exact ⟨f v, g v, by simp [withValue, hv], by simp [withValue, hv], hfg v⟩

private theorem step2 {own : σ} {input : Input} {name : String} {c : Config} {st : State σ} {b : Bool} {rep : _} {srep : _}
    (hv : ∀ a, getOption input name.toList = some a → a.value.isSome) (hs : Same own c st)
    (hr : c.reporter = rep) (hr' : st.reporter = srep) {f : Text → Config × Bool} {g : Text → State σ × Bool}
    (hfg : ∀ v, Same own (f v).1 (g v).1 ∧ (f v).2 = (g v).2 ∧ (f v).1.reporter = rep ∧ (g v).1.reporter = srep) :
    ∃ c' st' b', withValue (getOption input name.toList) (c, b) (fun v => .ok (f v)) = .ok (c', b') ∧
      withValue (getOption input name.toList) (st, b) (fun v => .ok (g v)) = .ok (st', b') ∧ Same own c' st' ∧
      c'.reporter = rep ∧ st'.reporter = srep := by
  cases ho : getOption input name.toList with
  | none => exact ⟨c, st, b, rfl, rfl, hs, hr, hr'⟩
  | some a =>
    obtain ⟨v, hv⟩ := Option.isSome_iff_exists.mp (hv a ho)
    obtain ⟨h1, h2, h3, h4⟩ := hfg v
    exact ⟨(f v).1, (g v).1, (f v).2, by simp [withValue, hv], by simp [withValue, hv, h2], h1, h3, h4⟩

/-- **C70**. What `Cli.configure` (C32, C33) says about settings, output and the calls of the reporter's functions is what
happens; the reporter then changes the settings as it likes. -/
theorem C70_agrees (rs : List (Reporter σ)) {input : Input} (hv : ValuesPresent input) (c : Config) (st : State σ)
    (hc : st.settings.withColor = c.withColor) (hl : st.settings.verbosity = c.verbosity) (ho : st.out = c.out) :
    ∃ c' st', Cli.configure (rs.map (·.name)) input c = .ok c' ∧ Configure.configure rs input st = .ok st' ∧
      st'.out = c'.out ∧
      ((c'.reporter = c.reporter ∧ st'.reporter = st.reporter ∧
        st'.settings = ⟨c'.withColor, c'.verbosity, st.settings.own⟩) ∨
       ∃ i r calls, c'.reporter = some (i, calls) ∧ rs[i]? = some r ∧ st'.reporter = some i ∧
        st'.settings = receiving r calls (r.prepare ⟨c'.withColor, c'.verbosity, st.settings.own⟩)) := by
  have h0 : Same st.settings.own c st := ⟨by rw [← hc, ← hl], ho⟩
  have hcm : ∀ (d : Config) (t : State σ), Same st.settings.own d t → ∀ v,
      Same st.settings.own (colorOption "ansi".toList "none".toList v d).1
        { t with settings := (colourMode v t.settings).1, said := t.said ++ (colourMode v t.settings).2.1 } ∧
      (colorOption "ansi".toList "none".toList v d).2 = (colourMode v t.settings).2.2 ∧
      (colorOption "ansi".toList "none".toList v d).1.reporter = d.reporter := by
    intro d t hs v
    unfold colorOption colourMode
    rw [hs.1]
    split
    · exact ⟨⟨rfl, hs.2⟩, rfl, rfl⟩
    · split
      · exact ⟨⟨rfl, hs.2⟩, rfl, rfl⟩
      · split <;> exact ⟨⟨rfl, hs.2⟩, rfl, rfl⟩
  have hco : ∀ (d : Config) (t : State σ), Same st.settings.own d t → ∀ v,
      Same st.settings.own (colorOption "always".toList "never".toList v d).1
        { t with settings := (color v t.settings).1, said := t.said ++ (color v t.settings).2.1 } ∧
      (colorOption "always".toList "never".toList v d).2 = (color v t.settings).2.2 ∧
      (colorOption "always".toList "never".toList v d).1.reporter = d.reporter := by
    intro d t hs v
    unfold colorOption color
    rw [hs.1]
    split
    · exact ⟨⟨rfl, hs.2⟩, rfl, rfl⟩
    · split
      · exact ⟨⟨rfl, hs.2⟩, rfl, rfl⟩
      · split <;> exact ⟨⟨rfl, hs.2⟩, rfl, rfl⟩
  have hve : ∀ (d : Config) (t : State σ), Same st.settings.own d t → ∀ v,
      Same st.settings.own (verbosityOption v d)
        { t with settings := (verbosity v t.settings).1, said := t.said ++ (verbosity v t.settings).2 } ∧
      (verbosityOption v d).reporter = d.reporter := by
    intro d t hs v
    unfold verbosityOption verbosity
    rw [hs.1]
    split
    · exact ⟨⟨rfl, hs.2⟩, rfl⟩
    · split
      · exact ⟨⟨rfl, hs.2⟩, rfl⟩
      · split
        · exact ⟨⟨rfl, hs.2⟩, rfl⟩
        · split <;> exact ⟨⟨rfl, hs.2⟩, rfl⟩
  obtain ⟨c1, s1, b1, e1, f1, h1, r1, q1⟩ := step2 (b := false) (hv "--colour-mode" (by simp)) h0 rfl rfl
    (f := fun v => colorOption "ansi".toList "none".toList v c)
    (g := fun v => ({ st with settings := (colourMode v st.settings).1, said := st.said ++ (colourMode v st.settings).2.1 },
      (colourMode v st.settings).2.2))
    (fun v => ⟨(hcm c st h0 v).1, (hcm c st h0 v).2.1, (hcm c st h0 v).2.2, rfl⟩)
  obtain ⟨c2, s2, b2, e2, f2, h2, r2, q2⟩ := step2 (b := b1) (hv "--color" (by simp)) h1 r1 q1
    (f := fun v => ((colorOption "always".toList "never".toList v c1).1,
      (colorOption "always".toList "never".toList v c1).2 || b1))
    (g := fun v => ({ s1 with settings := (color v s1.settings).1, said := s1.said ++ (color v s1.settings).2.1 },
      (color v s1.settings).2.2 || b1))
    (fun v => ⟨(hco c1 s1 h1 v).1, by dsimp only; rw [(hco c1 s1 h1 v).2.1], (hco c1 s1 h1 v).2.2.trans r1, q1⟩)
  obtain ⟨c3, s3, e3, f3, h3, r3, q3⟩ := step (hv "--verbosity" (by simp)) h2 r2 q2
    (f := fun v => verbosityOption v c2)
    (g := fun v => { s2 with settings := (verbosity v s2.settings).1, said := s2.said ++ (verbosity v s2.settings).2 })
    (fun v => ⟨(hve c2 s2 h2 v).1, (hve c2 s2 h2 v).2.trans r2, q2⟩)
  obtain ⟨c4, s4, e4, f4, h4, r4, q4⟩ := step (hv "--out" (by simp)) h3 r3 q3
    (f := fun v => { c3 with out := some v, withColor := if b2 then c3.withColor else false })
    (g := fun v => { s3 with out := some v, settings :=
      { s3.settings with withColor := if b2 then s3.settings.withColor else false } })
    (fun v => ⟨⟨by rw [h3.1], rfl⟩, r3, q3⟩)
  unfold Cli.configure Configure.configure Cli.configureColor Configure.configureColor Cli.configureOut
  rw [e1, f1, Outcome.bind_ok, Outcome.bind_ok]
  dsimp only
  rw [e2, f2, Outcome.bind_ok, Outcome.bind_ok]
  dsimp only
  rw [e3, f3, Outcome.bind_ok, Outcome.bind_ok]
  rw [e4, f4, Outcome.bind_ok, Outcome.bind_ok]
  rcases hg : getOption input "--reporter".toList with _ | a
  · exact ⟨c4, s4, rfl, rfl, h4.2, .inl ⟨r4, q4, h4.1⟩⟩
  · obtain ⟨v, hval⟩ := Option.isSome_iff_exists.mp (hv "--reporter" (by simp) a hg)
    simp only [withValue, hval]
    obtain ⟨c5, s5, e5, f5, g1, g2, g3, g4, g5⟩ := C70_calls rs v c4 s4
    refine ⟨c5, s5, e5, f5, by rw [g4, h4.2, g3], ?_⟩
    rw [g1, g2, ← h4.1, ← r4, ← q4]
    exact g5

/-- **C70**. The reporter chosen by the value of `--reporter`, if it chooses any. -/
theorem C70_choice {reporters : List Text} {input : Input} {c c' : Config} (hv : ValuesPresent input)
    (h : Cli.configure reporters input c = .ok c') :
    c'.reporter.map (·.1) = (choice reporters (valueOf input "--reporter")).or (c.reporter.map (·.1)) := by
  obtain ⟨rs, hrs⟩ : ∃ rs : List (Reporter Unit), rs = reporters.map fun n => ⟨n, id, fun _ _ s => (s, [], true)⟩ :=
    ⟨_, rfl⟩
  have hnames : rs.map (·.name) = reporters := by rw [hrs, List.map_map]; exact List.map_id _
  have hpr : ∀ r ∈ rs, Printable 19 r := by
    intro r hr
    rw [hrs] at hr
    obtain ⟨n, _, rfl⟩ := List.mem_map.mp hr
    intro k v s m hm
    cases hm
  have hnamed : ∀ (name : Text) (rs : List (Reporter Unit)), (named name rs).map (·.1) =
      if name ∈ rs.map (·.name) then some ((rs.map (·.name)).idxOf name) else none := by
    intro name rs
    induction rs with
    | nil => rfl
    | cons r rs ih =>
      rw [named, List.map_cons, List.idxOf_cons]
      by_cases he : r.name = name
      · simp [he]
      · have hb : (r.name == name) = false := by simpa using he
        rw [if_neg he, Option.map_map, hb]
        have : (named name rs).map ((fun x : Nat × Reporter Unit => x.1) ∘ fun p => (p.1 + 1, p.2)) =
            ((named name rs).map (·.1)).map (· + 1) := by
          rw [Option.map_map]; rfl
        rw [this, ih]
        simp only [List.mem_cons, eq_comm (a := name) (b := r.name), he, false_or, cond_false]
        split <;> rfl
  have hchosen : ∀ (value : Option Text) (s : Settings Unit), (chosen 19 rs value s).2.1 = choice reporters value := by
    intro value s
    unfold chosen choice
    cases value with
    | none => rfl
    | some arg =>
      dsimp only
      split
      · rfl
      · have := hnamed ((pieces arg).headD []) rs
        rw [hnames] at this
        rw [← this]
        unfold picked
        cases named ((pieces arg).headD []) rs <;> rfl
  obtain ⟨c1, st', e1, e2, _, e4⟩ := C70_agrees rs hv c ⟨⟨c.withColor, c.verbosity, ()⟩, c.out, none, []⟩ rfl rfl rfl
  rw [hnames, h] at e1
  cases e1
  obtain ⟨calls, e5, _⟩ := C70_configure (cap := 19) (by decide) (by decide) hpr hv
    (⟨⟨c.withColor, c.verbosity, ()⟩, c.out, none, []⟩ : State Unit)
  rw [e2] at e5
  have hrep : st'.reporter = choice reporters (valueOf input "--reporter") := by
    cases e5
    dsimp only
    rw [Option.or_none]
    exact hchosen _ _
  rcases e4 with ⟨a, b, _⟩ | ⟨i, r, calls, a, _, b, _⟩
  · rw [← hrep, b, a]; rfl
  · rw [← hrep, b, a]; rfl

/-! ## Cases that meet the hypotheses -/

/-- The reporters that come with the framework (src/snitch_reporter_console.cpp 218, src/snitch_reporter_teamcity.cpp
181-186, src/snitch_reporter_catch2_xml.cpp 286). -/
private def usual : List (Reporter Unit) :=
  [console "console".toList, noOptions "teamcity".toList, noOptions "xml".toList]

example : 1024 + 3 < sizeT ∧ 19 ≤ 1024 ∧ (∀ r ∈ usual, Printable 1024 r) ∧
    named "xml".toList usual = some (2, noOptions "xml".toList) ∧
    named "console".toList usual = some (0, console "console".toList) := by
  refine ⟨by decide, by decide, ?_, rfl, rfl⟩
  intro r hr
  simp only [usual, List.mem_cons, List.not_mem_nil, or_false] at hr
  rcases hr with rfl | rfl | rfl
  · exact (C70_built_in (by decide) _).1
  · exact (C70_built_in (by decide) _).2
  · exact (C70_built_in (by decide) _).2

/-- `--color` without a known value, an output file, and an option the reporter does not know. -/
example : (configured 1024 usual none (some "yes".toList) (some "quiet".toList) (some "f".toList)
      (some "xml::a=b".toList) ⟨true, 1, ()⟩) =
    (⟨false, 2, ()⟩, some 2,
      ("\x1b[1;33mwarning:\x1b[0m unknown color directive; please use one of always|default|never\n" ++
        "warning: unknown reporter option 'a'\n").toList) := by
  decide +kernel

/-- The colours asked for by the reporter's option, and a warning in this colour. -/
example : (configured 1024 usual none (some "always".toList) none none
      (some "console::color=never::x".toList) ⟨false, 1, ()⟩) =
    (⟨true, 1, ()⟩, some 0,
      ("\x1b[1;33mwarning:\x1b[0m badly formatted reporter option 'x'; expected 'key=value'\n" ++
        "\x1b[1;33mwarning:\x1b[0m badly formatted reporter option 'x'; expected 'key=value'\n").toList) := by
  decide +kernel

end Verif.Props
