import Verif.Lemmas.CliColor
import Verif.Lemmas.StringUtil
/-!
# C31, C32, C33, C50, C51: the command line
-/
namespace Verif.Props
open Verif Verif.Util Verif.Cli Verif.Cli.Spec

/-! ## C50 -/

theorem afterLast_none {p : Char → Bool} : ∀ {s : Text}, afterLast p s = none ↔ ∀ c ∈ s, p c = false := by
  intro s
  induction s with
  | nil => simp [afterLast]
  | cons c s ih =>
    rw [afterLast]
    cases h : afterLast p s with
    | some r =>
      simp only [reduceCtorEq, false_iff]
      intro hall
      have := ih.mpr (fun d hd => hall d (List.mem_cons_of_mem _ hd))
      rw [h] at this; cases this
    | none =>
      have hs := ih.mp h
      by_cases hc : p c = true
      · simp [hc]
      · simp only [hc, Bool.false_eq_true, if_false, true_iff]
        intro d hd
        rcases List.mem_cons.mp hd with rfl | hd
        · simpa using hc
        · exact hs d hd

theorem afterLast_some {p : Char → Bool} : ∀ {s r : Text}, afterLast p s = some r →
    (∀ c ∈ r, p c = false) ∧ ∃ a c, s = a ++ c :: r ∧ p c = true := by
  intro s
  induction s with
  | nil => intro r h; cases h
  | cons c s ih =>
    intro r h
    rw [afterLast] at h
    cases hs : afterLast p s with
    | some x =>
      rw [hs] at h; cases h
      obtain ⟨h1, a, d, h2, h3⟩ := ih hs
      exact ⟨h1, c :: a, d, by rw [h2]; rfl, h3⟩
    | none =>
      rw [hs] at h
      simp only at h
      split at h
      · cases h
        rename_i hc
        exact ⟨afterLast_none.mp hs, [], c, rfl, hc⟩
      · cases h

theorem beforeLast_none {p : Char → Bool} : ∀ {s : Text}, beforeLast p s = none ↔ ∀ c ∈ s, p c = false := by
  intro s
  induction s with
  | nil => simp [beforeLast]
  | cons c s ih =>
    rw [beforeLast]
    cases h : beforeLast p s with
    | some r =>
      simp only [reduceCtorEq, false_iff]
      intro hall
      have := ih.mpr (fun d hd => hall d (List.mem_cons_of_mem _ hd))
      rw [h] at this; cases this
    | none =>
      have hs := ih.mp h
      by_cases hc : p c = true
      · simp [hc]
      · simp only [hc, Bool.false_eq_true, if_false, true_iff]
        intro d hd
        rcases List.mem_cons.mp hd with rfl | hd
        · simpa using hc
        · exact hs d hd

theorem beforeLast_some {p : Char → Bool} : ∀ {s r : Text}, beforeLast p s = some r →
    ∃ c b, s = r ++ c :: b ∧ p c = true ∧ ∀ x ∈ b, p x = false := by
  intro s
  induction s with
  | nil => intro r h; cases h
  | cons c s ih =>
    intro r h
    rw [beforeLast] at h
    cases hs : beforeLast p s with
    | some x =>
      rw [hs] at h; cases h
      obtain ⟨d, b, h1, h2, h3⟩ := ih hs
      exact ⟨d, b, by rw [h1]; rfl, h2, h3⟩
    | none =>
      rw [hs] at h
      simp only at h
      split at h
      · cases h
        rename_i hc
        exact ⟨c, s, rfl, hc, beforeLast_none.mp hs⟩
      · cases h

/-- **C50**. The name shown is the file name of the path (what follows the last `/` or `\`) without its
extension (the last dot and what follows). -/
theorem C50_executable (path : Text) :
    ∃ file, IsFileName path file ∧ IsStem file (extractExecutable path) := by
  have hstem : ∀ file : Text, IsStem file ((beforeLast (· == '.') file).getD file) := by
    intro file
    cases h : beforeLast (· == '.') file with
    | none =>
      refine .inl ⟨?_, rfl⟩
      intro hm; have := beforeLast_none.mp h '.' hm; simp at this
    | some r =>
      obtain ⟨c, b, h1, h2, h3⟩ := beforeLast_some h
      have hc : c = '.' := by simpa using h2
      subst hc
      exact .inr ⟨b, fun hm => by have := h3 '.' hm; simp at this, h1⟩
  cases h : afterLast (fun c => c == '\\' || c == '/') path with
  | none =>
    have hn := afterLast_none.mp h
    refine ⟨path, ⟨⟨?_, ?_⟩, .inl rfl⟩, ?_⟩
    · intro hm; have := hn '/' hm; simp at this
    · intro hm; have := hn '\\' hm; simp at this
    · rw [extractExecutable, h]; exact hstem path
  | some r =>
    obtain ⟨hn, a, c, h1, h2⟩ := afterLast_some h
    refine ⟨r, ⟨⟨?_, ?_⟩, .inr ⟨a, c, h1, ?_⟩⟩, ?_⟩
    · intro hm; have := hn '/' hm; simp at this
    · intro hm; have := hn '\\' hm; simp at this
    · rcases (by simpa using h2 : c = '\\' ∨ c = '/') with h | h
      · exact .inr h
      · exact .inl h
    · rw [extractExecutable, h]; exact hstem r

/-- **C50**. There is only one such name. -/
theorem C50_unique {path f g s t : Text} (h1 : IsFileName path f) (h2 : IsFileName path g)
    (h3 : IsStem f s) (h4 : IsStem g t) : s = t := by
  have hsplit : ∀ {p : Char → Prop} {a b x y : Text} {c d : Char}, a ++ c :: x = b ++ d :: y → p c → p d →
      (∀ z ∈ x, ¬ p z) → (∀ z ∈ y, ¬ p z) → a = b ∧ c = d ∧ x = y := by
    intro p a b x y c d h hc hd hx hy
    rcases List.append_eq_append_iff.mp h with ⟨l, h1, h2⟩ | ⟨l, h1, h2⟩
    · cases l with
      | nil => simp at h1 h2; exact ⟨h1.symm, h2.1, h2.2⟩
      | cons e l =>
        simp at h2
        exact absurd hd (hx d (by rw [h2.2]; simp))
    · cases l with
      | nil => simp at h1 h2; exact ⟨h1, h2.1.symm, h2.2.symm⟩
      | cons e l =>
        simp at h2
        exact absurd hc (hy c (by rw [h2.2]; simp))
  have hfg : f = g := by
    obtain ⟨⟨f1, f2⟩, hf⟩ := h1
    obtain ⟨⟨g1, g2⟩, hg⟩ := h2
    have nf : ∀ z ∈ f, ¬ (z = '/' ∨ z = '\\') := by
      rintro z hz (rfl | rfl)
      · exact f1 hz
      · exact f2 hz
    have ng : ∀ z ∈ g, ¬ (z = '/' ∨ z = '\\') := by
      rintro z hz (rfl | rfl)
      · exact g1 hz
      · exact g2 hz
    rcases hf with rfl | ⟨a, c, e, hc⟩ <;> rcases hg with rfl | ⟨b, d, e', hd⟩
    · rfl
    · exact absurd hd (nf d (by rw [e']; simp))
    · exact absurd hc (ng c (by rw [e]; simp))
    · exact (hsplit (p := fun z => z = '/' ∨ z = '\\') (e.symm.trans e') hc hd nf ng).2.2
  subst hfg
  rcases h3 with ⟨n1, rfl⟩ | ⟨x, n1, e⟩ <;> rcases h4 with ⟨n2, rfl⟩ | ⟨y, n2, e'⟩
  · rfl
  · exact absurd (by rw [e']; simp) n1
  · exact absurd (by rw [e]; simp) n2
  · exact (hsplit (p := fun z => z = '.') (e.symm.trans e') rfl rfl
      (by rintro z hz rfl; exact n1 hz) (by rintro z hz rfl; exact n2 hz)).1

example : extractExecutable "/usr/bin\\a.b/my.test.exe".toList = "my.test".toList := by decide
example : IsFileName "d.x/prog".toList "prog".toList ∧ IsStem "prog".toList "prog".toList :=
  ⟨⟨by decide, .inr ⟨"d.x".toList, '/', by decide, .inl rfl⟩⟩, .inl ⟨by decide, rfl⟩⟩

/-! ## C31 -/

/-- The arguments recorded in the result, by name and value (positional arguments have no name). -/
def recorded (input : Input) : List (Text × Option Text) := input.arguments.map fun a => (a.name, a.value)

/-- What each item of a command line records: an option its long name and value, a positional argument
its text, anything else nothing. -/
def records (ts : List Token) : List (Text × Option Text) :=
  ts.filterMap fun
    | .option l v => some (l, v)
    | .positional v => some ([], some v)
    | .unknown _ => none

private theorem records_eq (ts : List Token) : records ts = ts.filterMap entryOf := by
  unfold records
  congr 1

/-- **C31**. For every command line (within the limit on the number of arguments) the parser returns; it
accepts exactly the well-formed ones. For these the result records, in order, every option under its long
name with its value, and every positional argument; every other argument is reported as unknown, in order,
and nothing else is reported. -/
theorem C31_parse {maxArgs : Nat} (dflt : Bool) (argv0 : Text) {argv : List Text}
    (h : argv.length ≤ maxArgs) :
    ∃ color msgs r, parseArguments maxArgs dflt argv0 argv = .ok (color, msgs, r) ∧
      (r.isSome ↔ WellFormed argv) ∧
      ∀ input, r = some input → ∃ ts, tokens argv = some ts ∧ recorded input = records ts ∧
        msgs = (unknowns ts).map Msg.unknown ∧ input.executable = extractExecutable argv0 := by
  obtain ⟨s₁, h1, h2⟩ := parseWith_output argv0 h
  obtain ⟨s₂, h3, h4⟩ := parseWith_spec argv0 h
  refine ⟨overrideColor dflt ⟨extractExecutable argv0, s₁.args⟩, s₂.msgs,
    if s₂.bad then none else some ⟨extractExecutable argv0, s₂.args⟩, ?_, ?_, ?_⟩
  · simp only [parseArguments, parseColorOptions, h2, h3, Outcome.bind_ok, Outcome.pure_eq]
  · have hb := h4.bad
    have hg : Good [] argv ↔ WellFormed argv := by
      constructor
      · rintro ⟨ts, a, b, _⟩; exact ⟨ts, a, b⟩
      · rintro ⟨ts, a, b⟩; exact ⟨ts, a, b, by simp⟩
    rw [← hg]
    cases hbad : s₂.bad with
    | true => rw [hbad] at hb; simpa using hb
    | false => rw [hbad] at hb; simpa using hb
  · intro input hi
    have hb := h4.bad
    cases hbad : s₂.bad with
    | true => rw [hbad] at hi; cases hi
    | false =>
      rw [hbad] at hi hb
      have hi : some (⟨extractExecutable argv0, s₂.args⟩ : Input) = some input := hi
      cases hi
      have hg : Good [] argv := by
        by_cases hg : Good [] argv
        · exact hg
        · have := hb.mpr (.inr hg); cases this
      obtain ⟨ts, ht, hn, _⟩ := hg
      have hg : Good [] argv := ⟨ts, ht, hn, by simp⟩
      refine ⟨ts, ht, ?_, ?_, rfl⟩
      · have := h4.args hg ts ht
        rw [records_eq]; simpa [recorded] using this
      · have := h4.msgs hg ts ht
        simpa using this

/-- **C31** through the access functions: looking up an option by its long name finds the one given, with
its value, and the filters are the positional arguments in order. -/
theorem C31_lookup {maxArgs : Nat} {dflt color : Bool} {argv0 : Text} {argv : List Text}
    (h : argv.length ≤ maxArgs) {msgs : List Msg} {input : Input}
    (hp : parseArguments maxArgs dflt argv0 argv = .ok (color, msgs, some input)) :
    ∃ ts, tokens argv = some ts ∧
      (∀ name, name ≠ [] → (getOption input name).map (fun a => (a.name, a.value)) =
        (optionsOf ts).find? fun p => p.1 == name) ∧
      positionals "test regex".toList input.arguments = .ok (positionalsOf ts) ∧
      ((getPositional input "test regex".toList).isSome ↔ positionalsOf ts ≠ []) := by
  obtain ⟨s₁, h1, h2⟩ := parseWith_output argv0 h
  obtain ⟨s₂, h3, h4⟩ := parseWith_spec argv0 h
  simp only [parseArguments, parseColorOptions, h2, h3, Outcome.bind_ok, Outcome.pure_eq,
    Outcome.ok.injEq, Prod.mk.injEq] at hp
  obtain ⟨_, _, hi⟩ := hp
  have hb := h4.bad
  cases hbad : s₂.bad with
  | true => rw [hbad] at hi; cases hi
  | false =>
    rw [hbad] at hi hb
    have hi : some (⟨extractExecutable argv0, s₂.args⟩ : Input) = some input := hi
    cases hi
    have hg : Good [] argv := by
      by_cases hg : Good [] argv
      · exact hg
      · have := hb.mpr (.inr hg); cases this
    obtain ⟨ts, ht, hn, hd⟩ := hg
    have hg : Good [] argv := ⟨ts, ht, hn, hd⟩
    have ha : s₂.args.map (fun a => (a.name, a.value)) = ts.filterMap entryOf := by
      simpa using h4.args hg ts ht
    have hnames : ∀ a ∈ s₂.args, a.name = [] → a.valueName = some "test regex".toList := by
      intro a hm
      rcases h4.names a hm (.inr hg) with h | h
      · cases h
      · exact h
    have hopt := optionNames_ne ht
    have hpos : ∀ (as : List Argument) (us : List Token),
        as.map (fun a => (a.name, a.value)) = us.filterMap entryOf →
        (∀ a ∈ as, a.name = [] → a.valueName = some "test regex".toList) →
        (∀ l ∈ optionNames us, l ≠ []) →
        positionals "test regex".toList as = .ok (positionalsOf us) ∧
        ((as.find? fun a => !a.isOption && a.valueName == some "test regex".toList).isSome ↔
          positionalsOf us ≠ []) := by
      intro as us
      induction us generalizing as with
      | nil =>
        intro h1 _ _
        have : as = [] := by simpa using h1
        subst this
        exact ⟨rfl, by simp [positionalsOf]⟩
      | cons t us ih =>
        intro h1 h2 h3
        cases t with
        | unknown x => exact ih as h1 h2 h3
        | option l v =>
          have h1 : as.map (fun a => (a.name, a.value)) = (l, v) :: us.filterMap entryOf := h1
          cases as with
          | nil => cases h1
          | cons a as =>
            simp only [List.map_cons, List.cons.injEq, Prod.mk.injEq] at h1
            have hl : l ≠ [] := h3 l (by show l ∈ l :: optionNames us; simp)
            have hne : a.isOption = true := by
              unfold Argument.isOption; rw [h1.1.1]
              cases l with
              | nil => exact absurd rfl hl
              | cons c l => rfl
            have hrec := ih as h1.2 (fun b hb => h2 b (List.mem_cons_of_mem _ hb))
              (fun x hx => h3 x (by show x ∈ l :: optionNames us; exact List.mem_cons_of_mem _ hx))
            have hcond : (!a.isOption && a.valueName == some "test regex".toList) = false := by
              rw [hne]; rfl
            rw [positionals, hcond, List.find?_cons, hcond]
            exact hrec
        | positional v =>
          have h1 : as.map (fun a => (a.name, a.value)) = ([], some v) :: us.filterMap entryOf := h1
          cases as with
          | nil => cases h1
          | cons a as =>
            simp only [List.map_cons, List.cons.injEq, Prod.mk.injEq] at h1
            have hcond : (!a.isOption && a.valueName == some "test regex".toList) = true := by
              rw [h2 a (by simp) h1.1.1, Argument.isOption, h1.1.1]; rfl
            have hrec := ih as h1.2 (fun b hb => h2 b (List.mem_cons_of_mem _ hb)) h3
            constructor
            · rw [positionals, hcond, if_pos rfl, h1.1.2]
              simp only [hrec.1]
              rfl
            · rw [List.find?_cons, hcond]
              exact ⟨fun _ h => List.cons_ne_nil v (positionalsOf us) h, fun _ => rfl⟩
    refine ⟨ts, ht, ?_, (hpos _ ts ha hnames hopt).1, (hpos _ ts ha hnames hopt).2⟩
    intro name hne
    rw [getOption, ← find_pairs, ha, entries_names ts name hne]

/-- A command line mixing everything. -/
def exampleLine : List Text :=
  ["-v", "high", "a*", "--order", "rand", "-o", "-x", "~[b]", "--zzz", "--help"].map String.toList

theorem exampleLine_tokens : tokens exampleLine = some [.option "--verbosity".toList (some "high".toList),
    .positional "a*".toList, .unknown "--order".toList, .option "--out".toList (some "-x".toList),
    .positional "~[b]".toList, .unknown "--zzz".toList, .option "--help".toList none] := by decide

example : WellFormed exampleLine ∧ exampleLine.length ≤ 1024 :=
  ⟨⟨_, exampleLine_tokens, by decide⟩, by decide⟩
/-- Missing value; same option in two spellings. -/
example : ¬ WellFormed (["--out"].map String.toList) ∧
    ¬ WellFormed (["-v", "high", "--verbosity", "full"].map String.toList) := by
  constructor
  · rintro ⟨ts, h, _⟩; cases h.symm.trans (by decide : tokens _ = none)
  · rintro ⟨ts, h, hn⟩
    have : tokens (["-v", "high", "--verbosity", "full"].map String.toList) =
      some [.option "--verbosity".toList (some "high".toList),
        .option "--verbosity".toList (some "full".toList)] := by decide
    rw [this] at h
    cases h
    revert hn; decide

/-! ## C32 -/

private theorem withValue_given {α : Type} {o : Option Argument}
    (h : ∀ a, o = some a → a.value.isSome) (dflt : α) (f : Text → Outcome α) :
    (o.bind (·.value) = none ∧ withValue o dflt f = .ok dflt) ∨
    ∃ v, o.bind (·.value) = some v ∧ withValue o dflt f = f v := by
  cases o with
  | none => exact .inl ⟨rfl, rfl⟩
  | some a =>
    obtain ⟨v, hv⟩ := Option.isSome_iff_exists.mp (h a rfl)
    exact .inr ⟨v, hv, by simp [withValue, hv]⟩

/-- The value recorded for an option in the result of parsing. -/
def valueOf (input : Input) (name : String) : Option Text := (getOption input name.toList).bind (·.value)

/-- Options that need a value have one (true of every result of the parser, see
`C32_values_present`). -/
def ValuesPresent (input : Input) : Prop :=
  ∀ name ∈ ["--colour-mode", "--color", "--verbosity", "--out", "--reporter", "--list-tests-with-tag"],
    ∀ a, getOption input name.toList = some a → a.value.isSome

/-- **C32**. After `configure`: an effective `--color` determines the colour; otherwise an effective
`--colour-mode`; otherwise `--out` disables it and without `--out` it is unchanged. The verbosity is the
requested one, or unchanged if it is unknown or not given; the output file is the one given. -/
theorem C32_configure {reporters : List Text} {input : Input} {c c' : Config}
    (hv : ValuesPresent input) (h : configure reporters input c = .ok c') :
    c'.withColor = (match asks "always" "never" (valueOf input "--color") with
      | some b => b
      | none => match asks "ansi" "none" (valueOf input "--colour-mode") with
        | some b => b
        | none => if (valueOf input "--out").isSome then false else c.withColor) ∧
    c'.verbosity = (verbosityOf (valueOf input "--verbosity")).getD c.verbosity ∧
    c'.out = (valueOf input "--out").or c.out := by
  have hrep : ∀ (arg : Text) (d d' : Config), parseReporter reporters arg d = .ok d' →
      d'.withColor = d.withColor ∧ d'.verbosity = d.verbosity ∧ d'.out = d.out := by
    intro arg d d' h
    unfold parseReporter at h
    split at h
    · cases h; exact ⟨rfl, rfl, rfl⟩
    · dsimp only at h
      split at h
      · cases h; exact ⟨rfl, rfl, rfl⟩
      · split at h
        · cases h; exact ⟨rfl, rfl, rfl⟩
        · split at h
          · cases h
          · cases h; exact ⟨rfl, rfl, rfl⟩
  have hverb : ∀ (v : Text) (d : Config), (verbosityOption v d).withColor = d.withColor ∧
      (verbosityOption v d).out = d.out ∧
      (verbosityOption v d).verbosity = (verbosityOf (some v)).getD d.verbosity := by
    intro v d
    unfold verbosityOption verbosityOf
    dsimp only
    split
    · exact ⟨rfl, rfl, rfl⟩
    · split
      · exact ⟨rfl, rfl, rfl⟩
      · split
        · exact ⟨rfl, rfl, rfl⟩
        · split <;> exact ⟨rfl, rfl, rfl⟩
  have hcol : ∀ (yes no : String) (v : Text) (d : Config),
      (colorOption yes.toList no.toList v d).1.verbosity = d.verbosity ∧
      (colorOption yes.toList no.toList v d).1.out = d.out ∧
      (colorOption yes.toList no.toList v d).2 = (asks yes no (some v)).isSome ∧
      (colorOption yes.toList no.toList v d).1.withColor =
        (asks yes no (some v)).getD d.withColor := by
    intro yes no v d
    unfold colorOption asks
    simp only [Option.some.injEq]
    split
    · exact ⟨rfl, rfl, rfl, rfl⟩
    · split
      · exact ⟨rfl, rfl, rfl, rfl⟩
      · split <;> exact ⟨rfl, rfl, rfl, rfl⟩
  -- after the colour options
  obtain ⟨c1, ov, e1, hc1, hv1, ho1, hov⟩ : ∃ c1 ov, configureColor input c = .ok (c1, ov) ∧
      c1.withColor = ((asks "always" "never" (valueOf input "--color")).getD
        ((asks "ansi" "none" (valueOf input "--colour-mode")).getD c.withColor)) ∧
      c1.verbosity = c.verbosity ∧ c1.out = c.out ∧
      ov = ((asks "always" "never" (valueOf input "--color")).isSome ||
        (asks "ansi" "none" (valueOf input "--colour-mode")).isSome) := by
    unfold configureColor valueOf
    rcases withValue_given (hv "--colour-mode" (by simp)) (c, false)
        (fun v => .ok (colorOption "ansi".toList "none".toList v c)) with ⟨hm, e⟩ | ⟨w, hm, e⟩ <;>
      rw [e, hm, Outcome.bind_ok]
    · rcases withValue_given (hv "--color" (by simp)) (c, false)
        (fun v => .ok ((colorOption "always".toList "never".toList v c).1,
          (colorOption "always".toList "never".toList v c).2 || false)) with ⟨hk, e⟩ | ⟨v, hk, e⟩
      · exact ⟨_, _, e, by rw [hk]; rfl, rfl, rfl, by rw [hk]; rfl⟩
      · obtain ⟨a1, a2, a3, a4⟩ := hcol "always" "never" v c
        exact ⟨_, _, e, by rw [hk]; exact a4, a1, a2, by rw [hk, a3]; rfl⟩
    · obtain ⟨b1, b2, b3, b4⟩ := hcol "ansi" "none" w c
      generalize colorOption "ansi".toList "none".toList w c = q at b1 b2 b3 b4 ⊢
      obtain ⟨d, o⟩ := q
      rcases withValue_given (hv "--color" (by simp)) (d, o)
        (fun v => .ok ((colorOption "always".toList "never".toList v d).1,
          (colorOption "always".toList "never".toList v d).2 || o)) with ⟨hk, e⟩ | ⟨v, hk, e⟩
      · exact ⟨_, _, e, by rw [hk]; exact b4, b1, b2, by rw [hk]; simpa [asks] using b3⟩
      · obtain ⟨a1, a2, a3, a4⟩ := hcol "always" "never" v d
        exact ⟨_, _, e, by rw [hk, a4, ← b4], by rw [a1]; exact b1, by rw [a2]; exact b2,
          by rw [hk, a3, ← b3]⟩
  unfold configure at h
  rw [e1, Outcome.bind_ok] at h
  -- the verbosity
  obtain ⟨c2, e2, hc2, hv2, ho2⟩ : ∃ c2, (withValue (getOption input "--verbosity".toList) c1
        fun v => .ok (verbosityOption v c1)) = .ok c2 ∧ c2.withColor = c1.withColor ∧
      c2.verbosity = (verbosityOf (valueOf input "--verbosity")).getD c1.verbosity ∧
      c2.out = c1.out := by
    rcases withValue_given (hv "--verbosity" (by simp)) c1 (fun v => .ok (verbosityOption v c1)) with
      ⟨hk, e⟩ | ⟨v, hk, e⟩
    · exact ⟨c1, e, rfl, by rw [valueOf, hk]; rfl, rfl⟩
    · obtain ⟨a1, a2, a3⟩ := hverb v c1
      exact ⟨_, e, a1, by rw [valueOf, hk]; exact a3, a2⟩
  simp only [e2, Outcome.bind_ok] at h
  -- the output file
  obtain ⟨c3, e3, hc3, hv3, ho3⟩ : ∃ c3, configureOut input ov c2 = .ok c3 ∧
      c3.withColor = (if ov then c2.withColor else
        if (valueOf input "--out").isSome then false else c2.withColor) ∧
      c3.verbosity = c2.verbosity ∧ c3.out = (valueOf input "--out").or c2.out := by
    unfold configureOut
    rcases withValue_given (hv "--out" (by simp)) c2 (fun v =>
      .ok { c2 with out := some v, withColor := if ov then c2.withColor else false }) with
      ⟨hk, e⟩ | ⟨v, hk, e⟩
    · exact ⟨c2, e, by rw [valueOf, hk]; simp, rfl, by rw [valueOf, hk]; rfl⟩
    · exact ⟨_, e, by rw [valueOf, hk]; simp, rfl, by rw [valueOf, hk]; rfl⟩
  simp only [e3, Outcome.bind_ok] at h
  have hfin : c'.withColor = c3.withColor ∧ c'.verbosity = c3.verbosity ∧ c'.out = c3.out := by
    rcases withValue_given (hv "--reporter" (by simp)) c3 (fun v => parseReporter reporters v c3) with
      ⟨hk, e⟩ | ⟨v, hk, e⟩
    · rw [e] at h; cases h; exact ⟨rfl, rfl, rfl⟩
    · rw [e] at h; exact hrep v c3 c' h
  refine ⟨?_, by rw [hfin.2.1, hv3, hv2, hv1], by rw [hfin.2.2, ho3, ho2, ho1]⟩
  rw [hfin.1, hc3, hc2, hc1, hov]
  cases asks "always" "never" (valueOf input "--color") with
  | some b => simp
  | none => cases asks "ansi" "none" (valueOf input "--colour-mode") <;> simp

/-- **C32**. In the result of a successful parse the options have their values. -/
theorem C32_values_present {maxArgs : Nat} {dflt color : Bool} {argv0 : Text} {argv : List Text}
    (h : argv.length ≤ maxArgs) {msgs : List Msg} {input : Input}
    (hp : parseArguments maxArgs dflt argv0 argv = .ok (color, msgs, some input)) :
    ValuesPresent input := by
  obtain ⟨ts, ht, hl, _⟩ := C31_lookup h hp
  have hval : ∀ {argv : List Text} {ts : List Token}, tokens argv = some ts → ∀ l v,
      .option l v ∈ ts → v = none → ∃ p ∈ flags, p.2.toList = l := by
    intro argv
    fun_induction tokens argv with
    | case1 => intro ts h; cases h; intro l v hm; cases hm
    | case2 a rest hd l hk ih =>
      intro ts h
      cases hr : tokens rest with
      | none => rw [hr] at h; cases h
      | some us =>
        rw [hr] at h; cases h
        intro x v hm hv
        rcases List.mem_cons.mp hm with hm | hm
        · cases hm
          rw [kind] at hk
          cases hf' : find a flags with
          | none =>
            rw [hf'] at hk
            simp only at hk
            split at hk
            · cases hk
            · split at hk <;> cases hk
          | some y =>
            rw [hf'] at hk
            cases hk
            rw [find] at hf'
            cases hx : flags.find? fun p => p.1.toList == a with
            | none => rw [hx] at hf'; cases hf'
            | some p =>
              rw [hx] at hf'
              cases hf'
              exact ⟨p, List.mem_of_find?_eq_some hx, rfl⟩
        · exact ih hr x v hm hv
    | case3 => intro ts h; cases h
    | case4 a hd l hk v rest ih =>
      intro ts h
      cases hr : tokens rest with
      | none => rw [hr] at h; cases h
      | some us =>
        rw [hr] at h; cases h
        intro x v hm hv
        rcases List.mem_cons.mp hm with hm | hm
        · cases hm; cases hv
        · exact ih hr x v hm hv
    | case5 => intro ts h; cases h; intro l v hm; simp at hm
    | case6 a hd hk v rest ih =>
      intro ts h
      cases hr : tokens rest with
      | none => rw [hr] at h; cases h
      | some us =>
        rw [hr] at h; cases h
        intro x v hm hv
        rcases List.mem_cons.mp hm with hm | hm
        · cases hm
        · exact ih hr x v hm hv
    | case7 a rest hd hk ih =>
      intro ts h
      cases hr : tokens rest with
      | none => rw [hr] at h; cases h
      | some us =>
        rw [hr] at h; cases h
        intro x v hm hv
        rcases List.mem_cons.mp hm with hm | hm
        · cases hm
        · exact ih hr x v hm hv
    | case8 a rest hd ih =>
      intro ts h
      cases hr : tokens rest with
      | none => rw [hr] at h; cases h
      | some us =>
        rw [hr] at h; cases h
        intro x v hm hv
        rcases List.mem_cons.mp hm with hm | hm
        · cases hm
        · exact ih hr x v hm hv
  intro name hname a ha
  have hne : name.toList ≠ [] := by
    have : ∀ n ∈ ["--colour-mode", "--color", "--verbosity", "--out", "--reporter",
      "--list-tests-with-tag"], n.toList ≠ [] := by decide
    exact this name hname
  have hf := hl name.toList hne
  rw [ha] at hf
  have hm := List.mem_of_find?_eq_some hf.symm
  have hname' : a.name = name.toList := by
    have := List.find?_some hf.symm
    simpa using this
  cases hv : a.value with
  | some v => rfl
  | none =>
    exfalso
    dsimp only at hm
    rw [hv, hname'] at hm
    simp only [optionsOf, List.mem_filterMap] at hm
    obtain ⟨t, h1, h2⟩ := hm
    cases t with
    | positional v => cases h2
    | unknown v => cases h2
    | option l v =>
      cases h2
      obtain ⟨p, hp1, hp2⟩ := hval ht _ none h1 rfl
      have : ∀ p ∈ flags, ∀ n ∈ ["--colour-mode", "--color", "--verbosity", "--out", "--reporter",
        "--list-tests-with-tag"], p.2.toList ≠ n.toList := by decide
      exact this p hp1 name hname hp2

/-- The initial configuration of the registry. -/
def initialConfig (color : Bool) : Config :=
  { withColor := color, verbosity := 1, out := none, reporter := none, warnings := 0 }

/-- What a command line leads to, from start-up to the configured registry. -/
def startUp (reporters : List Text) (dflt : Bool) (argv : List Text) : Outcome (Option Config) :=
  parseArguments 1024 dflt "prog".toList argv >>= fun (_, _, input) =>
    match input with
    | none => .ok none
    | some input => configure reporters input (initialConfig dflt) >>= fun c => .ok (some c)

set_option maxRecDepth 4000 in
example : startUp [] true (["--out", "f", "--colour-mode", "ansi", "-v", "full"].map String.toList) =
    .ok (some { withColor := true, verbosity := 3, out := some ['f'], reporter := none, warnings := 0 }) := by
  decide

/-! ## C33 -/

theorem findAt_pair_none : ∀ {s : Text}, ¬ [':', ':'] <:+: s → findAt [':', ':'] s = none := by
  intro s
  induction s with
  | nil => intro _; rfl
  | cons c cs ih =>
    intro h
    have h1 : ¬ [':', ':'] <+: c :: cs := fun hp => h hp.isInfix
    have h2 : ¬ [':', ':'] <:+: cs := fun ⟨x, y, e⟩ => h ⟨c :: x, y, by simp [← e]⟩
    rw [findAt, if_neg (by rwa [List.isPrefixOf_iff_prefix]), ih h2]; rfl

private theorem findAt_pair_some : ∀ {name : Text} (rest : Text), ':' ∉ name →
    findAt [':', ':'] (name ++ ':' :: ':' :: rest) = some name.length := by
  intro name rest
  induction name with
  | nil => intro _; rfl
  | cons c cs ih =>
    intro h
    have hc : c ≠ ':' := fun e => h (by rw [e]; simp)
    have h1 : ¬ [':', ':'] <+: c :: (cs ++ ':' :: ':' :: rest) := by
      rintro ⟨t, e⟩
      simp at e
      exact hc e.1.symm
    rw [List.cons_append, findAt, if_neg (by rwa [List.isPrefixOf_iff_prefix]),
      ih (fun hm => h (List.mem_cons_of_mem _ hm))]
    rfl

private theorem noColon_infix {s : Text} (h : ':' ∉ s) : ¬ [':', ':'] <:+: s := by
  rintro ⟨x, y, e⟩
  exact h (by rw [← e]; simp)

/-- `i` is the first registered reporter with this name. -/
def IsReporter (reporters : List Text) (name : Text) (i : Nat) : Prop :=
  reporters[i]? = some name ∧ ∀ j < i, reporters[j]? ≠ some name

theorem findIdx_reporter {reporters : List Text} {name : Text} {i : Nat}
    (h : IsReporter reporters name i) : reporters.findIdx? (· == name) = some i := by
  obtain ⟨h1, h2⟩ := h
  obtain ⟨hi, e⟩ := List.getElem?_eq_some_iff.mp h1
  rw [List.findIdx?_eq_some_iff_getElem]
  refine ⟨hi, by simp [e], ?_⟩
  intro j hj
  have := h2 j hj
  rw [List.getElem?_eq_getElem (by omega)] at this
  simp only [Bool.not_eq_true, beq_eq_false_iff_ne]
  exact fun e => this (by rw [e])

private theorem head_colon {name rest : Text} (h1 : name ≠ []) (h2 : ':' ∉ name) :
    ((name ++ rest).isEmpty || (name ++ rest).head? == some ':') = false := by
  cases name with
  | nil => exact absurd rfl h1
  | cons c cs =>
    have : c ≠ ':' := fun e => h2 (by rw [e]; simp)
    simp [this]

/-- **C33** for one option: `name::key=value` selects the reporter with exactly that name and passes it
the key and the value, once. Partial: the full claim is about any number of options, and is false for
two or more (see `C33_two_options`). -/
theorem C33_one_option_partial {reporters : List Text} {name k v : Text} {i : Nat} (c : Config)
    (hi : IsReporter reporters name i) (hn : name ≠ []) (hn' : ':' ∉ name) (hk : k ≠ [])
    (hk' : '=' ∉ k) (ho : ¬ [':', ':'] <:+: k ++ '=' :: v) :
    parseReporter reporters (name ++ "::".toList ++ k ++ '=' :: v) c =
      .ok { c with reporter := some (i, [(k, v)]) } := by
  have e : name ++ "::".toList ++ k ++ '=' :: v = name ++ ':' :: ':' :: (k ++ '=' :: v) := by simp
  have hf : findFrom (name ++ ':' :: ':' :: (k ++ '=' :: v)) [':', ':'] 0 = some name.length := by
    rw [findFrom, if_pos (Nat.zero_le _), List.drop_zero, findAt_pair_some _ hn']; rfl
  have ht : (name ++ ':' :: ':' :: (k ++ '=' :: v)).take name.length = name := by simp
  have hd : (name ++ ':' :: ':' :: (k ++ '=' :: v)).drop name.length = ':' :: ':' :: (k ++ '=' :: v) := by
    simp
  have hf2 : findFrom (':' :: ':' :: (k ++ '=' :: v)) [':', ':'] 0 = some 0 := by
    rw [findFrom, if_pos (Nat.zero_le _)]; rfl
  have hopt : reporterOption (k ++ '=' :: v) = some (k, v) := by
    have : (k ++ '=' :: v).findIdx? (· == '=') = some k.length := by
      rw [List.findIdx?_append]
      have : k.findIdx? (· == '=') = none := by
        rw [List.findIdx?_eq_none_iff]
        intro x hx
        simp only [beq_eq_false_iff_ne]
        rintro rfl
        exact hk' hx
      have h0 : ('=' :: v).findIdx? (· == '=') = some 0 := rfl
      rw [this, h0]; simp
    rw [reporterOption, this]
    cases k with
    | nil => exact absurd rfl hk
    | cons a k => simp
  have hopts : reporterOptions ((':' :: ':' :: (k ++ '=' :: v)).length + 1)
      (':' :: ':' :: (k ++ '=' :: v)) = some [(k, v)] := by
    have : findFrom (':' :: ':' :: (k ++ '=' :: v)) [':', ':'] 2 = none := by
      rw [findFrom, if_pos (by simp)]
      have : (':' :: ':' :: (k ++ '=' :: v)).drop 2 = k ++ '=' :: v := rfl
      rw [this, findAt_pair_none ho]; rfl
    rw [reporterOptions, this]
    have : (':' :: ':' :: (k ++ '=' :: v)).drop 2 = k ++ '=' :: v := rfl
    simp only [this, hopt]
    rfl
  rw [e, parseReporter, head_colon hn hn', if_neg (by decide), hf]
  simp only [ht, hd, findIdx_reporter hi, hf2, hopts]

/-- **C33** without options. -/
theorem C33_no_option_partial {reporters : List Text} {name : Text} {i : Nat} (c : Config)
    (hi : IsReporter reporters name i) (hn : name ≠ []) (hn' : ':' ∉ name) :
    parseReporter reporters name c = .ok { c with reporter := some (i, []) } := by
  have hf : findFrom name [':', ':'] 0 = none := by
    rw [findFrom, if_pos (Nat.zero_le _), List.drop_zero, findAt_pair_none (noColon_infix hn')]; rfl
  have hh := head_colon (rest := []) hn hn'
  rw [List.append_nil] at hh
  rw [parseReporter, hh, if_neg (by decide), hf]
  simp only [findIdx_reporter hi]
  rfl

/-- **C33**. An unknown reporter name, whatever options follow, leaves the current reporter (and all the
rest of the configuration) in place, with a warning. -/
theorem C33_unknown_name {reporters : List Text} {name : Text} (rest : Text) (c : Config)
    (hi : name ∉ reporters) (hn : name ≠ []) (hn' : ':' ∉ name) :
    parseReporter reporters (name ++ "::".toList ++ rest) c = .ok { c with warnings := c.warnings + 1 } ∧
    parseReporter reporters name c = .ok { c with warnings := c.warnings + 1 } := by
  have hnone : reporters.findIdx? (· == name) = none := by
    rw [List.findIdx?_eq_none_iff]
    intro x hx
    simp only [beq_eq_false_iff_ne]
    rintro rfl
    exact hi hx
  constructor
  · have e : name ++ "::".toList ++ rest = name ++ ':' :: ':' :: rest := by simp
    have hf : findFrom (name ++ ':' :: ':' :: rest) [':', ':'] 0 = some name.length := by
      rw [findFrom, if_pos (Nat.zero_le _), List.drop_zero, findAt_pair_some _ hn']; rfl
    have ht : (name ++ ':' :: ':' :: rest).take name.length = name := by simp
    rw [e, parseReporter, head_colon hn hn', if_neg (by decide), hf]
    simp only [ht, hnone]
  · have hf : findFrom name [':', ':'] 0 = none := by
      rw [findFrom, if_pos (Nat.zero_le _), List.drop_zero, findAt_pair_none (noColon_infix hn')]; rfl
    have hh := head_colon (rest := []) hn hn'
    rw [List.append_nil] at hh
    rw [parseReporter, hh, if_neg (by decide), hf]
    simp only [hnone]

/-- **C33**. Nothing, or something starting with a colon, leaves the current reporter in place. -/
theorem C33_ill_formed {reporters : List Text} {arg : Text} (c : Config)
    (h : arg = [] ∨ ∃ t, arg = ':' :: t) :
    parseReporter reporters arg c = .ok { c with warnings := c.warnings + 1 } := by
  rcases h with rfl | ⟨t, rfl⟩ <;> rfl

private theorem reporterOptions_total : ∀ (fuel : Nat) (s : Text), s.length < fuel →
    ∃ r, reporterOptions fuel s = some r := by
  intro fuel
  induction fuel with
  | zero => intro s h; omega
  | succ fuel ih =>
    intro s h
    rw [reporterOptions]
    cases hf : findFrom s [':', ':'] 2 with
    | none => exact ⟨_, rfl⟩
    | some p =>
      obtain ⟨x, y, e, hp, hl, _⟩ := findFrom_some hf
      obtain ⟨r, hr⟩ := ih (s.drop p) (by rw [List.length_drop]; omega)
      exact ⟨_, by simp only [hr]; rfl⟩

/-- **C33**. Handling the `--reporter` option always comes to an end (whatever its value), and changes
nothing but the reporter and the number of warnings. -/
theorem C33_total (reporters : List Text) (arg : Text) (c : Config) :
    ∃ r w, parseReporter reporters arg c = .ok { c with reporter := r, warnings := w } := by
  unfold parseReporter
  split
  · exact ⟨_, _, rfl⟩
  · dsimp only
    split
    · exact ⟨_, _, rfl⟩
    · split
      · exact ⟨_, _, rfl⟩
      · obtain ⟨r, hr⟩ := reporterOptions_total _ _ (Nat.lt_succ_self _)
        rw [hr]
        exact ⟨_, _, rfl⟩

/-- Options as written on the command line, each after `::`. -/
def joined : List Text → Text
  | [] => []
  | o :: os => "::".toList ++ o ++ joined os

/-- `key=value` with a non-empty key, taken apart. -/
def keyValue (o : Text) : List (Text × Text) :=
  let k := o.takeWhile (· ≠ '=')
  if k ≠ [] ∧ '=' ∈ o then [(k, o.drop (k.length + 1))] else []

/-- What the reporter is given, if the last option before these has `n` characters: not the option itself but `n + 2`
characters beginning with the next option; only the last option is given as it is. -/
def received (n : Nat) : List Text → List (Text × Text)
  | [] => []
  | o :: os => keyValue ((o ++ joined os).take (n + 2)) ++ received o.length os

private theorem reporterOption_eq (o : Text) : (reporterOption o).toList = keyValue o := by
  have key : ∀ o : Text, (o.findIdx? (· == '=') = none ∧ '=' ∉ o) ∨
      ('=' ∈ o ∧ o.findIdx? (· == '=') = some (o.takeWhile (· ≠ '=')).length) := by
    intro o
    induction o with
    | nil => exact .inl ⟨rfl, by simp⟩
    | cons c o ih =>
      by_cases hc : c = '='
      · exact .inr ⟨by simp [hc], by simp [List.findIdx?_cons, hc]⟩
      · rcases ih with ⟨h1, h2⟩ | ⟨h1, h2⟩
        · exact .inl ⟨by simp [List.findIdx?_cons, hc, h1], by simp [h2]; exact fun e => hc e.symm⟩
        · exact .inr ⟨by simp [h1], by simp [List.findIdx?_cons, hc, h2]⟩
  have htake : ∀ o : Text, o.take (o.takeWhile (· ≠ '=')).length = o.takeWhile (· ≠ '=') :=
    fun o => (List.prefix_iff_eq_take.mp (List.takeWhile_prefix _)).symm
  rcases key o with ⟨h1, h2⟩ | ⟨h1, h2⟩
  · simp [reporterOption, h1, keyValue, h2]
  · unfold reporterOption keyValue
    rw [h2]
    simp only
    cases hk : o.takeWhile (· ≠ '=') with
    | nil => simp
    | cons a k =>
      have := htake o
      rw [hk] at this
      simp only [List.length_cons] at this ⊢
      simp [this, h1]

private theorem reporterOptions_eq : ∀ (os : List Text) (o : Text) (fuel : Nat), os.length < fuel →
    (∀ x ∈ (o :: os).dropLast, ':' ∉ x) → ¬ [':', ':'] <:+: (o :: os).getLast (by simp) →
    reporterOptions fuel (joined (o :: os)) = some (if os = [] then keyValue o
      else received o.length os ++ keyValue ((o :: os).getLast (by simp))) := by
  intro os
  induction os with
  | nil =>
    intro o fuel hf _ hl
    obtain ⟨fuel, rfl⟩ : ∃ n, fuel = n + 1 := ⟨fuel - 1, by simp at hf; omega⟩
    have e : joined [o] = ':' :: ':' :: o := by simp [joined]
    have : findFrom (':' :: ':' :: o) [':', ':'] 2 = none := by
      rw [findFrom, if_pos (by simp), show (':' :: ':' :: o).drop 2 = o from rfl,
        findAt_pair_none (s := o) hl]; rfl
    rw [e, reporterOptions, this]
    simp only [if_true]
    rw [show (':' :: ':' :: o).drop 2 = o from rfl, reporterOption_eq]
  | cons o2 os ih =>
    intro o fuel hf hc hl
    obtain ⟨fuel, rfl⟩ : ∃ n, fuel = n + 1 := ⟨fuel - 1, by omega⟩
    have ho : ':' ∉ o := hc o (by simp)
    have e : joined (o :: o2 :: os) = ':' :: ':' :: (o ++ joined (o2 :: os)) := by simp [joined]
    have e2 : joined (o2 :: os) = ':' :: ':' :: (o2 ++ joined os) := by simp [joined]
    have hfind : findFrom (':' :: ':' :: (o ++ joined (o2 :: os))) [':', ':'] 2 = some (o.length + 2) := by
      rw [findFrom, if_pos (by simp), show (':' :: ':' :: (o ++ joined (o2 :: os))).drop 2 = o ++ joined (o2 :: os)
        from rfl, e2, findAt_pair_some _ ho]; rfl
    have hdrop : (':' :: ':' :: (o ++ joined (o2 :: os))).drop (o.length + 2) = joined (o2 :: os) := by
      simp
    rw [e, reporterOptions, hfind]
    simp only [hdrop]
    rw [ih o2 fuel (by simp at hf; omega) (fun x hx => hc x (by simp [hx])) (by simpa using hl)]
    have hd2 : (joined (o2 :: os)).drop 2 = o2 ++ joined os := by rw [e2]; rfl
    rw [hd2, reporterOption_eq]
    simp only [Option.map_some, reduceCtorEq, if_false, received, List.append_assoc]
    cases os with
    | nil => simp [received]
    | cons o3 os => simp

/-- **C33**, what the code does for any number of options: the first is never given to the reporter; instead of each,
the reporter gets a text of the right length plus two, but beginning at the next option; the last is given at the
end. With one option this is right. -/
theorem C33_received {reporters : List Text} {name o : Text} {os : List Text} {i : Nat} (c : Config)
    (hi : IsReporter reporters name i) (hn : name ≠ []) (hn' : ':' ∉ name) (ho : ∀ x ∈ (o :: os).dropLast, ':' ∉ x)
    (hl : ¬ [':', ':'] <:+: (o :: os).getLast (by simp)) :
    parseReporter reporters (name ++ joined (o :: os)) c =
      .ok { c with reporter := some (i, received o.length os ++ keyValue ((o :: os).getLast (by simp))) } := by
  have e : joined (o :: os) = ':' :: ':' :: (o ++ joined os) := by simp [joined]
  have hlen : ∀ l : List Text, l.length ≤ (joined l).length := by
    intro l
    induction l with
    | nil => simp
    | cons a l ih => simp [joined]; omega
  have hopts := reporterOptions_eq os o ((joined (o :: os)).length + 1)
    (by have := hlen (o :: os); simp at this ⊢; omega) ho hl
  have hopts : reporterOptions ((joined (o :: os)).length + 1) (joined (o :: os)) =
      some (received o.length os ++ keyValue ((o :: os).getLast (by simp))) := by
    rw [hopts]
    cases os with
    | nil => rfl
    | cons o2 os => rfl
  rw [e] at hopts ⊢
  have hf : findFrom (name ++ ':' :: ':' :: (o ++ joined os)) [':', ':'] 0 = some name.length := by
    rw [findFrom, if_pos (Nat.zero_le _), List.drop_zero, findAt_pair_some _ hn']; rfl
  have ht : (name ++ ':' :: ':' :: (o ++ joined os)).take name.length = name := by simp
  have hd : (name ++ ':' :: ':' :: (o ++ joined os)).drop name.length = ':' :: ':' :: (o ++ joined os) := by simp
  have hf2 : findFrom (':' :: ':' :: (o ++ joined os)) [':', ':'] 0 = some 0 := by
    rw [findFrom, if_pos (Nat.zero_le _)]; rfl
  rw [parseReporter, head_colon hn hn', if_neg (by decide), hf]
  simp only [ht, hd, findIdx_reporter hi, hf2, hopts]

example : (∀ x ∈ ["a=1".toList, "b=2".toList, "c=:3".toList].dropLast, ':' ∉ x) ∧
    ¬ [':', ':'] <:+: (["a=1".toList, "b=2".toList, "c=:3".toList].getLast (by simp)) ∧
    received 3 ["b=2".toList, "c=:3".toList] ++ keyValue "c=:3".toList =
      [("b".toList, "2::".toList), ("c".toList, ":3".toList), ("c".toList, ":3".toList)] :=
  ⟨by decide, by decide, by decide⟩

set_option maxRecDepth 4000 in
/-- **C33** fails for two options: the first is dropped and the second is passed twice. With three, the
middle one is cut out wrongly. -/
theorem C33_two_options :
    parseReporter ["xml".toList] "xml::a=1::b=2".toList (initialConfig true) =
      .ok { initialConfig true with reporter := some (0, [(['b'], ['2']), (['b'], ['2'])]) } ∧
    parseReporter ["xml".toList] "xml::a=1::b=2::c=3".toList (initialConfig true) =
      .ok { initialConfig true with reporter := some (0, [(['b'], "2::".toList), (['c'], ['3']),
        (['c'], ['3'])]) } := by
  decide

example : IsReporter ["console".toList, "xml".toList, "xml".toList] "xml".toList 1 ∧ "xml".toList ≠ [] ∧
    ':' ∉ "xml".toList ∧ "colour".toList ≠ [] ∧ '=' ∉ "colour".toList ∧
    ¬ [':', ':'] <:+: "colour".toList ++ '=' :: "a=:b".toList := by
  refine ⟨⟨by decide, by decide⟩, by decide, by decide, by decide, by decide, by decide⟩
example : "x".toList ∉ ["console".toList, "xml".toList] ∧ "x".toList ≠ [] ∧ ':' ∉ "x".toList := by decide

private theorem bind_total {α β : Type} {x : Outcome α} {f : α → Outcome β}
    (hx : ∃ a, x = .ok a) (hf : ∀ a, ∃ b, f a = .ok b) : ∃ b, (x >>= f) = .ok b := by
  obtain ⟨a, rfl⟩ := hx
  exact hf a

private theorem withValue_total {α : Type} {o : Option Argument} {dflt : α} {f : Text → Outcome α}
    (h : ∀ a, o = some a → a.value.isSome) (hf : ∀ v, ∃ b, f v = .ok b) :
    ∃ b, withValue o dflt f = .ok b := by
  rcases withValue_given h dflt f with ⟨_, e⟩ | ⟨v, _, e⟩
  · exact ⟨_, e⟩
  · obtain ⟨b, hb⟩ := hf v; exact ⟨b, e.trans hb⟩

/-- **C32**. Configuring always succeeds. -/
theorem C32_total (reporters : List Text) {input : Input} (c : Config) (hv : ValuesPresent input) :
    ∃ c', configure reporters input c = .ok c' := by
  refine bind_total (bind_total (withValue_total (hv "--colour-mode" (by simp)) fun v => ⟨_, rfl⟩)
    fun q => withValue_total (hv "--color" (by simp)) fun v => ⟨_, rfl⟩) fun q =>
    bind_total (withValue_total (hv "--verbosity" (by simp)) fun v => ⟨_, rfl⟩) fun d =>
    bind_total (withValue_total (hv "--out" (by simp)) fun v => ⟨_, rfl⟩) fun d =>
    withValue_total (hv "--reporter" (by simp)) fun v => ?_
  obtain ⟨r, w, hr⟩ := C33_total reporters v d
  exact ⟨_, hr⟩

/-! ## C51 -/

private theorem overrideColor_eq (d : Bool) (i : Input) : overrideColor d i =
    (asks "ansi" "none" ((getOption i "--colour-mode".toList).bind (·.value))).getD
    ((asks "always" "never" ((getOption i "--color".toList).bind (·.value))).getD d) := by
  unfold overrideColor asks
  cases getOption i "--color".toList with
  | none =>
    cases getOption i "--colour-mode".toList with
    | none => simp
    | some b => simp only [Option.bind_some, Option.bind_none]; split <;> split <;> simp_all
  | some a =>
    cases getOption i "--colour-mode".toList with
    | none => simp only [Option.bind_some, Option.bind_none]; split <;> split <;> simp_all
    | some b =>
      simp only [Option.bind_some]
      split
      · simp
      · split
        · simp
        · simp only [Option.getD_none]
          by_cases h1 : a.value = some "always".toList
          · rw [if_pos h1, if_pos h1]; rfl
          · rw [if_neg h1, if_neg h1]
            by_cases h2 : a.value = some "never".toList
            · rw [if_pos h2, if_pos h2]; rfl
            · rw [if_neg h2, if_neg h2]; rfl

/-- The colour of messages about any command line, also if it is refused. -/
theorem C51_color_any {maxArgs : Nat} {dflt color : Bool} {argv0 : Text} {argv : List Text}
    (h : argv.length ≤ maxArgs) {msgs : List Msg} {r : Option Input}
    (hp : parseArguments maxArgs dflt argv0 argv = .ok (color, msgs, r)) : color = colorFor dflt argv := by
  obtain ⟨s₁, h1, h2⟩ := parseWith_output argv0 h
  obtain ⟨s₂, h3, h4⟩ := parseWith_spec argv0 h
  simp only [parseArguments, parseColorOptions, h2, h3, Outcome.bind_ok, Outcome.pure_eq,
    Outcome.ok.injEq, Prod.mk.injEq] at hp
  obtain ⟨hcol, _, _⟩ := hp
  obtain ⟨s', hs', hpairs⟩ := color_parse_any (maxArgs := maxArgs) argv.length argv []
    { found := outputArgs.map fun _ => false } (Nat.le_refl _) (foundOf_nil _).symm (by simpa using h)
  rw [h1] at hs'
  cases hs'
  have hpairs : s₁.args.map (fun a => (a.name, a.value)) = (colorArgs [] argv).map fun p => (p.1, some p.2) := by
    simpa [PState.pairs] using hpairs
  have hval : ∀ name : String, (getOption ⟨extractExecutable argv0, s₁.args⟩ name.toList).bind (·.value) =
      ((colorArgs [] argv).find? fun p => p.1 == name.toList).map (·.2) := by
    intro name
    have e : (s₁.args.map fun a => (a.name, a.value)).find? (fun p => p.1 == name.toList) =
        ((colorArgs [] argv).map fun p => (p.1, some p.2)).find? fun p => p.1 == name.toList := by rw [hpairs]
    rw [List.find?_map, List.find?_map] at e
    have key : ∀ o : Option Argument, o.bind (·.value) =
        (o.map fun a => (a.name, a.value)).bind (·.2) := by
      intro o; cases o <;> rfl
    rw [key, show getOption ⟨extractExecutable argv0, s₁.args⟩ name.toList =
      s₁.args.find? ((fun p => p.1 == name.toList) ∘ fun a => (a.name, a.value)) from rfl, e]
    show _ = Option.map _ (List.find? ((fun p => p.1 == name.toList) ∘ fun p : Text × Text => (p.1, some p.2)) _)
    cases List.find? ((fun p => p.1 == name.toList) ∘ fun p : Text × Text => (p.1, some p.2)) (colorArgs [] argv) <;> rfl
  rw [← hcol, overrideColor_eq, hval, hval]
  rfl

set_option maxRecDepth 4000 in
/-- The colour options count also on a command line that is refused (here `-l` is given twice), but not as the value of
another option. -/
example : (parseArguments 1024 false "prog".toList (["-l", "-l", "--color", "always"].map String.toList) =
      .ok (true, [.duplicate "-l".toList], none)) ∧
    (parseArguments 1024 false "prog".toList (["-l", "-l", "-o", "--color", "always"].map String.toList) =
      .ok (false, [.duplicate "-l".toList], none)) ∧
    colorFor false (["-l", "-l", "--color", "always"].map String.toList) = true ∧
    colorFor false (["-l", "-l", "-o", "--color", "always"].map String.toList) = false := by decide

/-- The colour asked for by a command line while it is being parsed. -/
theorem C51_color_while_parsing {maxArgs : Nat} {dflt color : Bool} {argv0 : Text} {argv : List Text}
    (h : argv.length ≤ maxArgs) {msgs : List Msg} {input : Input}
    (hp : parseArguments maxArgs dflt argv0 argv = .ok (color, msgs, some input)) :
    color = (asks "ansi" "none" (valueOf input "--colour-mode")).getD
      ((asks "always" "never" (valueOf input "--color")).getD dflt) := by
  obtain ⟨ts, ht, hl, _⟩ := C31_lookup h hp
  obtain ⟨color', msgs', r, hp', hwf, _⟩ := C31_parse dflt argv0 h
  rw [hp] at hp'
  simp only [Outcome.ok.injEq, Prod.mk.injEq] at hp'
  obtain ⟨_, _, rfl⟩ := hp'
  obtain ⟨ts', ht', hn⟩ := hwf.mp rfl
  rw [ht] at ht'
  cases ht'
  obtain ⟨s₁, h1, h2⟩ := parseWith_output argv0 h
  obtain ⟨s₂, h3, h4⟩ := parseWith_spec argv0 h
  simp only [parseArguments, parseColorOptions, h2, h3, Outcome.bind_ok, Outcome.pure_eq,
    Outcome.ok.injEq, Prod.mk.injEq] at hp
  obtain ⟨hcol, _, _⟩ := hp
  -- what the first parser finds
  have hsub : ∀ us : List Token, (colorNames us).Sublist (optionNames us) := by
    intro us
    induction us with
    | nil => exact List.Sublist.refl _
    | cons t us ih =>
      cases t with
      | positional v => exact ih
      | unknown v => exact ih
      | option l v =>
        have e2 : optionNames (.option l v :: us) = l :: optionNames us := rfl
        rw [e2]
        by_cases hc : isColor l = true
        · have e1 : colorNames (.option l v :: us) = l :: colorNames us := by
            simp [colorNames, colorEntry, hc]
          rw [e1]; exact ih.cons_cons l
        · have e1 : colorNames (.option l v :: us) = colorNames us := by
            simp [colorNames, colorEntry, hc]
          rw [e1]; exact ih.cons l
  obtain ⟨s', hs', hpairs⟩ := color_parse (maxArgs := maxArgs) argv.length argv []
    { found := outputArgs.map fun _ => false } ts (Nat.le_refl _) ht (foundOf_nil _).symm
    (hn.sublist (hsub ts)) (by simp) (by simpa using h)
  rw [h1] at hs'
  cases hs'
  have hpairs : s₁.args.map (fun a => (a.name, a.value)) = ts.filterMap colorEntry := by
    simpa [PState.pairs] using hpairs
  have hfind : ∀ name, isColor name = true → ∀ us : List Token,
      ((us.filterMap colorEntry).find? fun p => p.1 == name) =
        (optionsOf us).find? fun p => p.1 == name := by
    intro name hname us
    induction us with
    | nil => rfl
    | cons t us ih =>
      cases t with
      | positional v => exact ih
      | unknown v => exact ih
      | option l v =>
        have e2 : optionsOf (.option l v :: us) = (l, v) :: optionsOf us := rfl
        rw [e2]
        by_cases hc : isColor l = true
        · rw [List.filterMap_cons_some (b := (l, v)) (by simp [colorEntry, hc]), List.find?_cons,
            List.find?_cons, ih]
        · rw [List.filterMap_cons_none (by simp [colorEntry, hc]), ih, List.find?_cons]
          have : (l == name) = false := by
            rw [beq_eq_false_iff_ne]; rintro rfl; exact hc hname
          rw [this]
  have hval : ∀ name : String, isColor name.toList = true → name.toList ≠ [] →
      (getOption ⟨extractExecutable argv0, s₁.args⟩ name.toList).bind (·.value) =
        valueOf input name := by
    intro name hname hne
    have e1 := hl name.toList hne
    rw [← hfind _ hname, ← hpairs, find_pairs] at e1
    have e1 : (getOption input name.toList).map (fun a => (a.name, a.value)) =
      (getOption ⟨extractExecutable argv0, s₁.args⟩ name.toList).map fun a => (a.name, a.value) := e1
    rw [valueOf]
    have key : ∀ o : Option Argument, o.bind (·.value) =
        (o.map fun a => (a.name, a.value)).bind (·.2) := by
      intro o; cases o <;> rfl
    rw [key, key, e1]
  rw [← hcol, overrideColor_eq, hval _ (by decide) (by decide), hval _ (by decide) (by decide)]

/-- **C51**. If at most one of the two colour options is effective and the output is not a file, the
colour used for messages while parsing is the one the registry is configured with. Partial: with both
options effective the two differ (see `C51_precedence_differs`). -/
theorem C51_agrees_with_configure_partial {maxArgs : Nat} {dflt color : Bool} {argv0 : Text}
    {argv : List Text} (h : argv.length ≤ maxArgs) {msgs : List Msg} {input : Input}
    (hp : parseArguments maxArgs dflt argv0 argv = .ok (color, msgs, some input))
    {reporters : List Text} {c c' : Config} (hc : configure reporters input c = .ok c')
    (hd : c.withColor = dflt) (hout : valueOf input "--out" = none)
    (hone : asks "ansi" "none" (valueOf input "--colour-mode") = none ∨
      asks "always" "never" (valueOf input "--color") = none) : c'.withColor = color := by
  rw [(C32_configure (C32_values_present h hp) hc).1, C51_color_while_parsing h hp, hout, hd]
  rcases hone with e | e <;> rw [e]
  · cases asks "always" "never" (valueOf input "--color") <;> rfl
  · cases asks "ansi" "none" (valueOf input "--colour-mode") <;> rfl

/-- Colour while parsing and colour of the registry. -/
def colors (argv : List Text) : Outcome (Bool × Bool) :=
  parseArguments 1024 true "prog".toList argv >>= fun (color, _, input) =>
    match input with
    | none => .abort
    | some input => configure [] input (initialConfig true) >>= fun c => .ok (color, c.withColor)

set_option maxRecDepth 4000 in
/-- **C51** fails with both options: messages during parsing are coloured, the registry is not. -/
theorem C51_precedence_differs :
    colors (["--color", "never", "--colour-mode", "ansi"].map String.toList) = .ok (true, false) := by
  decide

set_option maxRecDepth 4000 in
example : colors (["--color", "never", "--colour-mode", "default"].map String.toList) =
    .ok (false, false) := by decide

end Verif.Props
