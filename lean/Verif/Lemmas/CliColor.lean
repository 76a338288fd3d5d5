import Verif.Lemmas.CliParse
/-!
# Lemmas about the command-line parser: looking for the colour options only
-/
namespace Verif.Cli
open Spec

/-- Is this the long name of a colour option? -/
def isColor (l : Text) : Bool := l == "--color".toList || l == "--colour-mode".toList

/-- What the reduced table says about an argument. -/
def colorKind (a : Text) : Kind :=
  match kind a with
  | .flag _ => .other
  | .valued l => if isColor l then .valued l else .swallow
  | .swallow => .swallow
  | .other => .other

theorem outputArgs_names : ∀ a ∈ allNames expectedArgs, agreesB outputArgs (colorKind a) a = true := by
  decide

theorem outputArgs_allNames : allNames outputArgs = allNames expectedArgs := by decide

theorem kind_other {a : Text} (h : a ∉ allNames expectedArgs) : kind a = .other := by
  rw [kind, find_none (es := expectedArgs) (by decide) h, find_none (es := expectedArgs) (by decide) h]
  have : swallowed.any (fun s => s.toList == a) = false := by
    rw [List.any_eq_false]
    intro s hs he
    apply h
    have hsub : ∀ s ∈ swallowed, s.toList ∈ allNames expectedArgs := by decide
    have : s.toList = a := by simpa using he
    rw [← this]; exact hsub s hs
  simp [this]

theorem outputArgs_agrees (a : Text) : Agrees outputArgs (colorKind a) a := by
  by_cases h : a ∈ allNames expectedArgs
  · exact agreesB_sound (outputArgs_names a h)
  · have hk : colorKind a = .other := by rw [colorKind, kind_other h]
    rw [hk]
    rw [← outputArgs_allNames] at h
    exact ⟨look_none 0 h, swallow_none h⟩

theorem outputArgs_nodup : (outputArgs.map Expected.key).Nodup := by decide

theorem positional_output {maxArgs : Nat} {arg : Text} {s : PState} :
    positionalLoop maxArgs arg 0 outputArgs s = .ok (fail .tooMany s) := by
  have h : ∀ (es : List Expected) (i : Nat), (∀ e ∈ es, (e.ignored || e.isOption) = true) →
      positionalLoop maxArgs arg i es s = .ok (fail .tooMany s) := by
    intro es
    induction es with
    | nil => intro i _; rfl
    | cons e es ih =>
      intro i h
      rw [positionalLoop, if_pos (h e (by simp))]
      exact ih _ (fun e he => h e (List.mem_cons_of_mem _ he))
  exact h _ _ (by decide)

/-- The colour options among the items. -/
def colorEntry : Token → Option (Text × Option Text)
  | .option l v => if isColor l then some (l, v) else none
  | _ => none

/-- Names of the colour options among the items. -/
def colorNames (ts : List Token) : List Text := (ts.filterMap colorEntry).map Prod.fst

/-- The arguments found, by name and value. -/
def PState.pairs (s : PState) : List (Text × Option Text) := s.args.map fun a => (a.name, a.value)

theorem isColor_iff {l : Text} : isColor l = true ↔ l = "--color".toList ∨ l = "--colour-mode".toList := by
  simp only [isColor, Bool.or_eq_true, beq_iff_eq]

/-- What the reduced table finds on any command line. -/
theorem color_parse_any {maxArgs : Nat} : ∀ (n : Nat) (argv : List Text) (seen : List Text) (s : PState),
    argv.length ≤ n → s.found = foundOf outputArgs seen → s.args.length + argv.length ≤ maxArgs →
    ∃ s', parseLoop maxArgs outputArgs argv 0 s = .ok s' ∧
      s'.pairs = s.pairs ++ (colorArgs seen argv).map fun p => (p.1, some p.2) := by
  intro n
  induction n with
  | zero =>
    intro argv seen s hn hf _
    have : argv = [] := List.eq_nil_of_length_eq_zero (by omega)
    subst this
    exact ⟨s, rfl, by simp [colorArgs]⟩
  | succ n ih =>
    intro argv seen s hn hf hlen
    cases argv with
    | nil => exact ⟨s, rfl, by simp [colorArgs]⟩
    | cons arg rest =>
      simp only [List.length_cons] at hn hlen
      by_cases hd : arg.head? = some '-'
      · have hp : ['-'].isPrefixOf arg = true := by
          cases arg with
          | nil => cases hd
          | cons c cs => simp at hd; simp [List.isPrefixOf, hd]
        have hag := outputArgs_agrees arg
        rw [parseLoop, if_pos hp, optionLoop_eq, colorArgs.eq_def]
        dsimp only
        rw [if_pos hd]
        cases hk : kind arg with
        | other =>
          rw [colorKind, hk] at hag
          obtain ⟨h1, h2⟩ := hag
          rw [h1]
          simp only [h2, Nat.add_zero]
          exact ih rest seen (warnUnknown arg false s) (by omega) hf (by simp [warnUnknown]; omega)
        | flag l =>
          rw [colorKind, hk] at hag
          obtain ⟨h1, h2⟩ := hag
          rw [h1]
          simp only [h2, Nat.add_zero]
          exact ih rest seen (warnUnknown arg false s) (by omega) hf (by simp [warnUnknown]; omega)
        | swallow =>
          rw [colorKind, hk] at hag
          obtain ⟨h1, h2⟩ := hag
          rw [h1]
          simp only [h2, Nat.zero_add]
          cases rest with
          | nil => exact ⟨_, rfl, by simp [PState.pairs, warnUnknown]⟩
          | cons v rest =>
            simp only [List.length_cons] at hn hlen
            rw [parseLoop]
            exact ih rest seen (warnUnknown arg false s) (by omega) hf (by simp [warnUnknown]; omega)
        | valued l =>
          rw [colorKind, hk] at hag
          dsimp only
          by_cases hc : isColor l = true
          · simp only [hc, if_true] at hag
            rw [if_pos (isColor_iff.1 hc)]
            obtain ⟨i, e, vn, h1, h2, h3, h4, h5, h6⟩ := hag
            rw [h1]
            by_cases hs : l ∈ seen
            · have hs' : seen.contains l = true := by simpa using hs
              rw [if_pos hs]
              simp only [useOption, hf, foundOf_get h2, h3, h5, Bool.not_false, Bool.and_true, hs', if_true, h6,
                Nat.add_zero]
              exact ih rest seen (warnUnknown arg true (fail (.duplicate arg) s)) (by omega) hf
                (by simp [warnUnknown, fail]; omega)
            · have hs' : seen.contains l = false := by simpa using hs
              rw [if_neg hs]
              simp only [useOption, hf, foundOf_get h2, foundOf_set outputArgs_nodup h2, h3, h5,
                Bool.not_false, Bool.and_true, hs', Bool.false_eq_true, if_false, h4]
              cases rest with
              | nil => exact ⟨_, rfl, by simp [PState.pairs, warnUnknown, fail]⟩
              | cons v rest =>
                simp only [List.length_cons] at hn hlen
                simp only [List.head?_cons]
                rw [pushArg_ok (by show s.args.length < maxArgs; omega)]
                simp only [Outcome.bind_ok, Outcome.pure_eq, h6, Nat.add_zero]
                rw [parseLoop]
                obtain ⟨s', g1, g2⟩ := ih rest (l :: seen)
                  { s with args := s.args ++ [⟨e.names.getLastD [], some vn, some v⟩]
                           found := foundOf outputArgs (l :: seen) } (by omega) rfl (by simp; omega)
                refine ⟨s', g1, ?_⟩
                rw [g2]
                have hkey : e.names.getLastD [] = l := h3
                simp only [PState.pairs, hkey, List.map_append, List.map_cons, List.map_nil, List.append_assoc,
                  List.cons_append, List.nil_append]
          · simp only [hc, Bool.false_eq_true, if_false] at hag
            rw [if_neg fun h => hc (isColor_iff.2 h)]
            obtain ⟨h1, h2⟩ := hag
            rw [h1]
            simp only [h2, Nat.zero_add]
            cases rest with
            | nil => exact ⟨_, rfl, by simp [PState.pairs, warnUnknown]⟩
            | cons v rest =>
              simp only [List.length_cons] at hn hlen
              rw [parseLoop]
              exact ih rest seen (warnUnknown arg false s) (by omega) hf (by simp [warnUnknown]; omega)
      · have hp : ¬ ['-'].isPrefixOf arg = true := by
          cases arg with
          | nil => simp [List.isPrefixOf]
          | cons c cs =>
            simp at hd
            simp [List.isPrefixOf]
            exact fun h => hd h.symm
        rw [colorArgs.eq_def]
        dsimp only
        rw [parseLoop, if_neg hp, positional_output, if_neg hd]
        simp only
        obtain ⟨s', g1, g2⟩ := ih rest seen (fail .tooMany s) (by omega) hf (by simp [fail]; omega)
        exact ⟨s', g1, by rw [g2]; rfl⟩

theorem color_parse {maxArgs : Nat} : ∀ (n : Nat) (argv : List Text) (seen : List Text) (s : PState)
    (ts : List Token), argv.length ≤ n → tokens argv = some ts → s.found = foundOf outputArgs seen →
    (colorNames ts).Nodup → (∀ l ∈ colorNames ts, l ∉ seen) → s.args.length + argv.length ≤ maxArgs →
    ∃ s', parseLoop maxArgs outputArgs argv 0 s = .ok s' ∧ s'.pairs = s.pairs ++ ts.filterMap colorEntry
    := by
  intro n
  induction n with
  | zero =>
    intro argv seen s ts hn ht hf _ _ _
    have : argv = [] := List.eq_nil_of_length_eq_zero (by omega)
    subst this
    cases ht
    exact ⟨s, rfl, by simp⟩
  | succ n ih =>
    intro argv seen s ts hn ht hf hnd hdis hlen
    cases argv with
    | nil => cases ht; exact ⟨s, rfl, by simp⟩
    | cons arg rest =>
      simp only [List.length_cons] at hn hlen
      by_cases hd : arg.head? = some '-'
      · have hp : ['-'].isPrefixOf arg = true := by
          cases arg with
          | nil => cases hd
          | cons c cs => simp at hd; simp [List.isPrefixOf, hd]
        have hag := outputArgs_agrees arg
        rw [parseLoop, if_pos hp, optionLoop_eq]
        -- everything that is not a colour option
        have hskip : ∀ (rest' : List Text) (t : Token) (us : List Token), colorEntry t = none →
            tokens rest' = some us → ts = t :: us → rest'.length ≤ n →
            s.args.length + rest'.length ≤ maxArgs →
            ∃ s', parseLoop maxArgs outputArgs rest' 0 (warnUnknown arg false s) = .ok s' ∧
              s'.pairs = s.pairs ++ ts.filterMap colorEntry := by
          intro rest' t us hc hu hts h1 h2
          subst hts
          have hn' : (t :: us).filterMap colorEntry = us.filterMap colorEntry := by
            rw [List.filterMap_cons_none hc]
          have hcn : colorNames (t :: us) = colorNames us := by rw [colorNames, hn']; rfl
          rw [hcn] at hnd hdis
          obtain ⟨s', g1, g2⟩ := ih rest' seen (warnUnknown arg false s) us h1 hu hf hnd hdis h2
          exact ⟨s', g1, by rw [g2, hn']; rfl⟩
        cases hk : kind arg with
        | other =>
          rw [colorKind, hk] at hag
          obtain ⟨h1, h2⟩ := hag
          rw [tokens_other hd hk] at ht
          rw [h1]
          simp only [h2, Nat.add_zero]
          cases hr : tokens rest with
          | none => rw [hr] at ht; cases ht
          | some us =>
            rw [hr] at ht; cases ht
            exact hskip rest _ us rfl hr rfl (by omega) (by omega)
        | flag l =>
          rw [colorKind, hk] at hag
          obtain ⟨h1, h2⟩ := hag
          rw [tokens_flag hd hk] at ht
          rw [h1]
          simp only [h2, Nat.add_zero]
          cases hr : tokens rest with
          | none => rw [hr] at ht; cases ht
          | some us =>
            rw [hr] at ht; cases ht
            have hl : isColor l = false := by
              rw [kind] at hk
              cases hf' : find arg flags with
              | none =>
                rw [hf'] at hk
                simp only at hk
                split at hk
                · cases hk
                · split at hk <;> cases hk
              | some x =>
                rw [hf'] at hk
                cases hk
                rw [find] at hf'
                cases hx : flags.find? fun p => p.1.toList == arg with
                | none => rw [hx] at hf'; cases hf'
                | some p =>
                  rw [hx] at hf'
                  cases hf'
                  have hall : ∀ p ∈ flags, isColor p.2.toList = false := by decide
                  exact hall p (List.mem_of_find?_eq_some hx)
            exact hskip rest _ us (by simp [colorEntry, hl]) hr rfl (by omega) (by omega)
        | swallow =>
          rw [colorKind, hk] at hag
          obtain ⟨h1, h2⟩ := hag
          rw [h1]
          simp only [h2, Nat.zero_add]
          cases rest with
          | nil =>
            rw [tokens_swallow_nil hd hk] at ht
            cases ht
            exact ⟨_, rfl, by simp [PState.pairs, warnUnknown, colorEntry]⟩
          | cons v rest =>
            simp only [List.length_cons] at hn hlen
            rw [tokens_swallow hd hk] at ht
            rw [parseLoop]
            cases hr : tokens rest with
            | none => rw [hr] at ht; cases ht
            | some us =>
              rw [hr] at ht; cases ht
              exact hskip rest _ us rfl hr rfl (by omega) (by omega)
        | valued l =>
          rw [colorKind, hk] at hag
          cases rest with
          | nil => rw [tokens_valued_nil hd hk] at ht; cases ht
          | cons v rest =>
            simp only [List.length_cons] at hn hlen
            rw [tokens_valued hd hk] at ht
            cases hr : tokens rest with
            | none => rw [hr] at ht; cases ht
            | some us =>
              rw [hr] at ht; cases ht
              by_cases hc : isColor l = true
              · simp only [hc, if_true] at hag
                obtain ⟨i, e, vn, h1, h2, h3, h4, h5, h6⟩ := hag
                have hce : colorEntry (.option l (some v)) = some (l, some v) := by simp [colorEntry, hc]
                have hcn : colorNames (.option l (some v) :: us) = l :: colorNames us := by
                  rw [colorNames, List.filterMap_cons_some hce]; rfl
                have hlist : (Token.option l (some v) :: us).filterMap colorEntry
                    = (l, some v) :: us.filterMap colorEntry := List.filterMap_cons_some hce
                show ∃ s', _ ∧ _ = _ ++ (Token.option l (some v) :: us).filterMap colorEntry
                rw [hlist]
                have hnd : (colorNames (.option l (some v) :: us)).Nodup := hnd
                have hdis : ∀ x ∈ colorNames (.option l (some v) :: us), x ∉ seen := hdis
                rw [hcn] at hnd hdis
                rw [List.nodup_cons] at hnd
                have hs' : seen.contains l = false := by simpa using hdis l (by simp)
                rw [h1]
                simp only [useOption, hf, foundOf_get h2, foundOf_set outputArgs_nodup h2, h3, h5,
                  Bool.not_false, Bool.and_true, hs', Bool.false_eq_true, if_false, h4, List.head?_cons]
                rw [pushArg_ok (by show s.args.length < maxArgs; omega)]
                simp only [Outcome.bind_ok, Outcome.pure_eq, h6, Nat.add_zero]
                rw [parseLoop]
                obtain ⟨s', g1, g2⟩ := ih rest (l :: seen)
                  { s with args := s.args ++ [⟨e.names.getLastD [], some vn, some v⟩]
                           found := foundOf outputArgs (l :: seen) } us (by omega) hr rfl hnd.2
                  (by
                    intro x hx hm
                    rcases List.mem_cons.mp hm with rfl | hm
                    · exact hnd.1 hx
                    · exact hdis x (List.mem_cons_of_mem _ hx) hm)
                  (by simp; omega)
                refine ⟨s', g1, ?_⟩
                rw [g2]
                have hkey : e.names.getLastD [] = l := h3
                simp only [PState.pairs, hkey, List.map_append, List.map_cons, List.map_nil, List.append_assoc,
                  List.cons_append, List.nil_append]
              · simp only [hc, Bool.false_eq_true, if_false] at hag
                obtain ⟨h1, h2⟩ := hag
                rw [h1]
                simp only [h2, Nat.zero_add]
                rw [parseLoop]
                exact hskip rest _ us (by simp [colorEntry, hc]) hr rfl (by omega) (by omega)
      · have hp : ¬ ['-'].isPrefixOf arg = true := by
          cases arg with
          | nil => simp [List.isPrefixOf]
          | cons c cs =>
            simp at hd
            simp [List.isPrefixOf]
            exact fun h => hd h.symm
        rw [tokens_positional hd] at ht
        rw [parseLoop, if_neg hp, positional_output]
        simp only
        cases hr : tokens rest with
        | none => rw [hr] at ht; cases ht
        | some us =>
          rw [hr] at ht; cases ht
          obtain ⟨s', g1, g2⟩ := ih rest seen (fail .tooMany s) us (by omega) hr hf hnd hdis
            (by simp [fail]; omega)
          exact ⟨s', g1, by rw [g2]; rfl⟩

theorem parse_total_output {maxArgs : Nat} : ∀ (argv : List Text) (skip : Nat) (s : PState)
    (seen : List Text), s.found = foundOf outputArgs seen → s.args.length + argv.length ≤ maxArgs →
    ∃ s', parseLoop maxArgs outputArgs argv skip s = .ok s' := by
  intro argv
  induction argv with
  | nil => intro skip s seen _ _; cases skip <;> exact ⟨s, rfl⟩
  | cons arg rest ih =>
    intro skip s seen hf hlen
    simp only [List.length_cons] at hlen
    cases skip with
    | succ skip => rw [parseLoop]; exact ih skip s seen hf (by omega)
    | zero =>
      rw [parseLoop]
      split
      · obtain ⟨s', found, skip, seen', h1, h2, h3, h4⟩ :=
          option_total (arg := arg) (next := rest.head?) outputArgs_nodup hf
            (maxArgs := maxArgs) (by omega)
        rw [h1]
        simp only
        have hw : (warnUnknown arg found s').found = s'.found ∧
            (warnUnknown arg found s').args = s'.args := by
          unfold warnUnknown; split <;> exact ⟨rfl, rfl⟩
        exact ih (skip + swallow arg outputArgs) (warnUnknown arg found s') seen'
          (by rw [hw.1, h2]) (by rw [hw.2]; omega)
      · rw [positional_output]
        simp only
        exact ih 0 _ seen hf (by simp [fail]; omega)

theorem checkMandatory_none : ∀ (es : List Expected) (i : Nat) (s : PState),
    (∀ e ∈ es, e.mandatory = false) → checkMandatory i es s = s := by
  intro es
  induction es with
  | nil => intro i s _; rfl
  | cons e es ih =>
    intro i s h
    rw [checkMandatory, ih _ _ (fun e he => h e (List.mem_cons_of_mem _ he)), h e (by simp)]
    simp

/-- The parser with the full table. -/
theorem parseWith_spec {maxArgs : Nat} (argv0 : Text) {argv : List Text} (h : argv.length ≤ maxArgs) :
    ∃ s', parseWith maxArgs expectedArgs false argv0 argv =
        .ok (s'.msgs, if s'.bad then none else some ⟨extractExecutable argv0, s'.args⟩) ∧
      Parsed [] argv { found := expectedArgs.map fun _ => false } s' := by
  obtain ⟨s', h1, h2⟩ := parse_spec (maxArgs := maxArgs) argv.length argv []
    { found := expectedArgs.map fun _ => false } (Nat.le_refl _) (foundOf_nil _).symm (by simpa using h)
  refine ⟨s', ?_, h2⟩
  have hv : (!expectedArgs.all validExpected) = false := by decide
  rw [parseWith, hv, if_neg (by decide), h1]
  simp only [Outcome.bind_ok, Outcome.pure_eq]
  rw [checkMandatory_none _ _ _ (by decide)]
  simp

/-- The parser with the reduced table. -/
theorem parseWith_output {maxArgs : Nat} (argv0 : Text) {argv : List Text} (h : argv.length ≤ maxArgs) :
    ∃ s', parseLoop maxArgs outputArgs argv 0 { found := outputArgs.map fun _ => false } = .ok s' ∧
      parseWith maxArgs outputArgs true argv0 argv =
        .ok (s'.msgs, some ⟨extractExecutable argv0, s'.args⟩) := by
  obtain ⟨s', h1⟩ := parse_total_output (maxArgs := maxArgs) argv 0
    { found := outputArgs.map fun _ => false } [] (foundOf_nil _).symm (by simpa using h)
  refine ⟨s', h1, ?_⟩
  have hv : (!outputArgs.all validExpected) = false := by decide
  rw [parseWith, hv, if_neg (by decide), h1]
  simp only [Outcome.bind_ok, Outcome.pure_eq]
  rw [checkMandatory_none _ _ _ (by decide)]
  simp

theorem entries_names (ts : List Token) :
    ∀ n, n ≠ [] → ((ts.filterMap entryOf).find? fun p => p.1 == n) =
      (optionsOf ts).find? fun p => p.1 == n := by
  intro n hn
  induction ts with
  | nil => rfl
  | cons t ts ih =>
    cases t with
    | option l v =>
      show ((l, v) :: ts.filterMap entryOf).find? _ = ((l, v) :: optionsOf ts).find? _
      rw [List.find?_cons, List.find?_cons, ih]
    | positional v =>
      show (([], some v) :: ts.filterMap entryOf).find? _ = (optionsOf ts).find? _
      rw [List.find?_cons, ih]
      have : (([] : Text) == n) = false := by
        cases n with
        | nil => exact absurd rfl hn
        | cons c n => rfl
      rw [this]
    | unknown a => exact ih

theorem find_pairs (as : List Argument) (n : Text) :
    ((as.map fun a => (a.name, a.value)).find? fun p => p.1 == n) =
      (as.find? fun a => a.name == n).map fun a => (a.name, a.value) := by
  rw [List.find?_map]; rfl

end Verif.Cli
