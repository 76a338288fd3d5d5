import Verif.Lemmas.CliColor
/-!
# Lemmas about the command-line parser: the limit on the number of arguments
-/
namespace Verif.Cli
open Spec

/-- With a smaller limit the same happens, or the program ends. -/
theorem pushArg_limit {m M : Nat} {a : Argument} {s s' : PState}
    (ho : pushArg M a s = .ok s') :
    s.args.length ≤ s'.args.length ∧ (s.args.length ≤ m →
      pushArg m a s = if s'.args.length ≤ m then .ok s' else .abort) := by
  rw [pushArg] at ho
  split at ho
  · cases ho
    refine ⟨by simp, fun _ => ?_⟩
    rw [pushArg]
    simp only [List.length_append, List.length_cons, List.length_nil]
    rfl
  · cases ho

theorem useOption_limit {m M : Nat} {arg : Text} {next : Option Text} {i : Nat} {e : Expected}
    {s s' : PState} {found : Bool} {skip : Nat}
    (ho : useOption M arg next i e s = .ok (s', found, skip)) :
    s.args.length ≤ s'.args.length ∧ (s.args.length ≤ m →
      useOption m arg next i e s = if s'.args.length ≤ m then .ok (s', found, skip) else .abort) := by
  unfold useOption at ho ⊢
  cases hf : s.found[i]? with
  | none => rw [hf] at ho; cases ho
  | some seen =>
    rw [hf] at ho
    dsimp only at ho ⊢
    split at ho
    · rename_i hc
      cases ho
      rw [if_pos hc]
      exact ⟨Nat.le_refl _, fun hs => by rw [if_pos (show (fail (.duplicate arg) s).args.length ≤ m from hs)]⟩
    · rename_i hc
      rw [if_neg hc]
      cases hv : e.valueName with
      | none =>
        rw [hv] at ho
        dsimp only at ho ⊢
        cases hp : pushArg M ⟨e.names.getLastD [], none, none⟩ { s with found := s.found.set i true } with
        | ok t =>
          rw [hp] at ho
          cases ho
          obtain ⟨h1, h2⟩ := pushArg_limit (m := m) hp
          refine ⟨h1, fun hs => ?_⟩
          rw [h2 hs]
          split <;> rfl
        | abort => rw [hp] at ho; cases ho
        | ub => rw [hp] at ho; cases ho
      | some vn =>
        rw [hv] at ho
        dsimp only at ho ⊢
        cases next with
        | none =>
          cases ho
          exact ⟨Nat.le_refl _, fun hs => by rw [if_pos (by exact hs)]⟩
        | some v =>
          dsimp only at ho ⊢
          cases hp : pushArg M ⟨e.names.getLastD [], some vn, some v⟩ { s with found := s.found.set i true } with
          | ok t =>
            rw [hp] at ho
            cases ho
            obtain ⟨h1, h2⟩ := pushArg_limit (m := m) hp
            refine ⟨h1, fun hs => ?_⟩
            rw [h2 hs]
            split <;> rfl
          | abort => rw [hp] at ho; cases ho
          | ub => rw [hp] at ho; cases ho

theorem optionLoop_limit {m M : Nat} {arg : Text} {next : Option Text} {es : List Expected}
    {s s' : PState} {found : Bool} {skip : Nat}
    (ho : optionLoop M arg next 0 es s = .ok (s', found, skip)) :
    s.args.length ≤ s'.args.length ∧ (s.args.length ≤ m →
      optionLoop m arg next 0 es s = if s'.args.length ≤ m then .ok (s', found, skip) else .abort) := by
  rw [optionLoop_eq] at ho ⊢
  cases hl : look arg 0 es with
  | none =>
    rw [hl] at ho
    cases ho
    exact ⟨Nat.le_refl _, fun hs => by rw [if_pos hs]⟩
  | some x =>
    rw [hl] at ho
    exact useOption_limit ho

theorem positionalLoop_limit {m M : Nat} {arg : Text} : ∀ {es : List Expected} {i : Nat}
    {s s' : PState}, positionalLoop M arg i es s = .ok s' →
    s.args.length ≤ s'.args.length ∧ (s.args.length ≤ m →
      positionalLoop m arg i es s = if s'.args.length ≤ m then .ok s' else .abort) := by
  intro es
  induction es with
  | nil =>
    intro i s s' ho
    cases ho
    exact ⟨Nat.le_refl _, fun hs => by rw [if_pos (by exact hs)]; rfl⟩
  | cons e es ih =>
    intro i s s' ho
    rw [positionalLoop] at ho ⊢
    split at ho
    · rename_i hc
      rw [if_pos hc]
      exact ih ho
    · rename_i hc
      rw [if_neg hc]
      cases hf : s.found[i]? with
      | none => rw [hf] at ho; cases ho
      | some seen =>
        rw [hf] at ho
        dsimp only at ho ⊢
        split at ho
        · rename_i hd
          rw [if_pos hd]
          exact ih ho
        · rename_i hd
          rw [if_neg hd]
          cases hp : pushArg M ⟨[], e.valueName, some arg⟩ s with
          | ok t =>
            rw [hp] at ho
            cases ho
            obtain ⟨h1, h2⟩ := pushArg_limit (m := m) hp
            refine ⟨h1, fun hs => ?_⟩
            rw [h2 hs]
            dsimp only
            split <;> rfl
          | abort => rw [hp] at ho; cases ho
          | ub => rw [hp] at ho; cases ho

theorem warnUnknown_args (arg : Text) (found : Bool) (s : PState) : (warnUnknown arg found s).args = s.args := by
  unfold warnUnknown; split <;> rfl

theorem parseLoop_limit {m M : Nat} {es : List Expected} : ∀ {argv : List Text} {skip : Nat}
    {s s' : PState}, parseLoop M es argv skip s = .ok s' →
    s.args.length ≤ s'.args.length ∧ (s.args.length ≤ m →
      parseLoop m es argv skip s = if s'.args.length ≤ m then .ok s' else .abort) := by
  intro argv
  induction argv with
  | nil =>
    intro skip s s' ho
    rw [parseLoop] at ho ⊢
    cases ho
    exact ⟨Nat.le_refl _, fun hs => by rw [if_pos hs]⟩
  | cons arg rest ih =>
    intro skip s s' ho
    cases skip with
    | succ skip => rw [parseLoop] at ho ⊢; exact ih ho
    | zero =>
      rw [parseLoop] at ho ⊢
      split at ho
      · rename_i hd
        rw [if_pos hd]
        cases hp : optionLoop M arg rest.head? 0 es s with
        | abort => rw [hp] at ho; cases ho
        | ub => rw [hp] at ho; cases ho
        | ok x =>
          obtain ⟨t, found, skip⟩ := x
          rw [hp] at ho
          dsimp only at ho
          obtain ⟨h1, h2⟩ := optionLoop_limit (m := m) hp
          obtain ⟨h3, h4⟩ := ih ho
          rw [warnUnknown_args] at h3 h4
          refine ⟨by omega, fun hs => ?_⟩
          rw [h2 hs]
          by_cases ht : t.args.length ≤ m
          · rw [if_pos ht]
            exact h4 ht
          · rw [if_neg ht, if_neg (by omega)]
      · rename_i hd
        rw [if_neg hd]
        cases hp : positionalLoop M arg 0 es s with
        | abort => rw [hp] at ho; cases ho
        | ub => rw [hp] at ho; cases ho
        | ok t =>
          rw [hp] at ho
          dsimp only at ho
          obtain ⟨h1, h2⟩ := positionalLoop_limit (m := m) hp
          obtain ⟨h3, h4⟩ := ih ho
          refine ⟨by omega, fun hs => ?_⟩
          rw [h2 hs]
          by_cases ht : t.args.length ≤ m
          · rw [if_pos ht]
            exact h4 ht
          · rw [if_neg ht, if_neg (by omega)]

/-- Only the two colour options can be recorded by the parser with the reduced table. -/
theorem output_two {M : Nat} : ∀ (argv : List Text) (skip : Nat) (s s' : PState) (seen : List Text),
    s.found = foundOf outputArgs seen → seen.Nodup → (∀ l ∈ seen, isColor l = true) → s.args.length ≤ seen.length →
    parseLoop M outputArgs argv skip s = .ok s' → s'.args.length ≤ 2 := by
  intro argv
  induction argv with
  | nil =>
    intro skip s s' seen _ hn hc hl ho
    rw [parseLoop] at ho
    cases ho
    have hsub : seen ⊆ ["--color".toList, "--colour-mode".toList] := by
      intro l hm
      have := hc l hm
      simpa [isColor] using this
    have h2 := hn.length_le_of_subset hsub
    exact Nat.le_trans hl h2
  | cons arg rest ih =>
    intro skip s s' seen hf hn hc hl ho
    cases skip with
    | succ skip => rw [parseLoop] at ho; exact ih skip s s' seen hf hn hc hl ho
    | zero =>
      rw [parseLoop] at ho
      split at ho
      · have hag := outputArgs_agrees arg
        rw [optionLoop_eq] at ho
        cases hk : colorKind arg with
        | other =>
          rw [hk] at hag
          rw [hag.1] at ho
          exact ih _ _ s' seen (by exact hf) hn hc (by exact hl) ho
        | swallow =>
          rw [hk] at hag
          rw [hag.1] at ho
          exact ih _ _ s' seen (by exact hf) hn hc (by exact hl) ho
        | flag l =>
          exfalso
          rw [colorKind] at hk
          cases hk' : kind arg with
          | valued l' => rw [hk'] at hk; dsimp only at hk; split at hk <;> cases hk
          | _ => rw [hk'] at hk; cases hk
        | valued l =>
          have hcl : isColor l = true := by
            rw [colorKind] at hk
            cases hk' : kind arg with
            | valued l' =>
              rw [hk'] at hk; dsimp only at hk
              split at hk
              · cases hk; assumption
              · cases hk
            | _ => rw [hk'] at hk; cases hk
          rw [hk] at hag
          obtain ⟨i, e, vn, h1, h2, h3, h4, h5, h6⟩ := hag
          rw [h1] at ho
          simp only [useOption, hf, foundOf_get h2, foundOf_set outputArgs_nodup h2, h3, h5,
            Bool.not_false, Bool.and_true] at ho
          by_cases hs : l ∈ seen
          · simp only [List.contains_iff_mem.mpr hs, if_true] at ho
            exact ih _ _ s' seen (by exact hf) hn hc (by exact hl) ho
          · have hs' : seen.contains l = false := by
              rw [← Bool.not_eq_true, List.contains_iff_mem]; exact hs
            simp only [hs', Bool.false_eq_true, if_false, h4] at ho
            have hn' : (l :: seen).Nodup := List.nodup_cons.mpr ⟨hs, hn⟩
            have hc' : ∀ x ∈ l :: seen, isColor x = true := by
              intro x hx
              rcases List.mem_cons.mp hx with rfl | hx
              · exact hcl
              · exact hc x hx
            cases rest with
            | nil =>
              simp only [List.head?_nil] at ho
              exact ih _ _ s' (l :: seen) rfl hn' hc' (by simp [warnUnknown, fail]; omega) ho
            | cons v rest =>
              simp only [List.head?_cons] at ho
              by_cases hm : s.args.length < M
              · rw [pushArg_ok (by exact hm)] at ho
                exact ih _ _ s' (l :: seen) (by rfl) hn' hc' (by simp [warnUnknown]; omega) ho
              · rw [pushArg, if_neg (by exact hm)] at ho
                cases ho
      · rw [positional_output] at ho
        exact ih _ _ s' seen (by exact hf) hn hc (by exact hl) ho

end Verif.Cli
