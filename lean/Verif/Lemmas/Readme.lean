import Verif.Spec.Readme
import Verif.Props.Cli
import Verif.Model.Help
/-!
# Lemmas about the spellings of options
-/
namespace Verif.Cli
open Verif Verif.Cli.Spec Verif.Props

/-- Every argument recorded has the name and the name of the value of an expected one. -/
def Named (expected : List Expected) (args : List Argument) : Prop :=
  ∀ a ∈ args, ∃ e ∈ expected, a.name = e.names.getLastD [] ∧ a.valueName = e.valueName

theorem named_push {expected : List Expected} {maxArgs : Nat} {a : Argument} {s s' : PState}
    (h : Named expected s.args) (e : Expected) (he : e ∈ expected) (h1 : a.name = e.names.getLastD [])
    (h2 : a.valueName = e.valueName) (hp : pushArg maxArgs a s = .ok s') : Named expected s'.args := by
  unfold pushArg at hp
  split at hp
  · cases hp
    intro b hb
    rw [List.mem_append, List.mem_singleton] at hb
    rcases hb with hb | rfl
    · exact h b hb
    · exact ⟨e, he, h1, h2⟩
  · cases hp

theorem named_option {expected : List Expected} {maxArgs : Nat} {arg : Text} {next : Option Text} :
    ∀ {es : List Expected} {i : Nat} {s s' : PState} {b : Bool} {n : Nat}, (∀ e ∈ es, e ∈ expected) →
      Named expected s.args → optionLoop maxArgs arg next i es s = .ok (s', b, n) → Named expected s'.args
  | [], i, s, s', b, n, _, h, e => by
    cases e; exact h
  | e :: es, i, s, s', b, n, hes, h, eq => by
    have ih := fun {s s'} => named_option (maxArgs := maxArgs) (arg := arg) (next := next) (es := es) (i := i + 1)
      (s := s) (s' := s') (b := b) (n := n) fun x hx => hes x (List.mem_cons_of_mem _ hx)
    unfold optionLoop at eq
    split at eq
    · exact ih h eq
    · split at eq
      · exact ih h eq
      · split at eq
        · cases eq
        · split at eq
          · cases eq; exact h
          · dsimp only at eq
            split at eq
            · split at eq
              · cases eq; exact h
              · rename_i vn hvn _ v
                rcases hpush : pushArg maxArgs ⟨e.names.getLastD [], some vn, some v⟩ { s with found := s.found.set i true }
                  with t | _ | _
                · rw [hpush] at eq
                  cases eq
                  exact named_push (by exact h) e (hes e List.mem_cons_self) rfl hvn.symm hpush
                · rw [hpush] at eq; cases eq
                · rw [hpush] at eq; cases eq
            · rename_i hvn
              rcases hpush : pushArg maxArgs ⟨e.names.getLastD [], none, none⟩ { s with found := s.found.set i true }
                with t | _ | _
              · rw [hpush] at eq
                cases eq
                exact named_push (by exact h) e (hes e List.mem_cons_self) rfl hvn.symm hpush
              · rw [hpush] at eq; cases eq
              · rw [hpush] at eq; cases eq

theorem named_positional {expected : List Expected} {maxArgs : Nat} {arg : Text} :
    ∀ {es : List Expected} {i : Nat} {s s' : PState}, (∀ e ∈ es, e ∈ expected) →
      Named expected s.args → positionalLoop maxArgs arg i es s = .ok s' → Named expected s'.args
  | [], i, s, s', _, h, e => by
    cases e; exact h
  | e :: es, i, s, s', hes, h, eq => by
    have ih := fun {s s'} => named_positional (maxArgs := maxArgs) (arg := arg) (es := es) (i := i + 1)
      (s := s) (s' := s') fun x hx => hes x (List.mem_cons_of_mem _ hx)
    unfold positionalLoop at eq
    split at eq
    · exact ih h eq
    · rename_i hno
      split at eq
      · cases eq
      · split at eq
        · exact ih h eq
        · rcases hpush : pushArg maxArgs ⟨[], e.valueName, some arg⟩ s with t | _ | _
          · rw [hpush] at eq
            cases eq
            have hn : e.names = [] := by
              simp only [Expected.isOption, Bool.or_eq_true, not_or, Bool.not_eq_true, Bool.not_eq_false',
                List.isEmpty_iff] at hno
              exact hno.2
            exact named_push (s' := t) (a := ⟨[], e.valueName, some arg⟩) h e (hes e List.mem_cons_self) (by rw [hn]; rfl) rfl hpush
          · rw [hpush] at eq; cases eq
          · rw [hpush] at eq; cases eq

theorem named_loop {expected : List Expected} {maxArgs : Nat} :
    ∀ {argv : List Text} {skip : Nat} {s s' : PState}, Named expected s.args →
      parseLoop maxArgs expected argv skip s = .ok s' → Named expected s'.args
  | [], _, _, _, h, e => by
    cases e; exact h
  | _ :: rest, skip + 1, s, s', h, e => named_loop (argv := rest) h e
  | arg :: rest, 0, s, s', h, e => by
    unfold parseLoop at e
    split at e
    · split at e
      · cases e
      · cases e
      · rename_i t found skip ht
        refine named_loop (argv := rest) ?_ e
        have := named_option (fun _ h => h) h ht
        unfold warnUnknown
        split <;> exact this
    · split at e
      · cases e
      · cases e
      · rename_i t ht
        exact named_loop (argv := rest) (named_positional (fun _ h => h) h ht) e

theorem mandatory_args : ∀ (es : List Expected) (i : Nat) (s : PState), (checkMandatory i es s).args = s.args
  | [], _, _ => rfl
  | e :: es, i, s => by
    rw [checkMandatory, mandatory_args es]
    split <;> rfl

theorem named_parsed {maxArgs : Nat} {expected : List Expected} {argv0 : Text} {argv : List Text} {msgs : List Msg}
    {input : Input} (hw : parseWith maxArgs expected false argv0 argv = .ok (msgs, some input)) :
    Named expected input.arguments := by
  unfold parseWith at hw
  split at hw
  · cases hw
  · rcases hl : parseLoop maxArgs expected argv 0 { found := expected.map fun _ => false } with s | _ | _
    · rw [hl, Outcome.bind_ok] at hw
      dsimp only at hw
      split at hw
      · cases hw
      · cases hw
        rw [mandatory_args]
        exact named_loop (by intro a ha; cases ha) hl
    · rw [hl] at hw; cases hw
    · rw [hl] at hw; cases hw

/-- The result of the parser names arguments as expected. -/
theorem named_result {maxArgs : Nat} {dflt color : Bool} {argv0 : Text} {argv : List Text} {msgs : List Msg} {input : Input}
    (hp : parseArguments maxArgs dflt argv0 argv = .ok (color, msgs, some input)) : Named expectedArgs input.arguments := by
  unfold parseArguments at hp
  rcases hc : parseColorOptions maxArgs dflt argv0 argv with c | _ | _
  · rw [hc, Outcome.bind_ok] at hp
    rcases hw : parseWith maxArgs expectedArgs false argv0 argv with ⟨m, r⟩ | _ | _
    · rw [hw] at hp
      cases hp
      exact named_parsed hw
    · rw [hw] at hp; cases hp
    · rw [hw] at hp; cases hp
  · rw [hc] at hp; cases hp
  · rw [hc] at hp; cases hp

theorem named_unique : ∀ e ∈ expectedArgs, ∀ e' ∈ expectedArgs, e.names.getLastD [] = e'.names.getLastD [] →
    e.valueName = e'.valueName := by decide

theorem arguments_eq : ∀ {l l' : List Argument}, Named expectedArgs l → Named expectedArgs l' →
    l.map (fun a => (a.name, a.value)) = l'.map (fun a => (a.name, a.value)) → l = l'
  | [], [], _, _, _ => rfl
  | [], _ :: _, _, _, h => by simp at h
  | _ :: _, [], _, _, h => by simp at h
  | a :: l, b :: l', h1, h2, h => by
    rw [List.map_cons, List.map_cons, List.cons.injEq, Prod.mk.injEq] at h
    obtain ⟨e, he, n1, v1⟩ := h1 a List.mem_cons_self
    obtain ⟨e', he', n2, v2⟩ := h2 b List.mem_cons_self
    have hv : a.valueName = b.valueName := by
      rw [v1, v2]
      exact named_unique e he e' he' (by rw [← n1, ← n2, h.1.1])
    rw [arguments_eq (fun x hx => h1 x (List.mem_cons_of_mem _ hx)) (fun x hx => h2 x (List.mem_cons_of_mem _ hx)) h.2]
    congr 1
    cases a; cases b
    simp only at hv h
    rw [hv, h.1.1, h.1.2]

/-- Command lines that are read in the same way have the same result. -/
theorem parse_same {maxArgs : Nat} {dflt : Bool} {argv0 : Text} {argv argv' : List Text} (hlen : argv.length ≤ maxArgs)
    (hlen' : argv'.length ≤ maxArgs) {ts : List Token} (hts : tokens argv = some ts) (hts' : tokens argv' = some ts)
    (hn : (optionNames ts).Nodup) :
    parseArguments maxArgs dflt argv0 argv = parseArguments maxArgs dflt argv0 argv' := by
  obtain ⟨c, m, r, hp, hw, hr⟩ := C31_parse (maxArgs := maxArgs) dflt argv0 hlen
  obtain ⟨c', m', r', hp', hw', hr'⟩ := C31_parse (maxArgs := maxArgs) dflt argv0 hlen'
  obtain ⟨i, rfl⟩ := Option.isSome_iff_exists.mp (hw.mpr ⟨ts, hts, hn⟩)
  obtain ⟨i', rfl⟩ := Option.isSome_iff_exists.mp (hw'.mpr ⟨ts, hts', hn⟩)
  obtain ⟨t, e, h1, h2, h3⟩ := hr i rfl
  obtain ⟨t', e', h1', h2', h3'⟩ := hr' i' rfl
  rw [hts] at e; cases e
  rw [hts'] at e'; cases e'
  have ha := arguments_eq (named_result hp) (named_result hp') (h1.trans h1'.symm)
  have hi : i = i' := by
    cases i; cases i'
    simp only at ha h3 h3'
    rw [ha, h3, h3']
  subst hi
  rw [hp, hp', C51_color_while_parsing hlen hp, C51_color_while_parsing hlen' hp', h2, h2']

theorem complete_tail {a : Text} {pre : List Text} (h : Complete (a :: pre)) : Complete pre := by
  intro x hx
  refine h x ?_
  rw [List.getLast?_cons, hx]
  rfl

/-- What comes after some arguments is read on its own. -/
theorem tokens_append {rest : List Text} : ∀ {pre : List Text} {tp : List Token}, tokens pre = some tp → Complete pre →
    tokens (pre ++ rest) = (tokens rest).map (tp ++ ·)
  | [], tp, h, _ => by
    rw [tokens] at h
    cases h
    simp
  | a :: pre, tp, h, hc => by
    have hc' := complete_tail hc
    rw [tokens.eq_def] at h
    rw [List.cons_append, tokens.eq_def]
    dsimp only at h ⊢
    by_cases hd : a.head? = some '-'
    · rw [if_pos hd] at h ⊢
      cases hk : kind a with
      | flag l =>
        rw [hk] at h
        dsimp only at h ⊢
        obtain ⟨tp', e, rfl⟩ := Option.map_eq_some_iff.mp h
        rw [tokens_append e hc', Option.map_map]
        rfl
      | valued l =>
        rw [hk] at h
        dsimp only at h ⊢
        cases pre with
        | nil => cases h
        | cons v pre =>
          dsimp only [List.cons_append] at h ⊢
          obtain ⟨tp', e, rfl⟩ := Option.map_eq_some_iff.mp h
          rw [tokens_append e (complete_tail hc'), Option.map_map]
          rfl
      | swallow =>
        rw [hk] at h
        dsimp only at h ⊢
        cases pre with
        | nil => exact absurd hk (hc a rfl)
        | cons v pre =>
          dsimp only [List.cons_append] at h ⊢
          obtain ⟨tp', e, rfl⟩ := Option.map_eq_some_iff.mp h
          rw [tokens_append e (complete_tail hc'), Option.map_map]
          rfl
      | other =>
        rw [hk] at h
        dsimp only at h ⊢
        obtain ⟨tp', e, rfl⟩ := Option.map_eq_some_iff.mp h
        rw [tokens_append e hc', Option.map_map]
        rfl
    · rw [if_neg hd] at h ⊢
      obtain ⟨tp', e, rfl⟩ := Option.map_eq_some_iff.mp h
      rw [tokens_append e hc', Option.map_map]
      rfl
termination_by pre => pre.length

theorem readme_kind : ∀ o ∈ readme, ∀ a ∈ o.spellings, a ≠ "--output" → a.toList.head? = some '-' ∧
    kind a.toList = (if o.valued then .valued o.name.toList else .flag o.name.toList) := by
  decide

/-- An option as the README has it is read as that option. -/
theorem tokens_written {o : Listing} (ho : o ∈ readme) {a : String} (ha : a ∈ o.spellings) (hne : a ≠ "--output")
    (v : Text) (post : List Text) : tokens (o.written a v ++ post) = (tokens post).map (o.token v :: ·) := by
  obtain ⟨h1, h2⟩ := readme_kind o ho a ha hne
  cases hv : o.valued
  · rw [hv] at h2
    simp only [Listing.written, Listing.token, hv, Bool.false_eq_true, if_false, List.cons_append, List.nil_append]
    rw [tokens.eq_def]
    dsimp only
    rw [if_pos h1, h2]
    rfl
  · rw [hv] at h2
    simp only [Listing.written, Listing.token, hv, if_true, List.cons_append, List.nil_append]
    rw [tokens.eq_def]
    dsimp only
    rw [if_pos h1, h2]
    rfl

/-- Only what is no option is reported as unknown. -/
theorem unknowns_kind : ∀ {argv : List Text} {ts : List Token}, tokens argv = some ts → ∀ x ∈ unknowns ts,
    kind x = .swallow ∨ kind x = .other
  | [], ts, h, x, hx => by
    rw [tokens] at h
    cases h
    cases hx
  | a :: rest, ts, h, x, hx => by
    rw [tokens.eq_def] at h
    dsimp only at h
    by_cases hd : a.head? = some '-'
    · rw [if_pos hd] at h
      cases hk : kind a with
      | flag l =>
        rw [hk] at h
        dsimp only at h
        obtain ⟨tp', e, rfl⟩ := Option.map_eq_some_iff.mp h
        exact unknowns_kind e x hx
      | valued l =>
        rw [hk] at h
        dsimp only at h
        cases rest with
        | nil => cases h
        | cons v rest =>
          dsimp only at h
          obtain ⟨tp', e, rfl⟩ := Option.map_eq_some_iff.mp h
          exact unknowns_kind e x hx
      | swallow =>
        rw [hk] at h
        dsimp only at h
        cases rest with
        | nil =>
          cases h
          rw [show x = a from List.mem_singleton.mp hx]
          exact .inl hk
        | cons v rest =>
          dsimp only at h
          obtain ⟨tp', e, rfl⟩ := Option.map_eq_some_iff.mp h
          rcases List.mem_cons.mp (show x ∈ a :: unknowns tp' from hx) with rfl | hx
          · exact .inl hk
          · exact unknowns_kind e x hx
      | other =>
        rw [hk] at h
        dsimp only at h
        obtain ⟨tp', e, rfl⟩ := Option.map_eq_some_iff.mp h
        rcases List.mem_cons.mp (show x ∈ a :: unknowns tp' from hx) with rfl | hx
        · exact .inr hk
        · exact unknowns_kind e x hx
    · rw [if_neg hd] at h
      obtain ⟨tp', e, rfl⟩ := Option.map_eq_some_iff.mp h
      exact unknowns_kind e x hx

/-- An option given once is the one found. -/
theorem find_option {l : Text} {v : Option Text} : ∀ {ts : List Token}, (optionNames ts).Nodup → Token.option l v ∈ ts →
    (optionsOf ts).find? (fun p => p.1 == l) = some (l, v)
  | [], _, h => by cases h
  | .option l' v' :: ts, hn, h => by
    have hn' : (l' :: optionNames ts).Nodup := hn
    rw [show optionsOf (.option l' v' :: ts) = (l', v') :: optionsOf ts from rfl, List.find?_cons]
    rcases List.mem_cons.mp h with e | h
    · cases e
      simp
    · have hl : l ∈ optionNames ts := List.mem_filterMap.mpr ⟨_, h, rfl⟩
      have : (l' == l) = false := by
        rw [beq_eq_false_iff_ne]
        rintro rfl
        exact (List.nodup_cons.mp hn').1 hl
      dsimp only
      rw [this]
      exact find_option (List.nodup_cons.mp hn').2 h
  | .positional x :: ts, hn, h => by
    rcases List.mem_cons.mp h with e | h
    · cases e
    · exact find_option (ts := ts) hn h
  | .unknown x :: ts, hn, h => by
    rcases List.mem_cons.mp h with e | h
    · cases e
    · exact find_option (ts := ts) hn h

end Verif.Cli
