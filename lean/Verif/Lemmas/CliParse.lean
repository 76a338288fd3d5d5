import Verif.Lemmas.Cli
/-!
# Lemmas about the command-line parser: the whole loop
-/
namespace Verif.Cli
open Spec

theorem pushArg_ok {maxArgs : Nat} {a : Argument} {s : PState} (h : s.args.length < maxArgs) :
    pushArg maxArgs a s = .ok { s with args := s.args ++ [a] } := by
  rw [pushArg, if_pos h]

/-- A positional argument is always accepted. -/
theorem positional_ok {maxArgs : Nat} {arg : Text} {s : PState} {seen : List Text}
    (hf : s.found = foundOf expectedArgs seen) (h : s.args.length < maxArgs) :
    positionalLoop maxArgs arg 0 expectedArgs s =
      .ok { s with args := s.args ++ [⟨[], some "test regex".toList, some arg⟩]
                   found := foundOf expectedArgs ([] :: seen) } := by
  have hi : expectedArgs[10]? = some ⟨[], some "test regex".toList, false, false, true,
      "A regex to select which test cases to run".toList⟩ := rfl
  have hset : (foundOf expectedArgs seen).set 10 true = foundOf expectedArgs ([] :: seen) :=
    foundOf_set expectedArgs_nodup hi
  have hget := foundOf_get (seen := seen) hi
  have key : positionalLoop maxArgs arg 0 expectedArgs s =
      match s.found[10]? with
      | none => .abort
      | some _ => do
          let s ← pushArg maxArgs ⟨[], some "test regex".toList, some arg⟩ s
          return { s with found := s.found.set 10 true } := by
    simp only [positionalLoop, expectedArgs, option, Expected.isOption, List.map_cons, List.map_nil,
      List.isEmpty_cons, List.isEmpty_nil, Bool.not_false, Bool.not_true, Bool.or_true, Bool.or_false,
      if_true, Bool.false_eq_true, if_false, Bool.and_false]
    rfl
  rw [key, hf, hget]
  simp only [pushArg_ok h, Outcome.bind_ok, Outcome.pure_eq]
  rw [hf, hset]

/-- The entry found by `look`. -/
theorem look_get {arg : Text} : ∀ {es : List Expected} {i j : Nat} {e : Expected},
    look arg i es = some (j, e) → i ≤ j ∧ es[j - i]? = some e := by
  intro es
  induction es with
  | nil => intro i j e h; cases h
  | cons x es ih =>
    intro i j e h
    rw [look] at h
    have hrec : look arg (i + 1) es = some (j, e) → i ≤ j ∧ (x :: es)[j - i]? = some e := by
      intro h
      obtain ⟨h1, h2⟩ := ih h
      refine ⟨by omega, ?_⟩
      obtain ⟨k, hk⟩ : ∃ k, j - i = k + 1 := ⟨j - i - 1, by omega⟩
      rw [hk, List.getElem?_cons_succ]
      have : j - (i + 1) = k := by omega
      rw [← this]; exact h2
    by_cases h1 : (x.ignored || !x.isOption) = true
    · rw [if_pos h1] at h; exact hrec h
    · rw [if_neg h1] at h
      by_cases h2 : (!x.names.contains arg) = true
      · rw [if_pos h2] at h; exact hrec h
      · rw [if_neg h2] at h
        cases h
        simp

/-- Whatever the arguments are, an option is processed without failure, and a bad command line stays
bad. -/
theorem option_total {maxArgs : Nat} {arg : Text} {next : Option Text} {s : PState} {seen : List Text}
    {expected : List Expected} (hn : (expected.map Expected.key).Nodup)
    (hf : s.found = foundOf expected seen) (h : s.args.length < maxArgs) :
    ∃ s' found skip seen', optionLoop maxArgs arg next 0 expected s = .ok (s', found, skip) ∧
      s'.found = foundOf expected seen' ∧ s'.args.length ≤ s.args.length + 1 ∧
      (s.bad = true → s'.bad = true) := by
  rw [optionLoop_eq]
  cases hl : look arg 0 expected with
  | none => exact ⟨s, false, 0, seen, rfl, hf, by omega, id⟩
  | some x =>
    obtain ⟨i, e⟩ := x
    have hi := (look_get hl).2
    rw [Nat.sub_zero] at hi
    simp only [useOption, hf, foundOf_get hi, foundOf_set hn hi]
    split
    · exact ⟨_, _, _, seen, rfl, hf, by simp [fail], fun _ => rfl⟩
    · split
      · cases next with
        | none => exact ⟨_, _, _, _, rfl, rfl, by simp [fail], fun _ => rfl⟩
        | some v =>
          dsimp only
          rw [pushArg_ok (by exact h)]
          exact ⟨_, _, _, _, rfl, rfl, by simp, fun hb => hb⟩
      · rw [pushArg_ok (by exact h)]
        exact ⟨_, _, _, _, rfl, rfl, by simp, fun hb => hb⟩

theorem parse_total {maxArgs : Nat} : ∀ (argv : List Text) (skip : Nat) (s : PState) (seen : List Text),
    s.found = foundOf expectedArgs seen → s.args.length + argv.length ≤ maxArgs →
    ∃ s', parseLoop maxArgs expectedArgs argv skip s = .ok s' ∧ (s.bad = true → s'.bad = true) := by
  intro argv
  induction argv with
  | nil => intro skip s seen _ _; cases skip <;> exact ⟨s, rfl, id⟩
  | cons arg rest ih =>
    intro skip s seen hf hlen
    simp only [List.length_cons] at hlen
    cases skip with
    | succ skip => rw [parseLoop]; exact ih skip s seen hf (by omega)
    | zero =>
      rw [parseLoop]
      split
      · obtain ⟨s', found, skip, seen', h1, h2, h3, h4⟩ :=
          option_total (arg := arg) (next := rest.head?) expectedArgs_nodup hf
            (maxArgs := maxArgs) (by omega)
        rw [h1]
        simp only
        have hw : (warnUnknown arg found s').found = s'.found ∧
            (warnUnknown arg found s').args = s'.args ∧ (warnUnknown arg found s').bad = s'.bad := by
          unfold warnUnknown; split <;> exact ⟨rfl, rfl, rfl⟩
        obtain ⟨s'', g1, g2⟩ := ih (skip + swallow arg expectedArgs) (warnUnknown arg found s') seen'
          (by rw [hw.1, h2]) (by rw [hw.2.1]; omega)
        exact ⟨s'', g1, fun hb => g2 (by rw [hw.2.2]; exact h4 hb)⟩
      · rw [positional_ok hf (by omega)]
        simp only
        exact ih 0 _ ([] :: seen) rfl (by simp; omega)

/-- The items are well-formed and no option has been seen before. -/
def Good (seen : List Text) (argv : List Text) : Prop :=
  ∃ ts, tokens argv = some ts ∧ (optionNames ts).Nodup ∧ ∀ l ∈ optionNames ts, l ∉ seen

/-- What a token contributes to the result: name and value. -/
def entryOf : Token → Option (Text × Option Text)
  | .option l v => some (l, v)
  | .positional v => some ([], some v)
  | .unknown _ => none

/-- The result of parsing what is left. -/
structure Parsed (seen : List Text) (argv : List Text) (s s' : PState) : Prop where
  bad : s'.bad = true ↔ s.bad = true ∨ ¬ Good seen argv
  args : Good seen argv → ∀ ts, tokens argv = some ts →
    s'.args.map (fun a => (a.name, a.value)) =
      s.args.map (fun a => (a.name, a.value)) ++ ts.filterMap entryOf
  msgs : Good seen argv → ∀ ts, tokens argv = some ts →
    s'.msgs = s.msgs ++ (unknowns ts).map Msg.unknown
  names : ∀ a ∈ s'.args, a ∈ s.args ∨ Good seen argv → a ∈ s.args ∨
    (a.name = [] → a.valueName = some "test regex".toList)

theorem kind_long {a l : Text} (h : kind a = .flag l ∨ kind a = .valued l) : l ≠ [] := by
  have key : ∀ (table : List (String × String)), (∀ p ∈ table, p.2.toList ≠ []) →
      find a table = some l → l ≠ [] := by
    intro table ht hf
    rw [find] at hf
    cases hx : table.find? fun p => p.1.toList == a with
    | none => rw [hx] at hf; cases hf
    | some p =>
      rw [hx] at hf
      cases hf
      exact ht p (List.mem_of_find?_eq_some hx)
  rw [kind] at h
  cases h1 : find a flags with
  | some x =>
    rw [h1] at h
    rcases h with h | h <;> cases h
    exact key flags (by decide) h1
  | none =>
    rw [h1] at h
    cases h2 : find a valuedOptions with
    | some x =>
      rw [h2] at h
      rcases h with h | h <;> cases h
      exact key valuedOptions (by decide) h2
    | none =>
      rw [h2] at h
      simp only at h
      split at h <;> rcases h with h | h <;> cases h

theorem tokens_flag {a l : Text} {rest : List Text} (hd : a.head? = some '-') (hk : kind a = .flag l) :
    tokens (a :: rest) = (tokens rest).map (.option l none :: ·) := by
  rw [tokens.eq_def]; simp only [hd, hk, if_true]

theorem tokens_valued {a l v : Text} {rest : List Text} (hd : a.head? = some '-')
    (hk : kind a = .valued l) :
    tokens (a :: v :: rest) = (tokens rest).map (.option l (some v) :: ·) := by
  rw [tokens.eq_def]; simp only [hd, hk, if_true]

theorem tokens_valued_nil {a l : Text} (hd : a.head? = some '-') (hk : kind a = .valued l) :
    tokens [a] = none := by
  rw [tokens.eq_def]; simp only [hd, hk, if_true]

theorem tokens_swallow {a v : Text} {rest : List Text} (hd : a.head? = some '-')
    (hk : kind a = .swallow) :
    tokens (a :: v :: rest) = (tokens rest).map (.unknown a :: ·) := by
  rw [tokens.eq_def]; simp only [hd, hk, if_true]

theorem tokens_swallow_nil {a : Text} (hd : a.head? = some '-') (hk : kind a = .swallow) :
    tokens [a] = (tokens []).map (.unknown a :: ·) := by
  rw [tokens.eq_def]; simp only [hd, hk, if_true]; rfl

theorem tokens_other {a : Text} {rest : List Text} (hd : a.head? = some '-') (hk : kind a = .other) :
    tokens (a :: rest) = (tokens rest).map (.unknown a :: ·) := by
  rw [tokens.eq_def]; simp only [hd, hk, if_true]

theorem tokens_positional {a : Text} {rest : List Text} (hd : a.head? ≠ some '-') :
    tokens (a :: rest) = (tokens rest).map (.positional a :: ·) := by
  rw [tokens.eq_def]; simp only [hd, if_false]

theorem optionNames_ne : ∀ {argv : List Text} {ts : List Token}, tokens argv = some ts →
    ∀ l ∈ optionNames ts, l ≠ [] := by
  intro argv
  fun_induction tokens argv with
  | case1 => intro ts h; cases h; intro l hl; cases hl
  | case2 a rest hd l hk ih =>
    intro ts h
    cases hr : tokens rest with
    | none => rw [hr] at h; cases h
    | some us =>
      rw [hr] at h; cases h
      intro x hx
      rcases List.mem_cons.mp (show x ∈ l :: optionNames us from hx) with rfl | hx
      · exact kind_long (.inl hk)
      · exact ih hr x hx
  | case3 => intro ts h; cases h
  | case4 a hd l hk v rest ih =>
    intro ts h
    cases hr : tokens rest with
    | none => rw [hr] at h; cases h
    | some us =>
      rw [hr] at h; cases h
      intro x hx
      rcases List.mem_cons.mp (show x ∈ l :: optionNames us from hx) with rfl | hx
      · exact kind_long (.inr hk)
      · exact ih hr x hx
  | case5 => intro ts h; cases h; intro l hl; cases hl
  | case6 a hd hk v rest ih =>
    intro ts h
    cases hr : tokens rest with
    | none => rw [hr] at h; cases h
    | some us => rw [hr] at h; cases h; exact fun l hl => ih hr l hl
  | case7 a rest hd hk ih =>
    intro ts h
    cases hr : tokens rest with
    | none => rw [hr] at h; cases h
    | some us => rw [hr] at h; cases h; exact fun l hl => ih hr l hl
  | case8 a rest hd ih =>
    intro ts h
    cases hr : tokens rest with
    | none => rw [hr] at h; cases h
    | some us => rw [hr] at h; cases h; exact fun l hl => ih hr l hl

theorem notGood_iff {seen : List Text} {argv : List Text} {ts : List Token} (h : tokens argv = some ts) :
    Good seen argv ↔ (optionNames ts).Nodup ∧ ∀ l ∈ optionNames ts, l ∉ seen := by
  constructor
  · rintro ⟨ts', h1, h2⟩; rw [h] at h1; cases h1; exact h2
  · intro h2; exact ⟨ts, h, h2⟩

/-- Adding an option at the front. -/
theorem good_option {seen : List Text} {argv rest : List Text} {l : Text} {v : Option Text}
    (h : tokens argv = (tokens rest).map (.option l v :: ·)) :
    Good seen argv ↔ l ∉ seen ∧ Good (l :: seen) rest := by
  constructor
  · rintro ⟨ts, h1, h2, h3⟩
    rw [h] at h1
    cases hr : tokens rest with
    | none => rw [hr] at h1; cases h1
    | some us =>
      rw [hr] at h1
      cases h1
      have hn : optionNames (.option l v :: us) = l :: optionNames us := rfl
      rw [hn] at h2 h3
      rw [List.nodup_cons] at h2
      refine ⟨h3 l (by simp), us, hr, h2.2, ?_⟩
      intro x hx hm
      rcases List.mem_cons.mp hm with rfl | hm
      · exact h2.1 hx
      · exact h3 x (List.mem_cons_of_mem _ hx) hm
  · rintro ⟨h1, us, h2, h3, h4⟩
    refine ⟨.option l v :: us, by rw [h, h2]; rfl, ?_, ?_⟩
    · show (l :: optionNames us).Nodup
      rw [List.nodup_cons]
      exact ⟨fun hm => h4 l hm (by simp), h3⟩
    · intro x hx
      have hx : x ∈ l :: optionNames us := hx
      rcases List.mem_cons.mp hx with rfl | hx
      · exact h1
      · intro hm; exact h4 x hx (List.mem_cons_of_mem _ hm)

/-- Adding something that is not an option at the front. -/
theorem good_other {seen : List Text} {argv rest : List Text} {t : Token} (ht : ∀ l v, t ≠ .option l v)
    (h : tokens argv = (tokens rest).map (t :: ·)) : Good seen argv ↔ Good seen rest := by
  have hn : ∀ us, optionNames (t :: us) = optionNames us := by
    intro us
    cases t with
    | option l v => exact absurd rfl (ht l v)
    | positional v => rfl
    | unknown a => rfl
  constructor
  · rintro ⟨ts, h1, h2, h3⟩
    rw [h] at h1
    cases hr : tokens rest with
    | none => rw [hr] at h1; cases h1
    | some us =>
      rw [hr] at h1
      cases h1
      rw [hn] at h2 h3
      exact ⟨us, hr, h2, h3⟩
  · rintro ⟨us, h2, h3, h4⟩
    exact ⟨t :: us, by rw [h, h2]; rfl, by rw [hn]; exact h3, by rw [hn]; exact h4⟩

/-- One step that is good if what it sees is. -/
theorem Parsed.step {seen seen' : List Text} {argv rest : List Text} {s s₁ s' : PState} {t : Token}
    (h : tokens argv = (tokens rest).map (t :: ·)) (hg : Good seen argv ↔ Good seen' rest)
    (hb : s₁.bad = s.bad)
    (ha : s₁.args.map (fun a => (a.name, a.value)) =
      s.args.map (fun a => (a.name, a.value)) ++ (entryOf t).toList)
    (hm : s₁.msgs = s.msgs ++ (unknowns [t]).map Msg.unknown)
    (hn : ∀ a ∈ s₁.args, a ∈ s.args ∨ (a.name = [] → a.valueName = some "test regex".toList))
    (p : Parsed seen' rest s₁ s') : Parsed seen argv s s' := by
  refine ⟨by rw [p.bad, hb, hg], ?_, ?_, ?_⟩
  · intro g ts hts
    rw [h] at hts
    cases hr : tokens rest with
    | none => rw [hr] at hts; cases hts
    | some us =>
      rw [hr] at hts
      cases hts
      rw [p.args (hg.mp g) us hr, ha, List.append_assoc]
      congr 1
      cases t <;> rfl
  · intro g ts hts
    rw [h] at hts
    cases hr : tokens rest with
    | none => rw [hr] at hts; cases hts
    | some us =>
      rw [hr] at hts
      cases hts
      rw [p.msgs (hg.mp g) us hr, hm, List.append_assoc]
      congr 1
      cases t <;> rfl
  · intro a ha' hor
    rcases hor with hor | g
    · exact .inl hor
    · rcases p.names a ha' (.inr (hg.mp g)) with h1 | h1
      · exact hn a h1
      · exact .inr h1

/-- Once bad, it does not matter what is read. -/
theorem Parsed.ofBad {seen : List Text} {argv : List Text} {s s' : PState} (hg : ¬ Good seen argv)
    (hb : s'.bad = true) : Parsed seen argv s s' :=
  ⟨⟨fun _ => .inr hg, fun _ => hb⟩, fun g => absurd g hg, fun g => absurd g hg,
    fun _ _ h => h.elim .inl (fun g => absurd g hg)⟩

theorem parse_spec {maxArgs : Nat} : ∀ (n : Nat) (argv : List Text) (seen : List Text) (s : PState),
    argv.length ≤ n → s.found = foundOf expectedArgs seen → s.args.length + argv.length ≤ maxArgs →
    ∃ s', parseLoop maxArgs expectedArgs argv 0 s = .ok s' ∧ Parsed seen argv s s' := by
  intro n
  induction n with
  | zero =>
    intro argv seen s hn hf hlen
    have : argv = [] := List.eq_nil_of_length_eq_zero (by omega)
    subst this
    have hg : Good seen [] := ⟨[], rfl, List.nodup_nil, by intro l hl; cases hl⟩
    refine ⟨s, rfl, by simp [hg], ?_, ?_, fun a ha _ => .inl ha⟩
    · intro _ ts hts; cases hts; simp
    · intro _ ts hts; cases hts; simp [unknowns]
  | succ n ih =>
    intro argv seen s hn hf hlen
    cases argv with
    | nil => exact ih [] seen s (by simp) hf hlen
    | cons arg rest =>
      simp only [List.length_cons] at hn hlen
      by_cases hd : arg.head? = some '-'
      · have hp : ['-'].isPrefixOf arg = true := by
          cases arg with
          | nil => cases hd
          | cons c cs => simp at hd; simp [List.isPrefixOf, hd]
        have hag := expectedArgs_agrees arg
        rw [parseLoop, if_pos hp, optionLoop_eq]
        cases hk : kind arg with
        | other =>
          rw [hk] at hag
          obtain ⟨h1, h2⟩ := hag
          have ht : tokens (arg :: rest) = (tokens rest).map (.unknown arg :: ·) :=
            tokens_other hd hk
          rw [h1]
          simp only [h2, Nat.add_zero]
          obtain ⟨s', g1, g2⟩ := ih rest seen (warnUnknown arg false s) (by omega) hf
            (by simp [warnUnknown]; omega)
          refine ⟨s', g1, g2.step (s := s) (s₁ := warnUnknown arg false s) ht
              (good_other (by intro l v h; cases h) ht) rfl ?_ rfl ?_⟩
          · simp [warnUnknown, entryOf]
          · intro a ha; exact .inl ha
        | swallow =>
          rw [hk] at hag
          obtain ⟨h1, h2⟩ := hag
          rw [h1]
          simp only [h2, Nat.zero_add]
          cases rest with
          | nil =>
            have ht : tokens [arg] = (tokens []).map (.unknown arg :: ·) := tokens_swallow_nil hd hk
            obtain ⟨s', g1, g2⟩ := ih [] seen (warnUnknown arg false s) (by simp) hf
              (by simp [warnUnknown]; omega)
            refine ⟨s', g1, g2.step (s := s) (s₁ := warnUnknown arg false s) ht
              (good_other (by intro l v h; cases h) ht) rfl ?_ rfl ?_⟩
            · simp [warnUnknown, entryOf]
            · intro a ha; exact .inl ha
          | cons v rest =>
            simp only [List.length_cons] at hn hlen
            have ht : tokens (arg :: v :: rest) = (tokens rest).map (.unknown arg :: ·) :=
              tokens_swallow hd hk
            obtain ⟨s', g1, g2⟩ := ih rest seen (warnUnknown arg false s) (by omega) hf
              (by simp [warnUnknown]; omega)
            refine ⟨s', by rw [parseLoop]; exact g1,
              g2.step (s := s) (s₁ := warnUnknown arg false s) ht
              (good_other (by intro l v h; cases h) ht) rfl ?_ rfl ?_⟩
            · simp [warnUnknown, entryOf]
            · intro a ha; exact .inl ha
        | flag l =>
          rw [hk] at hag
          obtain ⟨i, e, h1, h2, h3, h4, h5, h6⟩ := hag
          have ht : tokens (arg :: rest) = (tokens rest).map (.option l none :: ·) := tokens_flag hd hk
          rw [h1]
          simp only [useOption, hf, foundOf_get h2, foundOf_set expectedArgs_nodup h2, h3, h5,
            Bool.not_false, Bool.and_true]
          by_cases hs : l ∈ seen
          · simp only [List.contains_iff_mem.mpr hs, if_true]
            obtain ⟨s', g1, g2⟩ := parse_total rest (0 + swallow arg expectedArgs)
              (warnUnknown arg true (fail (.duplicate arg) s)) seen hf
              (by simp [warnUnknown, fail]; omega) (maxArgs := maxArgs)
            exact ⟨s', g1, .ofBad (fun g => ((good_option ht).mp g).1 hs) (g2 rfl)⟩
          · have hs' : seen.contains l = false := by simpa using hs
            simp only [hs', Bool.false_eq_true, if_false, h4]
            rw [pushArg_ok (by show s.args.length < maxArgs; omega)]
            simp only [Outcome.bind_ok, Outcome.pure_eq, h6, Nat.add_zero]
            obtain ⟨s', g1, g2⟩ := ih rest (l :: seen)
              { s with args := s.args ++ [⟨e.names.getLastD [], none, none⟩]
                       found := foundOf expectedArgs (l :: seen) } (by omega) rfl
              (by simp; omega)
            refine ⟨s', g1, Parsed.step (s := s) ht ?_ ?_ ?_ ?_ ?_ g2⟩
            · rw [good_option ht]; exact ⟨fun h => h.2, fun h => ⟨hs, h⟩⟩
            · rfl
            · simp only [List.map_append, List.map_cons, List.map_nil, entryOf, Option.toList]
              rw [← h3]; rfl
            · simp [unknowns]
            · intro a ha
              rcases List.mem_append.mp ha with ha | ha
              · exact .inl ha
              · rw [List.mem_singleton] at ha
                subst ha
                refine .inr (fun hnm => absurd (hnm : e.key = []) ?_)
                show e.key ≠ []; rw [h3]; exact kind_long (.inl hk)
        | valued l =>
          rw [hk] at hag
          obtain ⟨i, e, vn, h1, h2, h3, h4, h5, h6⟩ := hag
          rw [h1]
          simp only [useOption, hf, foundOf_get h2, foundOf_set expectedArgs_nodup h2, h3, h5,
            Bool.not_false, Bool.and_true]
          have hngood : rest = [] → ¬ Good seen (arg :: rest) := by
            rintro rfl ⟨ts, g1, _⟩
            rw [tokens_valued_nil hd hk] at g1
            cases g1
          by_cases hs : l ∈ seen
          · simp only [List.contains_iff_mem.mpr hs, if_true]
            obtain ⟨s', g1, g2⟩ := parse_total rest (0 + swallow arg expectedArgs)
              (warnUnknown arg true (fail (.duplicate arg) s)) seen hf
              (by simp [warnUnknown, fail]; omega) (maxArgs := maxArgs)
            refine ⟨s', g1, .ofBad ?_ (g2 rfl)⟩
            cases rest with
            | nil => exact hngood rfl
            | cons v rest =>
              have ht : tokens (arg :: v :: rest) = (tokens rest).map (.option l (some v) :: ·) :=
                tokens_valued hd hk
              exact fun g => ((good_option ht).mp g).1 hs
          · have hs' : seen.contains l = false := by simpa using hs
            simp only [hs', Bool.false_eq_true, if_false, h4]
            cases rest with
            | nil =>
              simp only [List.head?_nil]
              obtain ⟨s', g1, g2⟩ := parse_total [] (0 + swallow arg expectedArgs)
                (warnUnknown arg true (fail (.missingValue vn arg)
                  { s with found := foundOf expectedArgs (l :: seen) })) (l :: seen) rfl
                (by simp [warnUnknown, fail]; omega) (maxArgs := maxArgs)
              exact ⟨s', g1, .ofBad (hngood rfl) (g2 rfl)⟩
            | cons v rest =>
              simp only [List.length_cons] at hn hlen
              have ht : tokens (arg :: v :: rest) = (tokens rest).map (.option l (some v) :: ·) :=
                tokens_valued hd hk
              simp only [List.head?_cons]
              rw [pushArg_ok (by show s.args.length < maxArgs; omega)]
              simp only [Outcome.bind_ok, Outcome.pure_eq, h6, Nat.add_zero]
              obtain ⟨s', g1, g2⟩ := ih rest (l :: seen)
                { s with args := s.args ++ [⟨e.names.getLastD [], some vn, some v⟩]
                         found := foundOf expectedArgs (l :: seen) } (by omega) rfl
                (by simp; omega)
              refine ⟨s', by rw [parseLoop]; exact g1,
                Parsed.step (s := s) ht ?_ ?_ ?_ ?_ ?_ g2⟩
              · rw [good_option ht]; exact ⟨fun h => h.2, fun h => ⟨hs, h⟩⟩
              · rfl
              · simp only [List.map_append, List.map_cons, List.map_nil, entryOf, Option.toList]
                rw [← h3]; rfl
              · simp [unknowns]
              · intro a ha
                rcases List.mem_append.mp ha with ha | ha
                · exact .inl ha
                · rw [List.mem_singleton] at ha
                  subst ha
                  refine .inr (fun hnm => absurd (hnm : e.key = []) ?_)
                  show e.key ≠ []; rw [h3]; exact kind_long (.inr hk)
      · have hp : ¬ ['-'].isPrefixOf arg = true := by
          cases arg with
          | nil => simp [List.isPrefixOf]
          | cons c cs =>
            simp at hd
            simp [List.isPrefixOf]
            exact fun h => hd h.symm
        have ht : tokens (arg :: rest) = (tokens rest).map (.positional arg :: ·) := tokens_positional hd
        rw [parseLoop, if_neg hp, positional_ok hf (by omega)]
        simp only
        obtain ⟨s', g1, g2⟩ := ih rest ([] :: seen)
          { s with args := s.args ++ [⟨[], some "test regex".toList, some arg⟩]
                   found := foundOf expectedArgs ([] :: seen) } (by omega) rfl (by simp; omega)
        refine ⟨s', g1, Parsed.step (s := s) ht ?_ ?_ ?_ ?_ ?_ g2⟩
        · rw [good_other (by intro l v h; cases h) ht]
          constructor
          · rintro ⟨ts, a, b, c⟩
            refine ⟨ts, a, b, ?_⟩
            intro l hl hm
            rcases List.mem_cons.mp hm with rfl | hm
            · exact optionNames_ne a _ hl rfl
            · exact c l hl hm
          · rintro ⟨ts, a, b, c⟩
            exact ⟨ts, a, b, fun l hl hm => c l hl (List.mem_cons_of_mem _ hm)⟩
        · rfl
        · simp [entryOf]
        · simp [unknowns]
        · intro a ha
          rcases List.mem_append.mp ha with ha | ha
          · exact .inl ha
          · rw [List.mem_singleton] at ha
            subst ha
            exact .inr (fun _ => rfl)

end Verif.Cli
