import Verif.Lemmas.Help
import Verif.Lemmas.CliLimit
import Verif.Lemmas.ConsoleText
/-!
# Lemmas about the complaints about a command line
-/
namespace Verif.Cli
open Verif Verif.Spec Verif.Cli.Spec

/-- The name of the value of an option in the table. -/
def valueNameB (a : Text) : Bool :=
  match kind a, look a 0 expectedArgs with
  | .valued l, some (_, e) => e.valueName == some (valueNameOf l)
  | _, _ => true

theorem valueName_names : ∀ a ∈ allNames expectedArgs, valueNameB a = true := by decide

theorem valueName_eq {a l vn : Text} {i : Nat} {e : Expected} (hk : kind a = .valued l)
    (hl : look a 0 expectedArgs = some (i, e)) (hv : e.valueName = some vn) : vn = valueNameOf l := by
  have hm : a ∈ allNames expectedArgs := by
    apply Decidable.byContradiction
    intro h
    rw [look_none 0 h] at hl
    cases hl
  have h := valueName_names a hm
  rw [valueNameB, hk, hl] at h
  simp only [hv, beq_iff_eq, Option.some.injEq] at h
  exact h

theorem complaints_flag {a l : Text} (seen : List Text) (rest : List Text) (hd : a.head? = some '-')
    (hk : kind a = .flag l) : complaints seen (a :: rest) =
      if l ∈ seen then duplicated a :: complaints seen rest else complaints (l :: seen) rest := by
  rw [complaints.eq_def]; simp only [hd, hk, if_true]

theorem complaints_valued_seen {a l : Text} {seen : List Text} (rest : List Text) (hd : a.head? = some '-')
    (hk : kind a = .valued l) (hs : l ∈ seen) :
    complaints seen (a :: rest) = duplicated a :: complaints seen rest := by
  rw [complaints.eq_def]; simp only [hd, hk, if_true, hs]

theorem complaints_valued_nil {a l : Text} {seen : List Text} (hd : a.head? = some '-')
    (hk : kind a = .valued l) (hs : l ∉ seen) : complaints seen [a] = [valueMissing (valueNameOf l) a] := by
  rw [complaints.eq_def]; simp only [hd, hk, if_true, hs, if_false]

theorem complaints_valued {a l v : Text} {seen : List Text} (rest : List Text) (hd : a.head? = some '-')
    (hk : kind a = .valued l) (hs : l ∉ seen) : complaints seen (a :: v :: rest) = complaints (l :: seen) rest := by
  rw [complaints.eq_def]; simp only [hd, hk, if_true, hs, if_false]

theorem complaints_swallow_nil {a : Text} (seen : List Text) (hd : a.head? = some '-')
    (hk : kind a = .swallow) : complaints seen [a] = [unknownArgument a] := by
  rw [complaints.eq_def]; simp only [hd, hk, if_true]

theorem complaints_swallow {a v : Text} (seen : List Text) (rest : List Text) (hd : a.head? = some '-')
    (hk : kind a = .swallow) : complaints seen (a :: v :: rest) = unknownArgument a :: complaints seen rest := by
  rw [complaints.eq_def]; simp only [hd, hk, if_true]

theorem complaints_other {a : Text} (seen : List Text) (rest : List Text) (hd : a.head? = some '-')
    (hk : kind a = .other) : complaints seen (a :: rest) = unknownArgument a :: complaints seen rest := by
  rw [complaints.eq_def]; simp only [hd, hk, if_true]

theorem complaints_positional {a : Text} (seen : List Text) (rest : List Text) (hd : a.head? ≠ some '-') :
    complaints seen (a :: rest) = complaints seen rest := by
  rw [complaints.eq_def]; simp only [hd, if_false]

theorem recordings_flag {a l : Text} (seen : List Text) (rest : List Text) (hd : a.head? = some '-')
    (hk : kind a = .flag l) : recordings seen (a :: rest) =
      if l ∈ seen then recordings seen rest else 1 + recordings (l :: seen) rest := by
  rw [recordings.eq_def]; simp only [hd, hk, if_true]

theorem recordings_valued_seen {a l : Text} {seen : List Text} (rest : List Text) (hd : a.head? = some '-')
    (hk : kind a = .valued l) (hs : l ∈ seen) : recordings seen (a :: rest) = recordings seen rest := by
  rw [recordings.eq_def]; simp only [hd, hk, if_true, hs]

theorem recordings_valued_nil {a l : Text} {seen : List Text} (hd : a.head? = some '-')
    (hk : kind a = .valued l) (hs : l ∉ seen) : recordings seen [a] = 0 := by
  rw [recordings.eq_def]; simp only [hd, hk, if_true, hs, if_false]

theorem recordings_valued {a l v : Text} {seen : List Text} (rest : List Text) (hd : a.head? = some '-')
    (hk : kind a = .valued l) (hs : l ∉ seen) : recordings seen (a :: v :: rest) = 1 + recordings (l :: seen) rest := by
  rw [recordings.eq_def]; simp only [hd, hk, if_true, hs, if_false]

theorem recordings_swallow_nil {a : Text} (seen : List Text) (hd : a.head? = some '-')
    (hk : kind a = .swallow) : recordings seen [a] = 0 := by
  rw [recordings.eq_def]; simp only [hd, hk, if_true]

theorem recordings_swallow {a v : Text} (seen : List Text) (rest : List Text) (hd : a.head? = some '-')
    (hk : kind a = .swallow) : recordings seen (a :: v :: rest) = recordings seen rest := by
  rw [recordings.eq_def]; simp only [hd, hk, if_true]

theorem recordings_other {a : Text} (seen : List Text) (rest : List Text) (hd : a.head? = some '-')
    (hk : kind a = .other) : recordings seen (a :: rest) = recordings seen rest := by
  rw [recordings.eq_def]; simp only [hd, hk, if_true]

theorem recordings_positional {a : Text} (seen : List Text) (rest : List Text) (hd : a.head? ≠ some '-') :
    recordings seen (a :: rest) = 1 + recordings seen rest := by
  rw [recordings.eq_def]; simp only [hd, if_false]

/-- The parser complains as it should, and records as many arguments as it should. -/
theorem parse_msgs {maxArgs : Nat} : ∀ (n : Nat) (argv seen seen' : List Text) (s : PState),
    argv.length ≤ n → (∀ l, l ≠ [] → (l ∈ seen' ↔ l ∈ seen)) → s.found = foundOf expectedArgs seen' →
    s.args.length + argv.length ≤ maxArgs →
    ∃ s', parseLoop maxArgs expectedArgs argv 0 s = .ok s' ∧
      s'.msgs.map Msg.complaint = s.msgs.map Msg.complaint ++ complaints seen argv ∧
      s'.args.length = s.args.length + recordings seen argv := by
  intro n
  induction n with
  | zero =>
    intro argv seen seen' s hn _ hf hlen
    have : argv = [] := List.eq_nil_of_length_eq_zero (by omega)
    subst this
    exact ⟨s, rfl, by simp [complaints], by simp [recordings]⟩
  | succ n ih =>
    intro argv seen seen' s hn hse hf hlen
    have hcons : ∀ l, ∀ x, x ≠ [] → (x ∈ l :: seen' ↔ x ∈ l :: seen) := by
      intro l x hx
      rw [List.mem_cons, List.mem_cons, hse x hx]
    cases argv with
    | nil => exact ih [] seen seen' s (by simp) hse hf hlen
    | cons arg rest =>
      simp only [List.length_cons] at hn hlen
      by_cases hd : arg.head? = some '-'
      · have hp : ['-'].isPrefixOf arg = true := by
          cases arg with
          | nil => cases hd
          | cons c cs => simp at hd; simp [List.isPrefixOf, hd]
        have hag := expectedArgs_agrees arg
        rw [parseLoop, if_pos hp, optionLoop_eq]
        cases hk : kind arg with
        | other =>
          rw [hk] at hag
          obtain ⟨h1, h2⟩ := hag
          rw [h1]
          simp only [h2, Nat.add_zero]
          obtain ⟨s', g1, g2, g3⟩ := ih rest seen seen' (warnUnknown arg false s) (by omega) hse hf
            (by simp [warnUnknown]; omega)
          refine ⟨s', g1, ?_, by rw [g3, recordings_other seen rest hd hk, warnUnknown_args]⟩
          rw [g2, complaints_other seen rest hd hk]
          simp [warnUnknown, Msg.complaint]
        | swallow =>
          rw [hk] at hag
          obtain ⟨h1, h2⟩ := hag
          rw [h1]
          simp only [h2, Nat.zero_add]
          cases rest with
          | nil =>
            obtain ⟨s', g1, g2, g3⟩ := ih [] seen seen' (warnUnknown arg false s) (by simp) hse hf
              (by simp [warnUnknown]; omega)
            refine ⟨s', g1, ?_, by rw [g3, recordings_swallow_nil seen hd hk, warnUnknown_args]; rfl⟩
            rw [g2, complaints_swallow_nil seen hd hk]
            simp [warnUnknown, Msg.complaint, complaints]
          | cons v rest =>
            simp only [List.length_cons] at hn hlen
            obtain ⟨s', g1, g2, g3⟩ := ih rest seen seen' (warnUnknown arg false s) (by omega) hse hf
              (by simp [warnUnknown]; omega)
            refine ⟨s', by rw [parseLoop]; exact g1, ?_, by rw [g3, recordings_swallow seen rest hd hk, warnUnknown_args]⟩
            rw [g2, complaints_swallow seen rest hd hk]
            simp [warnUnknown, Msg.complaint]
        | flag l =>
          rw [hk] at hag
          obtain ⟨i, e, h1, h2, h3, h4, h5, h6⟩ := hag
          have hne := kind_long (.inl hk)
          rw [h1]
          simp only [useOption, hf, foundOf_get h2, foundOf_set expectedArgs_nodup h2, h3, h5,
            Bool.not_false, Bool.and_true]
          by_cases hs : l ∈ seen
          · simp only [List.contains_iff_mem.mpr ((hse l hne).mpr hs), if_true, h6, Nat.zero_add]
            obtain ⟨s', g1, g2, g3⟩ := ih rest seen seen' (warnUnknown arg true (fail (.duplicate arg) s))
              (by omega) hse hf (by simp [warnUnknown, fail]; omega)
            refine ⟨s', g1, ?_, by rw [g3, recordings_flag seen rest hd hk, if_pos hs, warnUnknown_args]; rfl⟩
            rw [g2, complaints_flag seen rest hd hk, if_pos hs]
            simp [warnUnknown, fail, Msg.complaint]
          · have hs' : seen'.contains l = false := by
              rw [← Bool.not_eq_true, List.contains_iff_mem, hse l hne]; exact hs
            simp only [hs', Bool.false_eq_true, if_false, h4]
            rw [pushArg_ok (by show s.args.length < maxArgs; omega)]
            simp only [Outcome.bind_ok, Outcome.pure_eq, h6, Nat.add_zero]
            obtain ⟨s', g1, g2, g3⟩ := ih rest (l :: seen) (l :: seen')
              { s with args := s.args ++ [⟨e.names.getLastD [], none, none⟩]
                       found := foundOf expectedArgs (l :: seen') } (by omega) (hcons l) rfl
              (by simp; omega)
            refine ⟨s', g1, ?_, by rw [g3, recordings_flag seen rest hd hk, if_neg hs]; simp; omega⟩
            rw [g2, complaints_flag seen rest hd hk, if_neg hs]
        | valued l =>
          rw [hk] at hag
          obtain ⟨i, e, vn, h1, h2, h3, h4, h5, h6⟩ := hag
          have hne := kind_long (.inr hk)
          have hvn := valueName_eq hk h1 h4
          rw [h1]
          simp only [useOption, hf, foundOf_get h2, foundOf_set expectedArgs_nodup h2, h3, h5,
            Bool.not_false, Bool.and_true]
          by_cases hs : l ∈ seen
          · simp only [List.contains_iff_mem.mpr ((hse l hne).mpr hs), if_true, h6, Nat.zero_add]
            obtain ⟨s', g1, g2, g3⟩ := ih rest seen seen' (warnUnknown arg true (fail (.duplicate arg) s))
              (by omega) hse hf (by simp [warnUnknown, fail]; omega)
            refine ⟨s', g1, ?_, by rw [g3, recordings_valued_seen rest hd hk hs, warnUnknown_args]; rfl⟩
            rw [g2, complaints_valued_seen rest hd hk hs]
            simp [warnUnknown, fail, Msg.complaint]
          · have hs' : seen'.contains l = false := by
              rw [← Bool.not_eq_true, List.contains_iff_mem, hse l hne]; exact hs
            simp only [hs', Bool.false_eq_true, if_false, h4]
            cases rest with
            | nil =>
              simp only [List.head?_nil, h6, Nat.zero_add]
              refine ⟨_, rfl, ?_, by rw [recordings_valued_nil hd hk hs, warnUnknown_args]; rfl⟩
              rw [complaints_valued_nil hd hk hs, ← hvn]
              simp [warnUnknown, fail, Msg.complaint]
            | cons v rest =>
              simp only [List.length_cons] at hn hlen
              simp only [List.head?_cons]
              rw [pushArg_ok (by show s.args.length < maxArgs; omega)]
              simp only [Outcome.bind_ok, Outcome.pure_eq, h6, Nat.add_zero]
              obtain ⟨s', g1, g2, g3⟩ := ih rest (l :: seen) (l :: seen')
                { s with args := s.args ++ [⟨e.names.getLastD [], some vn, some v⟩]
                         found := foundOf expectedArgs (l :: seen') } (by omega) (hcons l) rfl
                (by simp; omega)
              refine ⟨s', by rw [parseLoop]; exact g1, ?_, by rw [g3, recordings_valued rest hd hk hs]; simp; omega⟩
              rw [g2, complaints_valued rest hd hk hs]
      · have hp : ¬ ['-'].isPrefixOf arg = true := by
          cases arg with
          | nil => simp [List.isPrefixOf]
          | cons c cs =>
            simp at hd
            simp [List.isPrefixOf]
            exact fun h => hd h.symm
        rw [parseLoop, if_neg hp, positional_ok hf (by omega)]
        simp only
        obtain ⟨s', g1, g2, g3⟩ := ih rest seen ([] :: seen')
          { s with args := s.args ++ [⟨[], some "test regex".toList, some arg⟩]
                   found := foundOf expectedArgs ([] :: seen') } (by omega)
          (by intro l hl; rw [List.mem_cons, ← hse l hl]; simp [hl]) rfl (by simp; omega)
        exact ⟨s', g1, by rw [g2, complaints_positional seen rest hd],
          by rw [g3, recordings_positional seen rest hd]; simp; omega⟩

/-- There is an error exactly when the command line is not well-formed. -/
theorem good_iff_complaints : ∀ (n : Nat) (argv seen : List Text), argv.length ≤ n →
    (Good seen argv ↔ ∀ c ∈ complaints seen argv, c.error = false) := by
  intro n
  induction n with
  | zero =>
    intro argv seen hn
    have : argv = [] := List.eq_nil_of_length_eq_zero (by omega)
    subst this
    exact ⟨fun _ c hc => by simp [complaints] at hc,
      fun _ => ⟨[], rfl, List.nodup_nil, by intro l hl; cases hl⟩⟩
  | succ n ih =>
    intro argv seen hn
    cases argv with
    | nil => exact ih [] seen (by simp)
    | cons arg rest =>
      simp only [List.length_cons] at hn
      by_cases hd : arg.head? = some '-'
      · cases hk : kind arg with
        | other =>
          rw [good_other (by intro l v h; cases h) (tokens_other hd hk), complaints_other seen rest hd hk,
            ih rest seen (by omega)]
          simp [unknownArgument]
        | swallow =>
          cases rest with
          | nil =>
            rw [good_other (by intro l v h; cases h) (tokens_swallow_nil hd hk), complaints_swallow_nil seen hd hk,
              ih [] seen (by simp)]
            simp [unknownArgument, complaints]
          | cons v rest =>
            simp only [List.length_cons] at hn
            rw [good_other (by intro l v h; cases h) (tokens_swallow hd hk), complaints_swallow seen rest hd hk,
              ih rest seen (by omega)]
            simp [unknownArgument]
        | flag l =>
          rw [good_option (tokens_flag hd hk), complaints_flag seen rest hd hk, ih rest (l :: seen) (by omega)]
          by_cases hs : l ∈ seen
          · simp [hs, duplicated]
          · simp [hs]
        | valued l =>
          by_cases hs : l ∈ seen
          · rw [complaints_valued_seen rest hd hk hs]
            refine ⟨fun g => ?_, fun h => absurd (h _ (List.mem_cons_self ..)) (by simp [duplicated])⟩
            cases rest with
            | nil =>
              obtain ⟨ts, g1, _⟩ := g
              rw [tokens_valued_nil hd hk] at g1; cases g1
            | cons v rest => exact absurd hs ((good_option (tokens_valued hd hk)).mp g).1
          · cases rest with
            | nil =>
              rw [complaints_valued_nil hd hk hs]
              refine ⟨fun g => ?_, fun h => absurd (h _ (List.mem_cons_self ..)) (by simp [valueMissing])⟩
              obtain ⟨ts, g1, _⟩ := g
              rw [tokens_valued_nil hd hk] at g1; cases g1
            | cons v rest =>
              simp only [List.length_cons] at hn
              rw [good_option (tokens_valued hd hk), complaints_valued rest hd hk hs, ih rest (l :: seen) (by omega)]
              simp [hs]
      · rw [good_other (by intro l v h; cases h) (tokens_positional hd), complaints_positional seen rest hd,
          ih rest seen (by omega)]

theorem good_wellFormed (argv : List Text) : Good [] argv ↔ WellFormed argv := by
  constructor
  · rintro ⟨ts, a, b, _⟩; exact ⟨ts, a, b⟩
  · rintro ⟨ts, a, b⟩; exact ⟨ts, a, b, by simp⟩

/-- The messages of `cli::parse_arguments`. -/
theorem parseArguments_msgs {maxArgs : Nat} {dflt : Bool} {argv0 : Text} {argv : List Text}
    (h : argv.length ≤ maxArgs) {color : Bool} {msgs : List Msg} {r : Option Input}
    (hp : parseArguments maxArgs dflt argv0 argv = .ok (color, msgs, r)) :
    msgs.map Msg.complaint = complaints [] argv := by
  obtain ⟨s₁, h1, h2⟩ := parseWith_output argv0 h
  obtain ⟨s₂, h3, h4, _⟩ := parse_msgs (maxArgs := maxArgs) argv.length argv [] []
    { found := expectedArgs.map fun _ => false } (Nat.le_refl _) (by simp) (foundOf_nil _).symm (by simpa using h)
  have hv : (!expectedArgs.all validExpected) = false := by decide
  simp only [parseArguments, parseColorOptions, h2, Outcome.bind_ok, Outcome.pure_eq] at hp
  rw [parseWith, hv, if_neg (by decide), h3] at hp
  simp only [Outcome.bind_ok, Outcome.pure_eq] at hp
  rw [checkMandatory_none _ _ _ (by decide)] at hp
  simp only [Outcome.ok.injEq, Prod.mk.injEq] at hp
  rw [← hp.2.1, h4]
  rfl

theorem parseWith_limit {m M : Nat} {es : List Expected} {tolerant : Bool} (argv0 : Text) {argv : List Text}
    (hv : (!es.all validExpected) = false) {s : PState}
    (h : parseLoop M es argv 0 { found := es.map fun _ => false } = .ok s) :
    parseWith m es tolerant argv0 argv =
      if s.args.length ≤ m then parseWith M es tolerant argv0 argv else .abort := by
  have k := (parseLoop_limit (m := m) h).2 (Nat.zero_le _)
  have hf : ¬ false = true := by decide
  rw [parseWith, parseWith, hv, if_neg hf, if_neg hf, h, k]
  by_cases ht : s.args.length ≤ m
  · rw [if_pos ht, if_pos ht]
  · rw [if_neg ht, if_neg ht]; rfl

/-- The limit on the number of arguments matters only in this. -/
theorem parseArguments_limit {m M : Nat} (h2 : 2 ≤ m) (dflt : Bool) (argv0 : Text) {argv : List Text}
    (hM : argv.length ≤ M) :
    parseArguments m dflt argv0 argv =
      if recordings [] argv ≤ m then parseArguments M dflt argv0 argv else .abort := by
  obtain ⟨s₁, h1, h3⟩ := parseWith_output argv0 hM
  obtain ⟨s₂, h4, _, h5⟩ := parse_msgs (maxArgs := M) argv.length argv [] []
    { found := expectedArgs.map fun _ => false } (Nat.le_refl _) (by simp) (foundOf_nil _).symm (by simpa using hM)
  have h6 : s₂.args.length = recordings [] argv := by rw [h5]; simp
  have k1 := parseWith_limit (m := m) (tolerant := true) argv0 (by decide) h1
  rw [if_pos (Nat.le_trans (output_two argv 0 _ _ [] (foundOf_nil _).symm List.nodup_nil
    (fun _ hm => by cases hm) (Nat.zero_le _) h1) h2), h3] at k1
  have k2 := parseWith_limit (m := m) (tolerant := false) argv0 (by decide) h4
  rw [h6] at k2
  simp only [parseArguments, parseColorOptions, h3, k1, k2, Outcome.bind_ok]
  by_cases ht : recordings [] argv ≤ m
  · rw [if_pos ht, if_pos ht]
  · rw [if_neg ht, if_neg ht]; rfl

theorem recordings_eq {argv : List Text} {ts : List Token} (ht : tokens argv = some ts) (hn : (optionNames ts).Nodup) :
    recordings [] argv = (ts.filterMap entryOf).length := by
  obtain ⟨s, h1, _, h2⟩ := parse_msgs (maxArgs := argv.length) argv.length argv [] []
    { found := expectedArgs.map fun _ => false } (Nat.le_refl _) (by simp) (foundOf_nil _).symm (by simp)
  obtain ⟨s', h3, h4⟩ := parse_spec (maxArgs := argv.length) argv.length argv []
    { found := expectedArgs.map fun _ => false } (Nat.le_refl _) (foundOf_nil _).symm (by simp)
  rw [h1] at h3
  cases h3
  have h5 := congrArg List.length (h4.args ⟨ts, ht, hn, by simp⟩ ts ht)
  simp only [List.length_map, List.map_nil, List.nil_append, List.length_nil, Nat.zero_add] at h2 h5
  omega

/-! ## Reading the help text -/

theorem splitAt_ne (sep : Char) : ∀ s : Text, splitAt sep s ≠ []
  | [] => by simp [splitAt]
  | c :: cs => by
    rw [splitAt]
    split
    · simp
    · cases splitAt sep cs <;> simp

theorem splitAt_line {sep : Char} : ∀ {l : Text} (_ : sep ∉ l) (r : Text),
    splitAt sep (l ++ sep :: r) = l :: splitAt sep r
  | [], _, r => by simp [splitAt]
  | c :: l, h, r => by
    simp only [List.mem_cons, not_or] at h
    rw [List.cons_append, splitAt, if_neg (fun e => h.1 e.symm), splitAt_line h.2]

end Verif.Cli
