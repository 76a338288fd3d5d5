import Verif.Spec.Cli
/-!
# Lemmas about the command-line parser
-/
namespace Verif.Cli
open Spec

/-- The first entry for an option with the given name that is not ignored, with its position. -/
def look (arg : Text) : Nat → List Expected → Option (Nat × Expected)
  | _, [] => none
  | i, e :: es =>
    if e.ignored || !e.isOption then look arg (i + 1) es
    else if !e.names.contains arg then look arg (i + 1) es
    else some (i, e)

/-- What happens with the entry that was found. -/
def useOption (maxArgs : Nat) (arg : Text) (next : Option Text) (i : Nat) (e : Expected) (s : PState) :
    Outcome (PState × Bool × Nat) :=
  match s.found[i]? with
  | none => .abort
  | some seen =>
    if seen && !e.repeatable then .ok (fail (.duplicate arg) s, true, 0)
    else
      let s := { s with found := s.found.set i true }
      match e.valueName with
      | some vn =>
        match next with
        | none => .ok (fail (.missingValue vn arg) s, true, 0)
        | some v => do
          let s ← pushArg maxArgs ⟨e.names.getLastD [], some vn, some v⟩ s
          return (s, true, 1)
      | none => do
        let s ← pushArg maxArgs ⟨e.names.getLastD [], none, none⟩ s
        return (s, true, 0)

theorem optionLoop_eq (maxArgs : Nat) (arg : Text) (next : Option Text) (s : PState) :
    ∀ (es : List Expected) (i : Nat), optionLoop maxArgs arg next i es s =
      match look arg i es with
      | none => .ok (s, false, 0)
      | some (j, e) => useOption maxArgs arg next j e s := by
  intro es
  induction es with
  | nil => intro i; rfl
  | cons e es ih =>
    intro i
    rw [optionLoop, look]
    by_cases h1 : (e.ignored || !e.isOption) = true
    · rw [if_pos h1, if_pos h1]; exact ih _
    · rw [if_neg h1, if_neg h1]
      by_cases h2 : (!e.names.contains arg) = true
      · rw [if_pos h2, if_pos h2]; exact ih _
      · rw [if_neg h2, if_neg h2]; rfl

/-- The long name of an entry. -/
def Expected.key (e : Expected) : Text := e.names.getLastD []

/-- The flags of the entries whose long name has been seen. -/
def foundOf (expected : List Expected) (seen : List Text) : List Bool :=
  expected.map fun e => seen.contains e.key

theorem foundOf_nil (expected : List Expected) :
    foundOf expected [] = expected.map fun _ => false := by
  simp [foundOf]

theorem foundOf_set {expected : List Expected} {seen : List Text} {i : Nat} {e : Expected}
    (hn : (expected.map Expected.key).Nodup) (hi : expected[i]? = some e) :
    (foundOf expected seen).set i true = foundOf expected (e.key :: seen) := by
  apply List.ext_getElem?
  intro j
  rw [List.getElem?_set]
  by_cases hij : i = j
  · subst hij
    have : i < expected.length := by
      rcases Nat.lt_or_ge i expected.length with h | h
      · exact h
      · rw [List.getElem?_eq_none h] at hi; cases hi
    have h2 : expected[i] = e := by rw [List.getElem?_eq_getElem this] at hi; exact Option.some.inj hi
    simp [foundOf, h2, this]
  · rw [if_neg hij]
    simp only [foundOf, List.getElem?_map]
    cases hj : expected[j]? with
    | none => rfl
    | some f =>
      have hne : f.key ≠ e.key := by
        intro he
        apply hij
        have h1 : (expected.map Expected.key)[i]? = some e.key := by rw [List.getElem?_map, hi]; rfl
        have h2 : (expected.map Expected.key)[j]? = some e.key := by
          rw [List.getElem?_map, hj, ← he]; rfl
        have hlt : i < (expected.map Expected.key).length := by
          rcases Nat.lt_or_ge i (expected.map Expected.key).length with h | h
          · exact h
          · rw [List.getElem?_eq_none h] at h1; cases h1
        exact (List.getElem?_inj hlt hn).mp (h1.trans h2.symm)
      simp [hne]

theorem foundOf_get {expected : List Expected} {seen : List Text} {i : Nat} {e : Expected}
    (hi : expected[i]? = some e) : (foundOf expected seen)[i]? = some (seen.contains e.key) := by
  simp [foundOf, hi]

/-! ## The documented table -/

/-- All names in a table of expected arguments. -/
def allNames (expected : List Expected) : List Text := expected.flatMap (·.names)

theorem look_none {arg : Text} : ∀ {es : List Expected} (i : Nat), arg ∉ allNames es →
    look arg i es = none := by
  intro es
  induction es with
  | nil => intro i _; rfl
  | cons e es ih =>
    intro i h
    simp only [allNames, List.flatMap_cons, List.mem_append, not_or] at h
    rw [look, ih _ h.2]
    simp [h.1]

theorem swallow_none {arg : Text} : ∀ {es : List Expected}, arg ∉ allNames es → swallow arg es = 0 := by
  intro es
  induction es with
  | nil => intro _; rfl
  | cons e es ih =>
    intro h
    simp only [allNames, List.flatMap_cons, List.mem_append, not_or] at h
    rw [swallow, ih h.2]
    simp [h.1]

theorem find_none {arg : Text} {table : List (String × String)} {es : List Expected}
    (hsub : ∀ p ∈ table, p.1.toList ∈ allNames es) (h : arg ∉ allNames es) : find arg table = none := by
  rw [find, List.find?_eq_none.mpr]
  · rfl
  · intro p hp he
    apply h
    have : p.1.toList = arg := by simpa using he
    rw [← this]; exact hsub p hp

/-- The table says the same about an argument as the documentation. -/
def Agrees (expected : List Expected) (k : Kind) (arg : Text) : Prop :=
  match k with
  | .flag l => ∃ i e, look arg 0 expected = some (i, e) ∧ expected[i]? = some e ∧ e.key = l ∧
      e.valueName = none ∧ e.repeatable = false ∧ swallow arg expected = 0
  | .valued l => ∃ i e vn, look arg 0 expected = some (i, e) ∧ expected[i]? = some e ∧ e.key = l ∧
      e.valueName = some vn ∧ e.repeatable = false ∧ swallow arg expected = 0
  | .swallow => look arg 0 expected = none ∧ swallow arg expected = 1
  | .other => look arg 0 expected = none ∧ swallow arg expected = 0

/-- A decision procedure for `Agrees`. -/
def agreesB (expected : List Expected) (k : Kind) (arg : Text) : Bool :=
  match k, look arg 0 expected with
  | .flag l, some (i, e) => expected[i]? == some e && e.key == l && e.valueName == none &&
      !e.repeatable && swallow arg expected == 0
  | .valued l, some (i, e) => expected[i]? == some e && e.key == l && e.valueName.isSome &&
      !e.repeatable && swallow arg expected == 0
  | .swallow, none => swallow arg expected == 1
  | .other, none => swallow arg expected == 0
  | _, _ => false

theorem agreesB_sound {expected : List Expected} {k : Kind} {arg : Text}
    (h : agreesB expected k arg = true) : Agrees expected k arg := by
  unfold agreesB at h
  unfold Agrees
  cases hl : look arg 0 expected with
  | none =>
    rw [hl] at h
    cases k with
    | flag l => cases h
    | valued l => cases h
    | swallow => exact ⟨rfl, by simpa using h⟩
    | other => exact ⟨rfl, by simpa using h⟩
  | some x =>
    obtain ⟨i, e⟩ := x
    rw [hl] at h
    cases k with
    | flag l =>
      simp only [Bool.and_eq_true, beq_iff_eq, Bool.not_eq_true'] at h
      obtain ⟨⟨⟨⟨a, b⟩, c⟩, d⟩, f⟩ := h
      exact ⟨i, e, rfl, a, b, c, d, f⟩
    | valued l =>
      simp only [Bool.and_eq_true, beq_iff_eq, Bool.not_eq_true'] at h
      obtain ⟨⟨⟨⟨a, b⟩, c⟩, d⟩, f⟩ := h
      obtain ⟨vn, hv⟩ := Option.isSome_iff_exists.mp c
      exact ⟨i, e, vn, rfl, a, b, hv, d, f⟩
    | swallow => cases h
    | other => cases h

theorem expectedArgs_names : ∀ a ∈ allNames expectedArgs, agreesB expectedArgs (kind a) a = true := by
  decide

theorem expectedArgs_agrees (a : Text) : Agrees expectedArgs (kind a) a := by
  by_cases h : a ∈ allNames expectedArgs
  · exact agreesB_sound (expectedArgs_names a h)
  · have hk : kind a = .other := by
      rw [kind, find_none (es := expectedArgs) (by decide) h, find_none (es := expectedArgs) (by decide) h]
      have : swallowed.any (fun s => s.toList == a) = false := by
        rw [List.any_eq_false]
        intro s hs he
        apply h
        have hsub : ∀ s ∈ swallowed, s.toList ∈ allNames expectedArgs := by decide
        have : s.toList = a := by simpa using he
        rw [← this]; exact hsub s hs
      simp [this]
    rw [hk]
    exact ⟨look_none 0 h, swallow_none h⟩

theorem expectedArgs_nodup : (expectedArgs.map Expected.key).Nodup := by decide

end Verif.Cli
