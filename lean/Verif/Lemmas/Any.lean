import Verif.Spec.Any
/-!
# Lemmas: containers hold what they should
-/
namespace Verif.Any
open Verif.Any.Spec

/-- The object a container holds. -/
def Container.view (c : Container) : Option (Nat × Nat) :=
  match c.id, c.storage with
  | some t, some o => some (o, t)
  | _, _ => none

/-- A container's members agree with each other. -/
def Container.Good (c : Container) : Prop := c.deleter = c.id ∧ (c.id.isSome → c.storage.isSome)

/-- The containers of `w` hold what `s` says, and exactly the objects held are alive. -/
structure Inv (w : World) (s : State) : Prop where
  view : ∀ i : Nat, Option.map (Option.map Container.view) w.containers[i]? = s.holds[i]?
  good : ∀ (i : Nat) (c : Container), w.containers[i]? = some (some c) → c.Good
  made : s.made = w.made.length
  live : ∀ o t : Nat, (w.made[o]? = some t ∧ o ∉ w.gone) ↔ ∃ i : Nat, s.holds[i]? = some (some (some (o, t)))
  uniq : ∀ i j o t t' : Nat, s.holds[i]? = some (some (some (o, t))) →
    s.holds[j]? = some (some (some (o, t'))) → i = j
  nodup : w.gone.Nodup
  bound : ∀ o ∈ w.gone, o < w.made.length

theorem inv_start : Inv {} {} := by
  constructor <;> simp

theorem at_eq {w : World} {i : Nat} {c : Container} (h : w.at i = some c) :
    w.containers[i]? = some (some c) := by
  unfold World.at at h
  cases hi : w.containers[i]? with
  | none => rw [hi] at h; simp at h
  | some x => rw [hi] at h; simp at h; rw [h]

theorem Inv.length {w : World} {s : State} (h : Inv w s) : w.containers.length = s.holds.length := by
  have h1 : ∀ i, i < w.containers.length ↔ i < s.holds.length := by
    intro i
    have := h.view i
    constructor
    · intro hi
      rw [List.getElem?_eq_getElem hi] at this
      simp only [Option.map_some] at this
      rcases Nat.lt_or_ge i s.holds.length with h | h
      · exact h
      · rw [List.getElem?_eq_none h] at this; simp at this
    · intro hi
      rw [List.getElem?_eq_getElem hi] at this
      rcases Nat.lt_or_ge i w.containers.length with h | h
      · exact h
      · rw [List.getElem?_eq_none h] at this; simp at this
  have a := h1 w.containers.length
  have b := h1 s.holds.length
  omega

theorem Inv.holds {w : World} {s : State} (h : Inv w s) {i : Nat} {c : Container}
    (hc : w.at i = some c) : s.holds[i]? = some (some c.view) := by
  rw [← h.view, at_eq hc]; rfl

theorem Inv.exists_iff {w : World} {s : State} (h : Inv w s) (i : Nat) :
    s.exists i ↔ ∃ c, w.at i = some c := by
  unfold State.exists World.at
  rw [← h.view]
  cases hi : w.containers[i]? with
  | none => simp
  | some x => cases x <;> simp

theorem Inv.not_exists {w : World} {s : State} (h : Inv w s) {i : Nat} (hc : w.at i = none) :
    ¬ s.exists i := by
  rw [h.exists_iff]; rintro ⟨c, e⟩; rw [hc] at e; cases e

theorem Inv.does_exist {w : World} {s : State} (h : Inv w s) {i : Nat} {c : Container}
    (hc : w.at i = some c) : s.exists i := (h.exists_iff i).2 ⟨c, hc⟩

theorem Inv.content {w : World} {s : State} (h : Inv w s) {i : Nat} {c : Container}
    (hc : w.at i = some c) : s.content i = c.view := by
  unfold State.content; rw [h.holds hc]; rfl

theorem release_view (c : Container) : c.release.view = none := rfl

theorem release_good (c : Container) : c.release.Good := ⟨rfl, by intro h; cases h⟩

/-- Destroying what a container holds, leaving it empty, or gone. -/
theorem Inv.clear {w : World} {s : State} (h : Inv w s) {i : Nat} {c : Container}
    (hc : w.at i = some c) (x : Option Container) (hx : x.map Container.view = none ∨ x = some c.release) :
    ∃ gone, c.reset w.made w.gone = .ok (c.release, gone) ∧
      Inv ({ w with gone }.put i x) { s with holds := s.holds.set i (x.map Container.view) } := by
  have hi := at_eq hc
  have hlt : i < w.containers.length := by
    rcases Nat.lt_or_ge i w.containers.length with h | h
    · exact h
    · rw [List.getElem?_eq_none h] at hi; cases hi
  have hlt' : i < s.holds.length := by rw [← h.length]; exact hlt
  have hview := h.holds hc
  have hx' : x.map Container.view = none ∨ x.map Container.view = some none := by
    rcases hx with hx | hx
    · exact Or.inl hx
    · right; rw [hx]; rfl
  have hxg : ∀ c', x = some c' → c'.Good := by
    intro c' e
    rcases hx with hx | hx
    · rw [e] at hx; cases hx
    · rw [hx] at e; cases e; exact release_good c
  have hdead : ∀ o t, (s.holds.set i (x.map Container.view))[i]? ≠ some (some (some (o, t))) := by
    intro o t
    rw [List.getElem?_set_self hlt']
    rcases hx' with e | e <;> rw [e] <;> simp
  have hother : ∀ j, j ≠ i → (s.holds.set i (x.map Container.view))[j]? = s.holds[j]? := by
    intro j hj; rw [List.getElem?_set_ne (Ne.symm hj)]
  have hheld : ∀ j o t, (s.holds.set i (x.map Container.view))[j]? = some (some (some (o, t))) ↔
      (j ≠ i ∧ s.holds[j]? = some (some (some (o, t)))) := by
    intro j o t
    by_cases hj : j = i
    · subst hj
      constructor
      · intro e; exact absurd e (hdead o t)
      · intro e; exact absurd rfl e.1
    · rw [hother j hj]; simp [hj]
  obtain ⟨hdel, hst⟩ := h.good i c hi
  have fin : ∀ gone : List Nat, gone.Nodup → (∀ o ∈ gone, o < w.made.length) →
      (∀ o t, (w.made[o]? = some t ∧ o ∉ gone) ↔
        ∃ j, j ≠ i ∧ s.holds[j]? = some (some (some (o, t)))) →
      Inv ({ w with gone }.put i x) { s with holds := s.holds.set i (x.map Container.view) } := by
    intro gone hnd hb hlive
    constructor
    · intro j
      simp only [World.put]
      by_cases hj : j = i
      · subst hj
        rw [List.getElem?_set_self hlt, List.getElem?_set_self hlt']; rfl
      · rw [hother j hj, List.getElem?_set_ne (Ne.symm hj)]; exact h.view j
    · intro j c' e
      simp only [World.put] at e
      by_cases hj : j = i
      · subst hj
        rw [List.getElem?_set_self hlt] at e
        exact hxg c' (Option.some.inj e)
      · rw [List.getElem?_set_ne (Ne.symm hj)] at e; exact h.good j c' e
    · exact h.made
    · intro o t
      simp only [World.put]
      rw [hlive]
      simp only [hheld]
    · intro a b o t t' ha hb
      rw [hheld] at ha hb
      exact h.uniq a b o t t' ha.2 hb.2
    · exact hnd
    · exact hb
  cases hid : c.id with
  | none =>
    refine ⟨w.gone, ?_, fin _ h.nodup h.bound ?_⟩
    · simp only [Container.reset, callDeleter, hdel, hid, Outcome.bind_ok]; rfl
    · intro o t
      rw [h.live]
      have hv : c.view = none := by simp [Container.view, hid]
      constructor
      · rintro ⟨j, e⟩
        refine ⟨j, ?_, e⟩
        intro hj; subst hj; rw [hview, hv] at e; cases e
      · rintro ⟨j, _, e⟩; exact ⟨j, e⟩
  | some t0 =>
    obtain ⟨o0, ho0⟩ := Option.isSome_iff_exists.1 (hst (by rw [hid]; rfl))
    have hv : c.view = some (o0, t0) := by simp [Container.view, hid, ho0]
    rw [hv] at hview
    have hl := (h.live o0 t0).2 ⟨i, hview⟩
    refine ⟨w.gone ++ [o0], ?_, fin _ ?_ ?_ ?_⟩
    · simp only [Container.reset, callDeleter, hdel, hid, ho0]
      rw [if_pos hl]; rfl
    · rw [List.nodup_append]
      refine ⟨h.nodup, by simp, ?_⟩
      intro a ha b hb e
      rw [List.mem_singleton] at hb
      subst hb; subst e; exact hl.2 ha
    · intro o ho
      rw [List.mem_append, List.mem_singleton] at ho
      rcases ho with ho | ho
      · exact h.bound o ho
      · subst ho
        rcases Nat.lt_or_ge o w.made.length with h | h
        · exact h
        · have := hl.1; rw [List.getElem?_eq_none h] at this; cases this
    · intro o t
      rw [List.mem_append, List.mem_singleton, not_or, ← and_assoc, h.live]
      constructor
      · rintro ⟨⟨j, e⟩, hne⟩
        refine ⟨j, ?_, e⟩
        intro hj; subst hj; rw [hview] at e; injection e with e; injection e with e; injection e with e
        injection e with e1 e2; exact hne e1.symm
      · rintro ⟨j, hj, e⟩
        refine ⟨⟨j, e⟩, ?_⟩
        intro ho; subst ho
        exact hj (h.uniq j i o t t0 e hview)

/-- Making a new object in an empty container. -/
theorem Inv.place {w : World} {s : State} (h : Inv w s) {i : Nat} (hi : s.holds[i]? = some (some none))
    (t : Nat) :
    Inv ({ w with made := w.made ++ [t] }.put i
        (some { storage := some w.made.length, deleter := some t, id := some t }))
      { holds := s.holds.set i (some (some (s.made, t))), made := s.made + 1 } := by
  have hlt' : i < s.holds.length := by
    rcases Nat.lt_or_ge i s.holds.length with h | h
    · exact h
    · rw [List.getElem?_eq_none h] at hi; cases hi
  have hlt : i < w.containers.length := by rw [h.length]; exact hlt'
  have hheld : ∀ j o t', (s.holds.set i (some (some (s.made, t))))[j]? = some (some (some (o, t'))) ↔
      ((j = i ∧ o = w.made.length ∧ t' = t) ∨ (j ≠ i ∧ s.holds[j]? = some (some (some (o, t'))))) := by
    intro j o t'
    by_cases hj : j = i
    · subst hj
      rw [List.getElem?_set_self hlt', h.made]
      simp [eq_comm]
    · rw [List.getElem?_set_ne (Ne.symm hj)]; simp [hj]
  have hold : ∀ j o t', s.holds[j]? = some (some (some (o, t'))) → o < w.made.length ∧ j ≠ i := by
    intro j o t' e
    have := ((h.live o t').2 ⟨j, e⟩).1
    refine ⟨?_, ?_⟩
    · rcases Nat.lt_or_ge o w.made.length with h | h
      · exact h
      · rw [List.getElem?_eq_none h] at this; cases this
    · intro hj; subst hj; rw [hi] at e; cases e
  constructor
  · intro j
    simp only [World.put]
    by_cases hj : j = i
    · subst hj
      rw [List.getElem?_set_self hlt, List.getElem?_set_self hlt', h.made]; rfl
    · rw [List.getElem?_set_ne (Ne.symm hj), List.getElem?_set_ne (Ne.symm hj)]; exact h.view j
  · intro j c' e
    simp only [World.put] at e
    by_cases hj : j = i
    · subst hj
      rw [List.getElem?_set_self hlt] at e
      cases e; exact ⟨rfl, fun _ => rfl⟩
    · rw [List.getElem?_set_ne (Ne.symm hj)] at e; exact h.good j c' e
  · simp [World.put, h.made]
  · intro o t'
    simp only [World.put, hheld]
    rcases Nat.lt_or_ge o w.made.length with ho | ho
    · rw [List.getElem?_append_left ho, h.live]
      constructor
      · rintro ⟨j, e⟩; exact ⟨j, Or.inr ⟨(hold j o t' e).2, e⟩⟩
      · rintro ⟨j, ⟨_, e, _⟩ | ⟨_, e⟩⟩
        · omega
        · exact ⟨j, e⟩
    · rw [List.getElem?_append_right ho]
      constructor
      · rintro ⟨e, _⟩
        have : o - w.made.length = 0 := by
          rcases Nat.eq_zero_or_pos (o - w.made.length) with h | h
          · exact h
          · rw [List.getElem?_eq_none (by simp only [List.length_singleton]; omega)] at e; cases e
        rw [this] at e
        simp only [List.getElem?_cons_zero, Option.some.injEq] at e
        exact ⟨i, Or.inl ⟨rfl, by omega, e.symm⟩⟩
      · rintro ⟨j, ⟨_, e, e'⟩ | ⟨_, e⟩⟩
        · subst e; subst e'
          refine ⟨by simp, ?_⟩
          intro hg; exact absurd (h.bound _ hg) (Nat.lt_irrefl _)
        · have := (hold j o t' e).1; omega
  · intro a b o t1 t2 ha hb
    rw [hheld] at ha hb
    rcases ha with ⟨ha, e, _⟩ | ⟨_, ha⟩ <;> rcases hb with ⟨hb, e', _⟩ | ⟨_, hb⟩
    · omega
    · have := (hold b o t2 hb).1; omega
    · have := (hold a o t1 ha).1; omega
    · exact h.uniq a b o t1 t2 ha hb
  · exact h.nodup
  · intro o ho
    have := h.bound o ho
    simp only [World.put, List.length_append, List.length_singleton]; omega

/-- Moving between two containers, the target being empty. -/
theorem Inv.move {w : World} {s : State} (h : Inv w s) {i j : Nat} (hij : i ≠ j)
    (hi : s.holds[i]? = some (some none)) {c : Container} (hj : w.at j = some c) :
    Inv ((w.put i (some c)).put j (some c.release))
      { s with holds := (s.holds.set i (some c.view)).set j (some none) } := by
  have hlti' : i < s.holds.length := by
    rcases Nat.lt_or_ge i s.holds.length with h | h
    · exact h
    · rw [List.getElem?_eq_none h] at hi; cases hi
  have hlti : i < w.containers.length := by rw [h.length]; exact hlti'
  have hjc := at_eq hj
  have hltj : j < w.containers.length := by
    rcases Nat.lt_or_ge j w.containers.length with h | h
    · exact h
    · rw [List.getElem?_eq_none h] at hjc; cases hjc
  have hltj' : j < s.holds.length := by rw [← h.length]; exact hltj
  have hjv := h.holds hj
  have g : ∀ {α : Type} (l : List α) (a b : α), i < l.length → j < l.length → ∀ k,
      ((l.set i a).set j b)[k]? = if k = j then some b else if k = i then some a else l[k]? := by
    intro α l a b h1 h2 k
    by_cases hk : k = j
    · subst hk; rw [List.getElem?_set_self (by simpa using h2), if_pos rfl]
    · rw [List.getElem?_set_ne (Ne.symm hk), if_neg hk]
      by_cases hk' : k = i
      · subst hk'; rw [List.getElem?_set_self h1, if_pos rfl]
      · rw [List.getElem?_set_ne (Ne.symm hk'), if_neg hk']
  have hheld : ∀ k o t, ((s.holds.set i (some c.view)).set j (some none))[k]? =
      some (some (some (o, t))) ↔
      ((k = i ∧ s.holds[j]? = some (some (some (o, t)))) ∨
        (k ≠ i ∧ k ≠ j ∧ s.holds[k]? = some (some (some (o, t))))) := by
    intro k o t
    rw [g _ _ _ hlti' hltj', hjv]
    by_cases hk : k = j
    · subst hk; simp [Ne.symm hij]
    · by_cases hk' : k = i
      · subst hk'; simp [hk]
      · simp [hk, hk']
  constructor
  · intro k
    simp only [World.put]
    rw [g _ _ _ hlti hltj, g _ _ _ hlti' hltj']
    by_cases hk : k = j
    · simp [hk, release_view]
    · by_cases hk' : k = i
      · simp [hk', hij]
      · rw [if_neg hk, if_neg hk', if_neg hk, if_neg hk']; exact h.view k
  · intro k c' e
    simp only [World.put] at e
    rw [g _ _ _ hlti hltj] at e
    by_cases hk : k = j
    · rw [if_pos hk] at e; cases e; exact release_good c
    · rw [if_neg hk] at e
      by_cases hk' : k = i
      · rw [if_pos hk'] at e; cases e; exact h.good j c hjc
      · rw [if_neg hk'] at e; exact h.good k c' e
  · exact h.made
  · intro o t
    simp only [World.put, hheld]
    rw [h.live]
    constructor
    · rintro ⟨k, e⟩
      by_cases hk : k = j
      · subst hk; exact ⟨i, Or.inl ⟨rfl, e⟩⟩
      · refine ⟨k, Or.inr ⟨?_, hk, e⟩⟩
        intro hk'; subst hk'; rw [hi] at e; cases e
    · rintro ⟨k, ⟨_, e⟩ | ⟨_, _, e⟩⟩
      · exact ⟨j, e⟩
      · exact ⟨k, e⟩
  · intro a b o t t' ha hb
    rw [hheld] at ha hb
    rcases ha with ⟨ha, e⟩ | ⟨_, ha1, e⟩ <;> rcases hb with ⟨hb, e'⟩ | ⟨_, hb1, e'⟩
    · omega
    · exact absurd (h.uniq j b o t t' e e').symm hb1
    · exact absurd (h.uniq a j o t t' e e') ha1
    · exact h.uniq a b o t t' e e'
  · exact h.nodup
  · exact h.bound

theorem Inv.create {w : World} {s : State} (h : Inv w s) :
    Inv { w with containers := w.containers ++ [some {}] } { s with holds := s.holds ++ [some none] } := by
  have hl := h.length
  have hheld : ∀ k o t : Nat, (s.holds ++ [some none])[k]? = some (some (some (o, t))) ↔
      s.holds[k]? = some (some (some (o, t))) := by
    intro k o t
    rcases Nat.lt_or_ge k s.holds.length with hk | hk
    · rw [List.getElem?_append_left hk]
    · rw [List.getElem?_append_right hk, List.getElem?_eq_none hk]
      cases hd : k - s.holds.length <;> simp
  constructor
  · intro k
    simp only
    rcases Nat.lt_or_ge k s.holds.length with hk | hk
    · rw [List.getElem?_append_left hk, List.getElem?_append_left (by omega)]; exact h.view k
    · rw [List.getElem?_append_right hk, List.getElem?_append_right (by omega), hl]
      cases hd : k - s.holds.length <;> simp [Container.view]
  · intro k c e
    simp only at e
    rcases Nat.lt_or_ge k w.containers.length with hk | hk
    · rw [List.getElem?_append_left hk] at e; exact h.good k c e
    · rw [List.getElem?_append_right hk] at e
      cases hd : k - w.containers.length with
      | zero => rw [hd] at e; simp at e; subst e; exact ⟨rfl, by intro h; cases h⟩
      | succ n => rw [hd] at e; simp at e
  · exact h.made
  · intro o t; simp only [hheld]; exact h.live o t
  · intro a b o t t' ha hb
    rw [hheld] at ha hb; exact h.uniq a b o t t' ha hb
  · exact h.nodup
  · exact h.bound

theorem Inv.step {w : World} {s : State} (h : Inv w s) (op : Op) :
    ∃ w', step w op = .ok w' ∧ Inv w' (s.after op) := by
  cases op with
  | create => exact ⟨_, rfl, h.create⟩
  | createFrom j =>
    simp only [Any.step]
    cases hj : w.at j with
    | none => refine ⟨w, rfl, ?_⟩; simp only [State.after]; rw [if_neg (h.not_exists hj)]; exact h
    | some c =>
      refine ⟨_, rfl, ?_⟩
      simp only [State.after]
      rw [if_pos (h.does_exist hj), h.content hj]
      have hlt : j < w.containers.length := by
        have := at_eq hj
        rcases Nat.lt_or_ge j w.containers.length with h | h
        · exact h
        · rw [List.getElem?_eq_none h] at this; cases this
      have hl := h.length
      have h1 := h.create
      have h2 := h1.move (i := w.containers.length) (j := j) (by omega)
        (by simp only [hl]; simp) (c := c) (by
          unfold World.at; simp only; rw [List.getElem?_append_left hlt, at_eq hj]; rfl)
      have e1 : ((w.containers ++ [some ({} : Container)]).set w.containers.length (some c)).set j (some c.release) =
          w.containers.set j (some c.release) ++ [some c] := by
        rw [List.set_append_right _ _ (Nat.le_refl _), List.set_append_left _ _ hlt]; simp
      have e2 : ((s.holds ++ [some none]).set w.containers.length (some c.view)).set j (some none) =
          s.holds.set j (some none) ++ [some c.view] := by
        rw [hl, List.set_append_right _ _ (Nat.le_refl _), List.set_append_left _ _ (by omega)]; simp
      simp only [World.put] at h2 ⊢
      rw [e1, e2] at h2
      exact h2
  | emplace i t =>
    simp only [Any.step]
    cases hi : w.at i with
    | none => refine ⟨w, rfl, ?_⟩; simp only [State.after]; rw [if_neg (h.not_exists hi)]; exact h
    | some c =>
      obtain ⟨gone, e, h1⟩ := h.clear hi (some c.release) (Or.inr rfl)
      refine ⟨_, by simp only [Any.emplace, e, Outcome.bind_ok]; rfl, ?_⟩
      simp only [State.after]
      rw [if_pos (h.does_exist hi)]
      have hlt' : i < s.holds.length := by
        have := h.holds hi
        rcases Nat.lt_or_ge i s.holds.length with h | h
        · exact h
        · rw [List.getElem?_eq_none h] at this; cases this
      have h2 := h1.place (i := i) (by simp only; rw [List.getElem?_set_self hlt']; rfl) t
      simp only [World.put, List.set_set] at h2 ⊢
      exact h2
  | emplaceThrows i =>
    simp only [Any.step]
    cases hi : w.at i with
    | none => refine ⟨w, rfl, ?_⟩; simp only [State.after]; rw [if_neg (h.not_exists hi)]; exact h
    | some c =>
      obtain ⟨gone, e, h1⟩ := h.clear hi (some c.release) (Or.inr rfl)
      refine ⟨_, by simp only [e, Outcome.bind_ok]; rfl, ?_⟩
      simp only [State.after]
      rw [if_pos (h.does_exist hi)]
      exact h1
  | reset i =>
    simp only [Any.step]
    cases hi : w.at i with
    | none => refine ⟨w, rfl, ?_⟩; simp only [State.after]; rw [if_neg (h.not_exists hi)]; exact h
    | some c =>
      obtain ⟨gone, e, h1⟩ := h.clear hi (some c.release) (Or.inr rfl)
      refine ⟨_, by simp only [e, Outcome.bind_ok]; rfl, ?_⟩
      simp only [State.after]
      rw [if_pos (h.does_exist hi)]
      exact h1
  | assign i j =>
    simp only [Any.step]
    cases hi : w.at i with
    | none =>
      refine ⟨w, rfl, ?_⟩
      simp only [State.after]; rw [if_neg (fun hh => h.not_exists hi hh.1)]; exact h
    | some c =>
      cases hj : w.at j with
      | none =>
        refine ⟨w, rfl, ?_⟩
        simp only [State.after]; rw [if_neg (fun hh => h.not_exists hj hh.2)]; exact h
      | some d =>
        obtain ⟨gone, e, h1⟩ := h.clear hi (some c.release) (Or.inr rfl)
        have hlt' : i < s.holds.length := by
          have := h.holds hi
          rcases Nat.lt_or_ge i s.holds.length with h | h
          · exact h
          · rw [List.getElem?_eq_none h] at this; cases this
        have hlt : i < w.containers.length := by rw [h.length]; exact hlt'
        simp only [State.after]
        rw [if_pos ⟨h.does_exist hi, h.does_exist hj⟩, h.content hj]
        simp only [Any.assign, e, Outcome.bind_ok]
        by_cases hij : i = j
        · subst hij
          have ea : ({ w with gone }.put i (some c.release)).at i = some c.release := by
            simp only [World.at, World.put]; rw [List.getElem?_set_self hlt]; rfl
          rw [ea]
          refine ⟨_, rfl, ?_⟩
          simp only [World.put, List.set_set] at h1 ⊢
          exact h1
        · have ea : ({ w with gone }.put i (some c.release)).at j = some d := by
            simp only [World.at, World.put]; rw [List.getElem?_set_ne hij, at_eq hj]; rfl
          rw [ea]
          refine ⟨_, rfl, ?_⟩
          have h2 := h1.move hij (by simp only; rw [List.getElem?_set_self hlt']; rfl) ea
          simp only [World.put, List.set_set] at h2 ⊢
          exact h2
  | destroy i =>
    simp only [Any.step]
    cases hi : w.at i with
    | none => refine ⟨w, rfl, ?_⟩; simp only [State.after]; rw [if_neg (h.not_exists hi)]; exact h
    | some c =>
      obtain ⟨gone, e, h1⟩ := h.clear hi none (Or.inl rfl)
      refine ⟨_, by simp only [e, Outcome.bind_ok]; rfl, ?_⟩
      simp only [State.after]
      rw [if_pos (h.does_exist hi)]
      exact h1

theorem Inv.run {w : World} {s : State} (h : Inv w s) (ops : List Op) :
    ∃ w', run w ops = .ok w' ∧ Inv w' (ops.foldl State.after s) := by
  induction ops generalizing w s with
  | nil => exact ⟨w, rfl, h⟩
  | cons op ops ih =>
    obtain ⟨w1, e1, h1⟩ := h.step op
    obtain ⟨w2, e2, h2⟩ := ih h1
    exact ⟨w2, by simp only [Any.run, e1, Outcome.bind_ok, e2], h2⟩

end Verif.Any
