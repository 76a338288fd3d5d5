import Verif.Spec.File
import Verif.Lemmas.Append
/-!
# Lemmas: files
-/
namespace Verif.File
open Verif.File.Spec

theorem cString_append (s : Text) (h : '\x00' ∉ s) (rest : List Char) :
    cString (s ++ '\x00' :: rest) = .ok s := by
  induction s with
  | nil => simp [cString]
  | cons c s ih =>
    have hc : c ≠ '\x00' := by intro e; subst e; simp at h
    simp only [List.cons_append, cString, if_neg hc, ih (fun hm => h (List.mem_cons_of_mem _ hm)),
      Outcome.bind_ok, Outcome.pure_eq]

theorem cString_none (s : Text) (h : '\x00' ∉ s) : cString s = .ub := by
  induction s with
  | nil => rfl
  | cons c s ih =>
    have hc : c ≠ '\x00' := by intro e; subst e; simp at h
    simp only [cString, if_neg hc, ih (fun hm => h (List.mem_cons_of_mem _ hm)), Outcome.bind_ub]

theorem fast_fresh (cap : Nat) (hcap : cap < 2 ^ 64) (s : Text) (h : s.length ≤ cap) :
    Append.text false (SV.empty cap '\x00') s =
      .ok ({ buf := s ++ List.replicate (cap - s.length) '\x00', size := s.length }, true) := by
  have hs : s.length < sizeT := Nat.lt_of_le_of_lt h hcap
  simp only [Append.text, Append.fast]
  cases s with
  | nil => simp [SV.empty]
  | cons c s =>
    have h1 : min (c :: s).length cap = (c :: s).length := Nat.min_eq_left h
    simp only [List.isEmpty_cons, Bool.false_eq_true, if_false, SV.available, SV.capacity, SV.empty,
      List.length_replicate, Nat.sub_zero, h1, SV.grow, Nat.zero_add, Nat.mod_eq_of_lt hs]
    rw [if_neg (by omega), Outcome.bind_ok]
    simp only [SV.memWrite, List.take_length, Nat.zero_add, List.length_replicate]
    rw [if_pos h, Outcome.bind_ok]
    simp
    simpa using h

theorem pathFor_ok (maxPath : Nat) (hcap : maxPath + 1 < 2 ^ 64) (path : Text)
    (hl : path.length ≤ maxPath) (h0 : '\x00' ∉ path) : pathFor maxPath path = .ok path := by
  simp only [pathFor, fast_fresh (maxPath + 1) hcap path (by omega), Outcome.bind_ok, if_true]
  have : maxPath + 1 - path.length = (maxPath - path.length) + 1 := by omega
  rw [this, List.replicate_succ]
  exact cString_append path h0 _

theorem at_some {w : World} {i : Nat} {h : Option Nat} (e : w.at i = some h) :
    w.writers[i]? = some (some h) := by
  unfold World.at at e
  cases hi : w.writers[i]? with
  | none => rw [hi] at e; simp at e
  | some x => rw [hi] at e; simp at e; rw [e]

/-- The state of the files agrees with the specification: `past` are the messages sent to each file. -/
structure Inv (w : World) (s : State) (past : Nat → List Text) : Prop where
  writers : w.writers = s.owns
  files : w.files = s.paths.length
  uniq : ∀ i j f : Nat, s.owns[i]? = some (some (some f)) → s.owns[j]? = some (some (some f)) → i = j
  bound : ∀ f : Nat, s.inUse f → f < s.paths.length
  calls : ∀ (f : Nat) (p : Text), s.paths[f]? = some p → callsFor f w.calls =
    [.opened f p] ++ (past f).map (.written f) ++ if s.inUse f then [] else [.closed f]
  unused : ∀ f : Nat, s.paths.length ≤ f → callsFor f w.calls = [] ∧ past f = []

theorem inv_start : Inv {} {} (fun _ => []) := by
  constructor <;> simp [callsFor, State.inUse]

theorem Inv.at_file {w : World} {s : State} {past : Nat → List Text} (h : Inv w s past) {i : Nat}
    {x : Option Nat} (e : w.at i = some x) : s.exists i ∧ s.file i = x ∧ s.owns[i]? = some (some x) := by
  have := at_some e
  rw [h.writers] at this
  refine ⟨?_, ?_, this⟩
  · unfold State.exists; rw [this]; rfl
  · unfold State.file; rw [this]; rfl

theorem Inv.at_none {w : World} {s : State} {past : Nat → List Text} (h : Inv w s past) {i : Nat}
    (e : w.at i = none) : ¬ s.exists i := by
  unfold State.exists; unfold World.at at e
  rw [h.writers] at e; rw [e]; simp

theorem any_callsFor (f : Nat) (calls : List Call) :
    calls.any (Call.opens f) = (callsFor f calls).any (Call.opens f) ∧
    calls.any (Call.closes f) = (callsFor f calls).any (Call.closes f) := by
  induction calls with
  | nil => exact ⟨rfl, rfl⟩
  | cons c cs ih =>
    obtain ⟨ih1, ih2⟩ := ih
    simp only [List.any_cons]
    rw [ih1, ih2]
    constructor
    · cases c <;> simp only [callsFor, List.filter_cons] <;> split <;> simp_all [Call.opens]
    · cases c <;> simp only [callsFor, List.filter_cons] <;> split <;> simp_all [Call.closes]

theorem Inv.isOpen {w : World} {s : State} {past : Nat → List Text} (h : Inv w s past) {f : Nat}
    (hf : s.inUse f) : w.isOpen f = true := by
  have hb := h.bound f hf
  have hc := h.calls f _ (List.getElem?_eq_getElem hb)
  rw [if_pos hf] at hc
  unfold World.isOpen
  rw [(any_callsFor f _).1, (any_callsFor f _).2, hc]
  simp [Call.opens, Call.closes]

theorem callsFor_append (f : Nat) (a b : List Call) :
    callsFor f (a ++ b) = callsFor f a ++ callsFor f b := by
  simp [callsFor]

theorem inUse_iff (s : State) (f : Nat) : s.inUse f ↔ ∃ i : Nat, s.owns[i]? = some (some (some f)) := by
  unfold State.inUse
  rw [List.mem_iff_getElem?]

theorem lt_of_getElem? {α : Type} {l : List α} {i : Nat} {a : α} (h : l[i]? = some a) : i < l.length := by
  rcases Nat.lt_or_ge i l.length with h' | h'
  · exact h'
  · rw [List.getElem?_eq_none h'] at h; cases h

/-- Permuting what the writers own changes nothing for the files. -/
theorem Inv.rearrange {w : World} {s : State} {past : Nat → List Text} (h : Inv w s past)
    (owns : List (Option (Option Nat)))
    (hu : ∀ i j f : Nat, owns[i]? = some (some (some f)) → owns[j]? = some (some (some f)) → i = j)
    (hin : ∀ f : Nat, some (some f) ∈ owns ↔ some (some f) ∈ s.owns) :
    Inv { w with writers := owns } { s with owns } past := by
  have hin' : ∀ f, State.inUse { s with owns } f ↔ s.inUse f := hin
  constructor
  · rfl
  · exact h.files
  · exact hu
  · intro f hf; exact h.bound f ((hin' f).1 hf)
  · intro f p hp
    rw [h.calls f p hp]
    by_cases hf : s.inUse f
    · rw [if_pos hf, if_pos ((hin' f).2 hf)]
    · rw [if_neg hf, if_neg (fun hh => hf ((hin' f).1 hh))]
  · exact h.unused

/-- The messages sent by one operation. -/
def extra (s : State) (f : Nat) : Op → List Text
  | .write i m => if s.file i = some f then [m] else []
  | _ => []

theorem sent_cons (f : Nat) (s : State) (op : Op) (ops : List Op) :
    sent f s (op :: ops) = extra s f op ++ sent f (s.after op) ops := by
  cases op <;> simp [sent, extra]

theorem Inv.step {maxPath : Nat} (hm : maxPath + 1 < 2 ^ 64) {w : World} {s : State}
    {past : Nat → List Text} (h : Inv w s past) (op : Op) (hop : Openable maxPath [op]) :
    ∃ w', step maxPath w op = .ok w' ∧ Inv w' (s.after op) (fun f => past f ++ extra s f op) := by
  cases op with
  | create =>
    refine ⟨_, rfl, ?_⟩
    simp only [extra, List.append_nil, State.after]
    have := h.rearrange (s.owns ++ [some none]) (by
      intro i j f hi hj
      apply h.uniq i j f
      · have := List.getElem?_append (l₁ := s.owns) (l₂ := [some none]) (i := i)
        rw [hi] at this; split at this
        · exact this.symm
        · cases hd : i - s.owns.length <;> rw [hd] at this <;> simp at this
      · have := List.getElem?_append (l₁ := s.owns) (l₂ := [some none]) (i := j)
        rw [hj] at this; split at this
        · exact this.symm
        · cases hd : j - s.owns.length <;> rw [hd] at this <;> simp at this) (by simp)
    rw [h.writers]; exact this
  | «open» path succeeds =>
    obtain ⟨hs, hl, h0⟩ := hop _ (List.mem_singleton.2 rfl) path succeeds rfl
    subst hs
    refine ⟨_, by
      simp only [File.step, openFile, pathFor_ok maxPath hm path hl h0, Outcome.bind_ok, if_true]; rfl, ?_⟩
    simp only [extra, List.append_nil, State.after]
    have key : ∀ i f : Nat, (s.owns ++ [some (some s.paths.length)])[i]? = some (some (some f)) ↔
        (s.owns[i]? = some (some (some f)) ∨ (i = s.owns.length ∧ f = s.paths.length)) := by
      intro i f
      rcases Nat.lt_trichotomy i s.owns.length with hi | hi | hi
      · rw [List.getElem?_append_left hi]
        constructor
        · exact Or.inl
        · rintro (e | ⟨e, _⟩)
          · exact e
          · omega
      · subst hi; simp [eq_comm]
      · rw [List.getElem?_eq_none (by simp; omega), List.getElem?_eq_none (by omega)]
        simp; omega
    have hnew : ¬ s.inUse s.paths.length := fun hh => absurd (h.bound _ hh) (Nat.lt_irrefl _)
    have hin : ∀ f, State.inUse
        { owns := s.owns ++ [some (some s.paths.length)], paths := s.paths ++ [path] } f ↔
        (s.inUse f ∨ f = s.paths.length) := by
      intro f
      simp only [State.inUse, List.mem_append, List.mem_singleton, Option.some.injEq]
    constructor
    · simp [h.writers, h.files]
    · simp [h.files]
    · intro i j f hi hj
      rw [key] at hi hj
      rcases hi with hi | ⟨hi, hi'⟩ <;> rcases hj with hj | ⟨hj, hj'⟩
      · exact h.uniq i j f hi hj
      · subst hj'; exact absurd ((inUse_iff s _).2 ⟨i, hi⟩) hnew
      · subst hi'; exact absurd ((inUse_iff s _).2 ⟨j, hj⟩) hnew
      · omega
    · intro f hf
      rw [hin] at hf
      simp only [List.length_append, List.length_singleton]
      rcases hf with hf | hf
      · have := h.bound f hf; omega
      · omega
    · intro f p hp
      simp only at hp ⊢
      rw [callsFor_append]
      rcases Nat.lt_or_ge f s.paths.length with hf | hf
      · rw [List.getElem?_append_left hf] at hp
        have e : callsFor f [.opened w.files path] = [] := by
          simp only [callsFor, List.filter_cons, List.filter_nil]
          rw [if_neg (by rw [h.files]; simp; omega)]
        rw [h.calls f p hp, e, List.append_nil]
        by_cases hu : s.inUse f
        · rw [if_pos hu, if_pos ((hin f).2 (Or.inl hu))]
        · rw [if_neg hu, if_neg]
          rw [hin]; rintro (e | e)
          · exact hu e
          · omega
      · have hf' : f = s.paths.length := by
          have := lt_of_getElem? hp
          simp only [List.length_append, List.length_singleton] at this; omega
        subst hf'
        simp only [List.getElem?_concat_length, Option.some.injEq] at hp
        subst hp
        rw [(h.unused _ (Nat.le_refl _)).1, (h.unused _ (Nat.le_refl _)).2, if_pos ((hin _).2 (Or.inr rfl)),
          ← h.files]
        simp [callsFor]
    · intro f hf
      simp only [List.length_append, List.length_singleton] at hf ⊢
      rw [callsFor_append, (h.unused f (by omega)).1]
      refine ⟨?_, (h.unused f (by omega)).2⟩
      simp only [callsFor, List.filter_cons, List.filter_nil, List.nil_append]
      rw [if_neg (by rw [h.files]; simp; omega)]
  | createFrom j =>
    simp only [File.step, extra, List.append_nil]
    cases hj : w.at j with
    | none => refine ⟨w, rfl, ?_⟩; simp only [State.after]; rw [if_neg (h.at_none hj)]; exact h
    | some x =>
      refine ⟨_, rfl, ?_⟩
      obtain ⟨he, hf, hg⟩ := h.at_file hj
      have hlt := lt_of_getElem? hg
      simp only [State.after]
      rw [if_pos he, hf, h.writers]
      have key : ∀ i f : Nat, (s.owns.set j (some none) ++ [some x])[i]? = some (some (some f)) ↔
          ((i ≠ j ∧ s.owns[i]? = some (some (some f))) ∨ (i = s.owns.length ∧ x = some f)) := by
        intro i f
        rcases Nat.lt_trichotomy i s.owns.length with hi | hi | hi
        · rw [List.getElem?_append_left (by simpa using hi)]
          by_cases hij : i = j
          · subst hij; rw [List.getElem?_set_self hlt]; simp; omega
          · rw [List.getElem?_set_ne (Ne.symm hij)]; simp [hij]; omega
        · subst hi
          rw [List.getElem?_append_right (by simp)]; simp
        · rw [List.getElem?_eq_none (by simp; omega), List.getElem?_eq_none (by omega)]
          simp; omega
      refine h.rearrange _ ?_ ?_
      · intro a b f ha hb
        rw [key] at ha hb
        rcases ha with ⟨ha, ha'⟩ | ⟨ha, ha'⟩ <;> rcases hb with ⟨hb, hb'⟩ | ⟨hb, hb'⟩
        · exact h.uniq a b f ha' hb'
        · subst hb'; exact absurd (h.uniq a j f ha' hg) ha
        · subst ha'; exact absurd (h.uniq b j f hb' hg) hb
        · omega
      · intro f
        rw [List.mem_iff_getElem?, List.mem_iff_getElem?]
        simp only [key]
        constructor
        · rintro ⟨i, ⟨_, e⟩ | ⟨_, e⟩⟩
          · exact ⟨i, e⟩
          · subst e; exact ⟨j, hg⟩
        · rintro ⟨i, e⟩
          by_cases hij : i = j
          · subst hij; rw [hg] at e; injection e with e; injection e with e
            exact ⟨_, Or.inr ⟨rfl, e⟩⟩
          · exact ⟨i, Or.inl ⟨hij, e⟩⟩
  | assign i j =>
    simp only [File.step, extra, List.append_nil]
    cases hi : w.at i with
    | none =>
      refine ⟨w, rfl, ?_⟩
      simp only [State.after]; rw [if_neg (fun hh => h.at_none hi hh.1)]; exact h
    | some x =>
      cases hj : w.at j with
      | none =>
        refine ⟨w, rfl, ?_⟩
        simp only [State.after]; rw [if_neg (fun hh => h.at_none hj hh.2)]; exact h
      | some y =>
        refine ⟨_, rfl, ?_⟩
        obtain ⟨he, hf, hg⟩ := h.at_file hi
        obtain ⟨he', hf', hg'⟩ := h.at_file hj
        have hlt := lt_of_getElem? hg
        have hlt' := lt_of_getElem? hg'
        simp only [State.after]
        rw [if_pos ⟨he, he'⟩, hf, hf', h.writers]
        have key : ∀ k : Nat, ((s.owns.set i (some y)).set j (some x))[k]? =
            if k = j then s.owns[i]? else if k = i then s.owns[j]? else s.owns[k]? := by
          intro k
          by_cases hk : k = j
          · subst hk; rw [List.getElem?_set_self (by simpa using hlt'), if_pos rfl, hg]
          · rw [List.getElem?_set_ne (Ne.symm hk), if_neg hk]
            by_cases hk' : k = i
            · subst hk'; rw [List.getElem?_set_self hlt, if_pos rfl, hg']
            · rw [List.getElem?_set_ne (Ne.symm hk'), if_neg hk']
        refine h.rearrange _ ?_ ?_
        · intro a b f ha hb
          rw [key] at ha hb
          by_cases ha1 : a = j <;> by_cases hb1 : b = j
          · omega
          · rw [if_pos ha1] at ha; rw [if_neg hb1] at hb
            by_cases hb2 : b = i
            · rw [if_pos hb2] at hb; have := h.uniq i j f ha hb; omega
            · rw [if_neg hb2] at hb; have := h.uniq i b f ha hb; omega
          · rw [if_neg ha1] at ha; rw [if_pos hb1] at hb
            by_cases ha2 : a = i
            · rw [if_pos ha2] at ha; have := h.uniq i j f hb ha; omega
            · rw [if_neg ha2] at ha; have := h.uniq i a f hb ha; omega
          · rw [if_neg ha1] at ha; rw [if_neg hb1] at hb
            by_cases ha2 : a = i <;> by_cases hb2 : b = i
            · omega
            · rw [if_pos ha2] at ha; rw [if_neg hb2] at hb; have := h.uniq j b f ha hb; omega
            · rw [if_neg ha2] at ha; rw [if_pos hb2] at hb; have := h.uniq j a f hb ha; omega
            · rw [if_neg ha2] at ha; rw [if_neg hb2] at hb; exact h.uniq a b f ha hb
        · intro f
          rw [List.mem_iff_getElem?, List.mem_iff_getElem?]
          simp only [key]
          constructor
          · rintro ⟨k, e⟩
            by_cases hk : k = j
            · rw [if_pos hk] at e; exact ⟨i, e⟩
            · rw [if_neg hk] at e
              by_cases hk' : k = i
              · rw [if_pos hk'] at e; exact ⟨j, e⟩
              · rw [if_neg hk'] at e; exact ⟨k, e⟩
          · rintro ⟨k, e⟩
            by_cases hk : k = i
            · subst hk; exact ⟨j, by rw [if_pos rfl]; exact e⟩
            · by_cases hk' : k = j
              · subst hk'; exact ⟨i, by rw [if_neg (Ne.symm hk), if_pos rfl]; exact e⟩
              · exact ⟨k, by rw [if_neg hk', if_neg hk]; exact e⟩
  | write i m =>
    simp only [File.step]
    cases hi : w.at i with
    | none =>
      refine ⟨w, rfl, ?_⟩
      have hn := h.at_none hi
      have : ∀ f, extra s f (.write i m) = [] := by
        intro f
        simp only [extra]
        rw [if_neg]
        intro e
        apply hn
        unfold State.exists; unfold State.file at e
        cases hh : s.owns[i]?.join with
        | none => rw [hh] at e; cases e
        | some _ => rfl
      simp only [this, List.append_nil, State.after]; exact h
    | some x =>
      obtain ⟨he, hf, hg⟩ := h.at_file hi
      cases x with
      | none =>
        refine ⟨w, rfl, ?_⟩
        have : ∀ f, extra s f (.write i m) = [] := by
          intro f; simp only [extra, hf]; simp
        simp only [this, List.append_nil, State.after]; exact h
      | some g =>
        have hu : s.inUse g := (inUse_iff s g).2 ⟨i, hg⟩
        refine ⟨_, by simp only [File.write, h.isOpen hu, if_true]; rfl, ?_⟩
        have hx : ∀ f, extra s f (.write i m) = if g = f then [m] else [] := by
          intro f; simp only [extra, hf, Option.some.injEq]
        have hcs : ∀ f, callsFor f [.written g m] = if g = f then [.written g m] else [] := by
          intro f
          by_cases hgf : g = f
          · simp [callsFor, hgf]
          · simp [callsFor, hgf]
        simp only [State.after]
        constructor
        · exact h.writers
        · exact h.files
        · exact h.uniq
        · exact h.bound
        · intro f p hp
          rw [callsFor_append, h.calls f p hp, hcs, hx]
          by_cases hgf : g = f
          · subst hgf
            rw [if_pos rfl, if_pos rfl, if_pos hu]; simp
          · rw [if_neg hgf, if_neg hgf]; simp
        · intro f hfl
          have hne : g ≠ f := by have := h.bound g hu; omega
          rw [callsFor_append, hcs, hx, if_neg hne, if_neg hne, (h.unused f hfl).1, (h.unused f hfl).2]
          exact ⟨rfl, rfl⟩
  | destroy i =>
    simp only [File.step, extra, List.append_nil]
    cases hi : w.at i with
    | none =>
      refine ⟨w, rfl, ?_⟩
      have hn := h.at_none hi
      have : s.owns.set i none = s.owns := by
        apply List.ext_getElem?
        intro k
        by_cases hk : i = k
        · subst hk
          rcases Nat.lt_or_ge i s.owns.length with hl | hl
          · rw [List.getElem?_set_self hl]
            unfold State.exists at hn
            rw [List.getElem?_eq_getElem hl] at hn ⊢
            cases hh : s.owns[i] with
            | none => rfl
            | some y => rw [hh] at hn; simp at hn
          · rw [List.getElem?_eq_none hl, List.getElem?_eq_none (by simpa using hl)]
        · rw [List.getElem?_set_ne hk]
      simp only [State.after, this]; exact h
    | some x =>
      obtain ⟨he, hf, hg⟩ := h.at_file hi
      have hlt := lt_of_getElem? hg
      have key : ∀ k f : Nat, (s.owns.set i none)[k]? = some (some (some f)) ↔
          (k ≠ i ∧ s.owns[k]? = some (some (some f))) := by
        intro k f
        by_cases hk : k = i
        · subst hk; rw [List.getElem?_set_self hlt]; simp
        · rw [List.getElem?_set_ne (Ne.symm hk)]; simp [hk]
      cases x with
      | none =>
        refine ⟨_, rfl, ?_⟩
        simp only [State.after]
        rw [h.writers]
        refine h.rearrange _ ?_ ?_
        · intro a b f ha hb
          rw [key] at ha hb
          exact h.uniq a b f ha.2 hb.2
        · intro f
          rw [List.mem_iff_getElem?, List.mem_iff_getElem?]
          simp only [key]
          constructor
          · rintro ⟨k, _, e⟩; exact ⟨k, e⟩
          · rintro ⟨k, e⟩
            refine ⟨k, ?_, e⟩
            intro hk; subst hk; rw [hg] at e; cases e
      | some g =>
        have hu : s.inUse g := (inUse_iff s g).2 ⟨i, hg⟩
        refine ⟨_, by simp only [File.close, h.isOpen hu, if_true, Outcome.bind_ok]; rfl, ?_⟩
        have hcs : ∀ f, callsFor f [.closed g] = if g = f then [.closed g] else [] := by
          intro f
          by_cases hgf : g = f
          · simp [callsFor, hgf]
          · simp [callsFor, hgf]
        simp only [State.after]
        have hin : ∀ f, State.inUse { s with owns := s.owns.set i none } f ↔ (f ≠ g ∧ s.inUse f) := by
          intro f
          rw [inUse_iff, inUse_iff]
          simp only [key]
          constructor
          · rintro ⟨k, hk, e⟩
            refine ⟨?_, k, e⟩
            intro hfg; subst hfg; exact hk (h.uniq k i f e hg)
          · rintro ⟨hfg, k, e⟩
            refine ⟨k, ?_, e⟩
            intro hk; subst hk; rw [hg] at e; injection e with e; injection e with e; injection e with e
            exact hfg e.symm
        constructor
        · simp [h.writers]
        · exact h.files
        · intro a b f ha hb
          rw [key] at ha hb
          exact h.uniq a b f ha.2 hb.2
        · intro f hf; exact h.bound f ((hin f).1 hf).2
        · intro f p hp
          simp only at hp ⊢
          rw [callsFor_append, h.calls f p hp, hcs]
          by_cases hgf : g = f
          · subst hgf
            rw [if_pos hu, if_pos rfl, if_neg (fun hh => ((hin g).1 hh).1 rfl)]
            simp
          · rw [if_neg hgf, List.append_nil]
            by_cases hu' : s.inUse f
            · rw [if_pos hu', if_pos ((hin f).2 ⟨Ne.symm hgf, hu'⟩)]
            · rw [if_neg hu', if_neg (fun hh => hu' ((hin f).1 hh).2)]
        · intro f hfl
          have hne : g ≠ f := by have := h.bound g hu; simp only at hfl; omega
          rw [callsFor_append, hcs, if_neg hne, (h.unused f hfl).1, (h.unused f hfl).2]
          exact ⟨rfl, rfl⟩

theorem Inv.run {maxPath : Nat} (hm : maxPath + 1 < 2 ^ 64) {w : World} {s : State}
    {past : Nat → List Text} (h : Inv w s past) (ops : List Op) (hop : Openable maxPath ops) :
    ∃ w', run maxPath w ops = .ok w' ∧
      Inv w' (ops.foldl State.after s) (fun f => past f ++ sent f s ops) := by
  induction ops generalizing w s past with
  | nil => exact ⟨w, rfl, by simpa [sent] using h⟩
  | cons op ops ih =>
    obtain ⟨w1, e1, h1⟩ := h.step hm op
      (fun o ho => hop o (by rw [List.mem_singleton.1 ho]; exact List.mem_cons_self ..))
    obtain ⟨w2, e2, h2⟩ := ih h1 (fun o ho => hop o (List.mem_cons_of_mem _ ho))
    refine ⟨w2, by simp only [File.run, e1, Outcome.bind_ok, e2], ?_⟩
    simp only [sent_cons]
    simpa [List.append_assoc] using h2

end Verif.File
