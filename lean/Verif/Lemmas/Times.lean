import Verif.Lemmas.Keeps
/-! # The times are those of the right sections -/
namespace Verif.Timing
open Verif.Run Spec
variable {clock : Nat → Nat} {cfg : Cfg}

/-- A time that was read since reading `b`. -/
def Since (clock : Nat → Nat) (b n t : Nat) : Prop := ∃ i, b ≤ i ∧ i < n ∧ t = clock i

theorem Since.later {b n m t : Nat} (h : Since clock b n t) (hm : n ≤ m) : Since clock b m t := by
  obtain ⟨i, h1, h2, h3⟩ := h
  exact ⟨i, h1, Nat.lt_of_lt_of_le h2 hm, h3⟩

theorem tolds_append (a b : List Mark) : tolds (a ++ b) = tolds a ++ tolds b := by simp [tolds, List.filterMap_append]

/-- All times on the watch were read since reading `b`, and those of the ends told, `ended`, in order. -/
structure Read (clock : Nat → Nat) (b : Nat) (ended : List What) (w : Watch) : Prop where
  base : b ≤ w.reads
  starts : ∀ t ∈ w.starts, Since clock b w.reads t
  held : ∀ t ∈ w.held, Since clock b w.reads t
  tolds : ∀ x ∈ tolds w.marks, ∃ i j, b ≤ i ∧ i < j ∧ j < w.reads ∧ x.2.1 = clock i ∧ x.2.2 = clock j
  ended : (Spec.tolds w.marks).map (fun x => What.section x.1) = ended

theorem Read.told {b : Nat} {E : List What} {w : Watch} (h : Read clock b E w) {x : Section × Nat}
    (hx : Since clock b w.reads x.2) :
    Read clock b (E ++ if cfg.verbosity ≥ 2 then [.section x.1.id] else []) (told clock cfg x w) ∧
      w.reads ≤ (told clock cfg x w).reads ∧ (told clock cfg x w).starts = w.starts ∧
      (told clock cfg x w).held = w.held := by
  unfold Timing.told
  split
  · refine ⟨⟨?_, ?_, ?_, ?_, ?_⟩, ?_, rfl, rfl⟩
    · exact Nat.le_succ_of_le h.base
    · exact fun t ht => (h.starts t ht).later (Nat.le_succ _)
    · exact fun t ht => (h.held t ht).later (Nat.le_succ _)
    · intro y hy
      rw [tolds_append, List.mem_append] at hy
      rcases hy with hy | hy
      · obtain ⟨i, j, h1, h2, h3, h4⟩ := h.tolds y hy
        exact ⟨i, j, h1, h2, Nat.lt_succ_of_lt h3, h4⟩
      · obtain ⟨i, h1, h2, h3⟩ := hx
        simp only [Spec.tolds, List.filterMap_cons, List.filterMap_nil, List.mem_singleton] at hy
        subst hy
        exact ⟨i, w.reads, h1, h2, Nat.lt_succ_self _, h3, rfl⟩
    · rw [tolds_append, List.map_append, h.ended]
      rfl
    · exact Nat.le_succ _
  · simp only [List.append_nil]
    exact ⟨h, Nat.le_refl _, by trivial, by trivial⟩

theorem Read.toldAll {b : Nat} (xs : List (Section × Nat)) : ∀ {E : List What} {w : Watch}, Read clock b E w →
    (∀ x ∈ xs, Since clock b w.reads x.2) →
    Read clock b (E ++ if cfg.verbosity ≥ 2 then xs.map (fun x => What.section x.1.id) else []) (toldAll clock cfg xs w) ∧
      (toldAll clock cfg xs w).starts = w.starts := by
  induction xs with
  | nil => intro E w h _; simpa [Timing.toldAll] using h
  | cons x xs ih =>
    intro E w h hx
    unfold Timing.toldAll
    obtain ⟨h1, h2, h3, -⟩ := h.told (cfg := cfg) (hx x (List.mem_cons_self ..))
    obtain ⟨h4, h5⟩ := ih h1 fun y hy => (hx y (List.mem_cons_of_mem _ hy)).later h2
    refine ⟨?_, h5.trans h3⟩
    rw [List.append_assoc] at h4
    have : ((if cfg.verbosity ≥ 2 then [.section x.1.id] else []) ++ if cfg.verbosity ≥ 2 then xs.map (fun x => What.section x.1.id) else []) =
        if cfg.verbosity ≥ 2 then (x :: xs).map (fun x => What.section x.1.id) else [] := by split <;> rfl
    rwa [this] at h4

/-- What holds of every state: each open section has a time, and so has each section left by an exception. -/
structure Sane (clock : Nat → Nat) (b : Nat) (O : List Nat) (s : Timed) : Prop where
  here : ids s.ts.info = O
  starts : s.watch.starts.length = O.length
  held : ∀ h, s.ts.held = some h → s.watch.held.length = (ids h).length
  read : Read clock b (endedIn s.ts.log) s.watch

theorem zip_ids {i : Info} {ts : List Nat} (h : ts.length = (ids i).length) (n : Nat) :
    ((i.sections.current.zip ts).drop n).map (fun x => What.section x.1.id) = ((ids i).drop n).map .section := by
  have h' : i.sections.current.length = ts.length := by rw [h]; simp [ids]
  rw [List.map_drop, List.map_drop]
  congr 1
  rw [show (fun x : Section × Nat => What.section x.1.id) = (fun x : Section => What.section x.id) ∘ Prod.fst from rfl,
    ← List.map_map, List.map_fst_zip]
  · simp [ids, Function.comp_def]
  · omega

theorem sane_notify {b : Nat} {O : List Nat} {s : Timed} (h : Sane clock b O s) : Sane clock b O (notify clock cfg s) := by
  obtain ⟨h1, h2, h3⟩ := notify_ids cfg s.ts
  cases hh : s.ts.held with
  | none =>
    have hw : (notify clock cfg s).watch = s.watch := by unfold notify; rw [hh]
    rw [hh] at h3
    simp only [ite_self, List.append_nil] at h3
    refine ⟨by rw [notify_ts, h1, h.here], by rw [hw, h.starts], ?_, ?_⟩
    · intro i hi
      rw [notify_ts, h2] at hi
      cases hi
    · rw [hw, notify_ts, h3]
      exact h.read
  | some i =>
    have hw : (notify clock cfg s).watch = { toldAll clock cfg
        ((i.sections.current.zip s.watch.held).drop s.ts.info.sections.current.length).reverse s.watch with held := [] } := by
      unfold notify; rw [hh]
    rw [hh] at h3
    have hm : ∀ x ∈ ((i.sections.current.zip s.watch.held).drop s.ts.info.sections.current.length).reverse,
        Since clock b s.watch.reads x.2 := by
      intro x hx
      rw [List.mem_reverse] at hx
      exact h.read.held _ (List.of_mem_zip (List.mem_of_mem_drop hx)).2
    obtain ⟨h4, h5⟩ := h.read.toldAll (cfg := cfg) _ hm
    refine ⟨by rw [notify_ts, h1, h.here], by rw [hw]; simpa [h5] using h.starts, ?_, ?_⟩
    · intro i hi
      rw [notify_ts, h2] at hi
      cases hi
    · rw [hw, notify_ts, h3]
      rw [List.map_reverse, zip_ids (h.held i hh), ← List.map_reverse] at h4
      have hl : s.ts.info.sections.current.length = (ids s.ts.info).length := by simp [ids]
      rw [hl] at h4 ⊢
      exact ⟨h4.base, h4.starts, by simp, h4.tolds, h4.ended⟩

theorem sane_hold {b : Nat} {O : List Nat} {s : Timed} (u : Bool) (h : Sane clock b O s) : Sane clock b O (hold u s) := by
  obtain ⟨h1, h2, h3⟩ := hold_ids u s.ts
  cases hu : (u && s.ts.held.isNone) with
  | false =>
    have hw : (hold u s).watch = s.watch := by unfold hold; rw [hu]; rfl
    rw [hu] at h3
    refine ⟨by rw [hold_ts, h1, h.here], by rw [hw, h.starts], ?_, by rw [hw, hold_ts, h2]; exact h.read⟩
    intro i hi
    rw [hold_ts, h3] at hi
    rw [hw]
    exact h.held i hi
  | true =>
    have hw : (hold u s).watch = { s.watch with held := s.watch.starts } := by unfold hold; rw [hu]; rfl
    rw [hu] at h3
    refine ⟨by rw [hold_ts, h1, h.here], by rw [hw]; exact h.starts, ?_, ?_⟩
    · intro i hi
      rw [hold_ts, h3] at hi
      cases hi
      rw [hw, h.here]
      exact h.starts
    · rw [hw, hold_ts, h2]
      exact ⟨h.read.base, h.read.starts, h.read.starts, h.read.tolds, h.read.ended⟩

theorem sane_still {b : Nat} {O : List Nat} {s : Timed} {ts' : TS} (h : Sane clock b O s) (hs : Still s.ts ts') :
    Sane clock b O { s with ts := ts' } := by
  refine ⟨hs.here.trans h.here, h.starts, ?_, by rw [hs.log]; exact h.read⟩
  intro i hi
  have := hs.held
  dsimp only at hi ⊢
  rw [hi] at this
  cases hh : s.ts.held with
  | none => rw [hh] at this; cases this
  | some j =>
    rw [hh] at this
    simp only [Option.map_some, Option.some.injEq] at this
    rw [h.held j hh, this]

/-- Entering a section. -/
theorem entering {fl : Bool} {id loc : Nat} {s s' : Timed} (e : enterSection clock cfg fl id loc s = .ok (s', true)) :
    let a := arrive clock cfg fl s
    ids s'.ts.info = ids a.ts.info ++ [id] ∧ s'.ts.held = a.ts.held ∧ endedIn s'.ts.log = endedIn a.ts.log ∧
    s'.watch = { a.watch with
      starts := a.watch.starts ++ [clock a.watch.reads]
      reads := a.watch.reads + 1
      marks := a.watch.marks ++ [.entered id (clock a.watch.reads)] } := by
  unfold enterSection at e
  obtain ⟨x, h1, h2⟩ := bind_eq_ok e
  obtain ⟨⟨ts, en⟩, h3, h4⟩ := bind_eq_ok h2
  cases h4
  obtain ⟨h5, h6, h7⟩ := enterLevel_ids h1 h3 rfl
  exact ⟨by simpa using h7, h5, h6, rfl⟩

theorem sane_enter {b : Nat} {O : List Nat} {fl : Bool} {id loc : Nat} {s s' : Timed} (h : Sane clock b O s)
    (e : enterSection clock cfg fl id loc s = .ok (s', true)) : Sane clock b (O ++ [id]) s' := by
  have ha : Sane clock b O (arrive clock cfg fl s) := by
    cases fl
    · exact sane_notify h
    · exact h
  obtain ⟨h1, h2, h3, h4⟩ := entering e
  refine ⟨by rw [h1, ha.here], ?_, ?_, ?_⟩
  · rw [h4]; simp [ha.starts]
  · intro i hi
    rw [h2] at hi
    rw [h4]
    exact ha.held i hi
  · rw [h3, h4]
    have hr := ha.read
    refine ⟨Nat.le_succ_of_le hr.base, ?_, fun t ht => (hr.held t ht).later (Nat.le_succ _), ?_, ?_⟩
    · intro t ht
      rcases List.mem_append.mp ht with ht | ht
      · exact (hr.starts t ht).later (Nat.le_succ _)
      · rw [List.mem_singleton] at ht
        subst ht
        exact ⟨_, hr.base, Nat.lt_succ_self _, rfl⟩
    · intro y hy
      rw [tolds_append, show tolds [Mark.entered id (clock (arrive clock cfg fl s).watch.reads)] = [] from rfl,
        List.append_nil] at hy
      obtain ⟨i, j, h1, h2, h3, h4⟩ := hr.tolds y hy
      exact ⟨i, j, h1, h2, Nat.lt_succ_of_lt h3, h4⟩
    · rw [tolds_append, show tolds [Mark.entered id (clock (arrive clock cfg fl s).watch.reads)] = [] from rfl,
        List.append_nil]
      exact hr.ended

/-- Leaving a section. -/
theorem leaving {u : Bool} {s s' : Timed} (e : leaveEntered clock cfg u s = .ok s')
    (hl : (hold u s).watch.starts.length = (ids (hold u s).ts.info).length) :
    let a := hold u s
    ∃ outer last before start, ids a.ts.info = outer ++ [last] ∧ a.watch.starts = before ++ [start] ∧
      ids s'.ts.info = outer ∧ s'.ts.held = a.ts.held ∧
      ∃ x : Section × Nat, x.1.id = last ∧ x.2 = start ∧
      ((s'.watch = { a.watch with starts := before } ∧ endedIn s'.ts.log = endedIn a.ts.log) ∨
        (s'.watch = { told clock cfg x a.watch with starts := before } ∧
          endedIn s'.ts.log = endedIn a.ts.log ++ if cfg.verbosity ≥ 2 then [.section last] else [])) := by
  unfold leaveEntered at e
  obtain ⟨ts, h1, h2⟩ := bind_eq_ok e
  obtain ⟨outer, last, h3, h4, h5, h6⟩ := leaveEntered_ids h1
  have hh : (Run.hold u (hold u s).ts).held = (hold u s).ts.held := by rw [hold_ts, hold_again]
  rw [hh] at h5
  obtain ⟨before, start, hst⟩ : ∃ before start, (hold u s).watch.starts = before ++ [start] := by
    rcases List.eq_nil_or_concat (hold u s).watch.starts with h | ⟨l, a, h⟩
    · rw [h, h3] at hl; simp at hl
    · exact ⟨l, a, by rw [h]; simp⟩
  obtain ⟨cs, c, hc⟩ : ∃ cs c, (hold u s).ts.info.sections.current = cs ++ [c] := by
    rcases List.eq_nil_or_concat (hold u s).ts.info.sections.current with h | ⟨l, a, h⟩
    · unfold ids at h3; rw [h] at h3; simp at h3
    · exact ⟨l, a, by rw [h]; simp⟩
  have hlen : cs.length = before.length := by
    have : (cs ++ [c]).length = (before ++ [start]).length := by
      rw [← hst, hl, ← hc]; simp [ids]
    simpa using this
  have hz : ((hold u s).ts.info.sections.current.zip (hold u s).watch.starts).getLast? = some (c, start) := by
    rw [hst, hc, List.zip_append hlen]
    simp
  have hid : c.id = last := by
    unfold ids at h3
    rw [hc, List.map_append] at h3
    have := List.append_inj_right' h3 rfl
    simpa using this
  rw [hz] at h2
  refine ⟨outer, last, before, start, h3, hst, ?_, ?_, (c, start), hid, rfl, ?_⟩
  · cases h2; exact h4
  · cases h2; exact h5
  · cases hf : ((finishLevel (hold u s).ts.info.sections).2 && !u) with
    | false =>
      rw [hf] at h2 h6
      left
      cases h2
      refine ⟨?_, by simpa using h6⟩
      simp [hst]
    | true =>
      rw [hf] at h2 h6
      right
      cases h2
      refine ⟨?_, by simpa using h6⟩
      have : (told clock cfg (c, start) (hold u s).watch).starts = before ++ [start] := by
        unfold told; split <;> exact hst
      simp [this]

theorem sane_leave {b : Nat} {O : List Nat} {id : Nat} {u : Bool} {s s' : Timed} (h : Sane clock b (O ++ [id]) s)
    (e : leaveEntered clock cfg u s = .ok s') : Sane clock b O s' := by
  have ha := sane_hold u h
  obtain ⟨outer, last, before, start, h1, h2, h3, h4, x, h5, h6, h7⟩ := leaving e (by rw [ha.starts, ha.here])
  have ho : outer = O := by
    have := h1.symm.trans ha.here
    exact (List.append_inj' this rfl).1
  subst ho
  have hb : before.length = outer.length := by
    have := ha.starts
    rw [h2] at this
    simpa using this
  have hs : Since clock b (hold u s).watch.reads x.2 := ha.read.starts _ (by rw [h2, h6]; simp)
  rcases h7 with ⟨hw, hl⟩ | ⟨hw, hl⟩
  · refine ⟨h3, by rw [hw]; exact hb, ?_, ?_⟩
    · intro i hi
      rw [h4] at hi
      rw [hw]
      exact ha.held i hi
    · rw [hw, hl]
      refine ⟨ha.read.base, ?_, ha.read.held, ha.read.tolds, ha.read.ended⟩
      exact fun t ht => ha.read.starts t (by rw [h2]; exact List.mem_append_left _ ht)
  · obtain ⟨g1, g2, g3, g4⟩ := ha.read.told (cfg := cfg) hs
    refine ⟨h3, by rw [hw]; exact hb, ?_, ?_⟩
    · intro i hi
      rw [h4] at hi
      rw [hw]
      show (told clock cfg x (hold u s).watch).held.length = _
      rw [g4]
      exact ha.held i hi
    · rw [hw, hl]
      rw [h5] at g1
      refine ⟨g1.base, ?_, g1.held, g1.tolds, g1.ended⟩
      exact fun t ht => g1.starts t (by rw [g3, h2]; exact List.mem_append_left _ ht)

theorem sane_keeps (clock : Nat → Nat) (cfg : Cfg) (b : Nat) :
    Keeps clock cfg (fun _ _ _ => True) (Sane clock b) where
  here h := h.here
  still := sane_still
  notify := sane_notify
  hold := sane_hold
  enter _ := sane_enter
  leave := sane_leave

theorem entered_all (p : Prog) : ∀ (fl : Bool) (O : List Nat), Entered (fun _ _ _ => True) p fl O := by
  induction p with
  | done => intros; trivial
  | stmt m k ih => exact ih
  | sec id loc b k ihb ihk => exact fun fl O => ⟨trivial, ihb _ _, ihk _ _⟩
  | capture _ k ih => exact ih
  | block b k ihb ihk => exact fun fl O => ⟨ihb _ _, ihk _ _⟩
  | tryCatch _ b h k ihb ihh ihk => exact fun fl O => ⟨ihb _ _, ihh _ _, ihk _ _⟩
  | nested _ o _ k iho ihk => exact fun fl O => ⟨iho _ _, ihk _ _⟩
  | guard c k ihc ihk => exact fun fl O => ⟨⟨ihc _ _, ihc _ _⟩, ihk _ _⟩

/-! ## Since the last entry -/

theorem lastEntry_told (id id' a z : Nat) (l : List Mark) : lastEntry id (l ++ [.told id' a z]) = lastEntry id l := by
  simp [lastEntry, List.filterMap_append]

theorem lastEntry_other {id id' : Nat} (h : id' ≠ id) (t : Nat) (l : List Mark) :
    lastEntry id (l ++ [.entered id' t]) = lastEntry id l := by
  simp [lastEntry, List.filterMap_append, h]

theorem lastEntry_same (id t : Nat) (l : List Mark) : lastEntry id (l ++ [.entered id t]) = some t := by
  simp [lastEntry, List.filterMap_append]

theorem sinceEntry_told {l : List Mark} (h : SinceEntry l) {id a z : Nat} (hl : lastEntry id l = some a) :
    SinceEntry (l ++ [.told id a z]) := by
  intro pre id' a' z' post e
  rcases List.eq_nil_or_concat post with rfl | ⟨post, y, rfl⟩
  · have h1 := List.append_inj' e rfl
    obtain ⟨rfl, h2⟩ := h1
    cases h2
    exact hl
  · have e' : l ++ [.told id a z] = (pre ++ .told id' a' z' :: post) ++ [y] := by rw [e]; simp
    obtain ⟨h1, -⟩ := List.append_inj' e' rfl
    exact h _ _ _ _ _ h1

theorem sinceEntry_entered {l : List Mark} (h : SinceEntry l) (id t : Nat) : SinceEntry (l ++ [.entered id t]) := by
  intro pre id' a' z' post e
  rcases List.eq_nil_or_concat post with rfl | ⟨post, y, rfl⟩
  · have h1 := List.append_inj' e rfl
    cases h1.2
  · have e' : l ++ [.entered id t] = (pre ++ .told id' a' z' :: post) ++ [y] := by rw [e]; simp
    obtain ⟨h1, -⟩ := List.append_inj' e' rfl
    exact h _ _ _ _ _ h1

/-- Each open section, and each left by an exception, has the time at which it was last entered. -/
structure Known (clock : Nat → Nat) (b : Nat) (O : List Nat) (s : Timed) : Prop where
  sane : Sane clock b O s
  starts : ∀ x ∈ O.zip s.watch.starts, lastEntry x.1 s.watch.marks = some x.2
  held : ∀ h, s.ts.held = some h → ∀ x ∈ (ids h).zip s.watch.held, lastEntry x.1 s.watch.marks = some x.2
  told : SinceEntry s.watch.marks

theorem told_marks (clock : Nat → Nat) (cfg : Cfg) (x : Section × Nat) (w : Watch) (hx : lastEntry x.1.id w.marks = some x.2)
    (h : SinceEntry w.marks) :
    SinceEntry (told clock cfg x w).marks ∧ (∀ id, lastEntry id (told clock cfg x w).marks = lastEntry id w.marks) ∧
      (told clock cfg x w).starts = w.starts ∧ (told clock cfg x w).held = w.held := by
  unfold told
  split
  · exact ⟨sinceEntry_told h hx, fun id => lastEntry_told .., rfl, rfl⟩
  · exact ⟨h, fun _ => rfl, rfl, rfl⟩

theorem toldAll_marks (clock : Nat → Nat) (cfg : Cfg) (xs : List (Section × Nat)) : ∀ (w : Watch),
    (∀ x ∈ xs, lastEntry x.1.id w.marks = some x.2) → SinceEntry w.marks →
    SinceEntry (toldAll clock cfg xs w).marks ∧ (∀ id, lastEntry id (toldAll clock cfg xs w).marks = lastEntry id w.marks) ∧
      (toldAll clock cfg xs w).starts = w.starts := by
  induction xs with
  | nil => exact fun w _ h => ⟨h, fun _ => rfl, rfl⟩
  | cons x xs ih =>
    intro w hx h
    obtain ⟨h1, h2, h3, -⟩ := told_marks clock cfg x w (hx x (List.mem_cons_self ..)) h
    obtain ⟨h4, h5, h6⟩ := ih _ (fun y hy => by rw [h2]; exact hx y (List.mem_cons_of_mem _ hy)) h1
    exact ⟨h4, fun id => (h5 id).trans (h2 id), h6.trans h3⟩

theorem mem_zip_ids {i : Info} {ts : List Nat} {x : Section × Nat} (h : x ∈ i.sections.current.zip ts) :
    (x.1.id, x.2) ∈ (ids i).zip ts := by
  unfold ids
  rw [List.zip_map_left]
  exact List.mem_map.mpr ⟨x, h, rfl⟩

theorem known_notify {b : Nat} {O : List Nat} {s : Timed} (h : Known clock b O s) :
    Known clock b O (notify clock cfg s) := by
  have hs : Sane clock b O (notify clock cfg s) := sane_notify h.sane
  have hn : ∀ i, (notify clock cfg s).ts.held = some i → False := by
    intro i hi
    rw [notify_ts, (notify_ids cfg s.ts).2.1] at hi
    cases hi
  cases hh : s.ts.held with
  | none =>
    have hw : (notify clock cfg s).watch = s.watch := by unfold notify; rw [hh]
    exact ⟨hs, by rw [hw]; exact h.starts, fun i hi => (hn i hi).elim, by rw [hw]; exact h.told⟩
  | some i =>
    have hw : (notify clock cfg s).watch = { toldAll clock cfg
        ((i.sections.current.zip s.watch.held).drop s.ts.info.sections.current.length).reverse s.watch with held := [] } := by
      unfold notify; rw [hh]
    obtain ⟨h1, h2, h3⟩ := toldAll_marks clock cfg
      ((i.sections.current.zip s.watch.held).drop s.ts.info.sections.current.length).reverse s.watch (by
        intro x hx
        rw [List.mem_reverse] at hx
        exact h.held i hh _ (mem_zip_ids (List.mem_of_mem_drop hx))) h.told
    refine ⟨hs, ?_, fun i hi => (hn i hi).elim, by rw [hw]; exact h1⟩
    rw [hw]
    dsimp only
    rw [h3]
    exact fun x hx => (h2 _).trans (h.starts x hx)

theorem known_hold {b : Nat} {O : List Nat} {s : Timed} (u : Bool) (h : Known clock b O s) :
    Known clock b O (hold u s) := by
  have hs := sane_hold u h.sane
  obtain ⟨h1, h2, h3⟩ := hold_ids u s.ts
  cases hu : (u && s.ts.held.isNone) with
  | false =>
    have hw : (hold u s).watch = s.watch := by unfold hold; rw [hu]; rfl
    rw [hu] at h3
    refine ⟨hs, by rw [hw]; exact h.starts, ?_, by rw [hw]; exact h.told⟩
    intro i hi
    rw [hold_ts, h3] at hi
    rw [hw]
    exact h.held i hi
  | true =>
    have hw : (hold u s).watch = { s.watch with held := s.watch.starts } := by unfold hold; rw [hu]; rfl
    rw [hu] at h3
    refine ⟨hs, by rw [hw]; exact h.starts, ?_, by rw [hw]; exact h.told⟩
    intro i hi
    rw [hold_ts, h3] at hi
    cases hi
    rw [hw, h.sane.here]
    exact h.starts

theorem known_still {b : Nat} {O : List Nat} {s : Timed} {ts' : TS} (h : Known clock b O s) (hs : Still s.ts ts') :
    Known clock b O { s with ts := ts' } := by
  refine ⟨sane_still h.sane hs, h.starts, ?_, h.told⟩
  intro i hi
  have := hs.held
  dsimp only at hi ⊢
  rw [hi] at this
  cases hh : s.ts.held with
  | none => rw [hh] at this; cases this
  | some j =>
    rw [hh] at this
    simp only [Option.map_some, Option.some.injEq] at this
    rw [this]
    exact h.held j hh

theorem known_enter {b : Nat} {O : List Nat} {id loc : Nat} {s s' : Timed} (hid : id ∉ O) (h : Known clock b O s)
    (e : enterSection clock cfg false id loc s = .ok (s', true)) : Known clock b (O ++ [id]) s' := by
  have ha : Known clock b O (notify clock cfg s) := known_notify h
  obtain ⟨h1, h2, h3, h4⟩ := entering e
  rw [show arrive clock cfg false s = notify clock cfg s from rfl] at h1 h2 h3 h4
  refine ⟨sane_enter h.sane e, ?_, ?_, ?_⟩
  · rw [h4]
    dsimp only
    rw [List.zip_append ha.sane.starts.symm]
    intro x hx
    rcases List.mem_append.mp hx with hy | hx
    · rw [lastEntry_other]
      · exact ha.starts x hy
      · rintro rfl
        exact hid (List.of_mem_zip (a := x.1) (b := x.2) hy).1
    · simp only [List.zip_cons_cons, List.zip_nil_right, List.mem_singleton] at hx
      subst hx
      exact lastEntry_same ..
  · intro i hi
    rw [h2, notify_ts, (notify_ids cfg s.ts).2.1] at hi
    cases hi
  · rw [h4]
    exact sinceEntry_entered ha.told _ _

theorem known_leave {b : Nat} {O : List Nat} {id : Nat} {u : Bool} {s s' : Timed} (h : Known clock b (O ++ [id]) s)
    (e : leaveEntered clock cfg u s = .ok s') : Known clock b O s' := by
  have ha := known_hold u h
  have hs := sane_leave h.sane e
  obtain ⟨outer, last, before, start, h1, h2, h3, h4, x, h5, h6, h7⟩ :=
    leaving e (by rw [ha.sane.starts, ha.sane.here])
  have hol := List.append_inj' (h1.symm.trans ha.sane.here) rfl
  obtain ⟨rfl, hlast⟩ := hol
  have hlast : last = id := by simpa using hlast
  subst hlast
  have hb : outer.length = before.length := by
    have := ha.sane.starts
    rw [h2] at this
    simpa using this.symm
  have hz : ∀ y ∈ outer.zip before, lastEntry y.1 (hold u s).watch.marks = some y.2 := by
    intro y hy
    refine ha.starts y ?_
    rw [h2, List.zip_append hb]
    exact List.mem_append_left _ hy
  have hx : lastEntry x.1.id (hold u s).watch.marks = some x.2 := by
    have := ha.starts (last, start) (by rw [h2, List.zip_append hb]; simp)
    rwa [h5, h6]
  rcases h7 with ⟨hw, hl⟩ | ⟨hw, hl⟩
  · refine ⟨hs, by rw [hw]; exact hz, ?_, by rw [hw]; exact ha.told⟩
    intro i hi
    rw [h4] at hi
    rw [hw]
    exact ha.held i hi
  · obtain ⟨g1, g2, g3, g4⟩ := told_marks clock cfg x (hold u s).watch hx ha.told
    refine ⟨hs, ?_, ?_, by rw [hw]; exact g1⟩
    · rw [hw]
      exact fun y hy => (g2 _).trans (hz y hy)
    · intro i hi
      rw [h4] at hi
      rw [hw]
      dsimp only
      rw [g4]
      exact fun y hy => (g2 _).trans (ha.held i hi y hy)

theorem known_keeps (clock : Nat → Nat) (cfg : Cfg) (b : Nat) :
    Keeps clock cfg (fun fl O id => fl = false ∧ id ∉ O) (Known clock b) where
  here h := h.sane.here
  still := known_still
  notify := known_notify
  hold := known_hold
  enter := by
    rintro fl O id loc s s' ⟨rfl, hid⟩ h e
    exact known_enter hid h e
  leave := known_leave

theorem entered_none {A : Bool → List Nat → Nat → Prop} (p : Prog) : ∀ (fl : Bool) (O : List Nat), sectionIds p = [] →
    Entered A p fl O := by
  induction p with
  | done => intros; trivial
  | stmt m k ih => exact ih
  | sec id loc b k ihb ihk => intro fl O h; simp [sectionIds] at h
  | capture _ k ih => exact ih
  | block b k ihb ihk =>
    intro fl O h
    simp only [sectionIds, List.append_eq_nil_iff] at h
    exact ⟨ihb _ _ h.1, ihk _ _ h.2⟩
  | tryCatch _ b h k ihb ihh ihk =>
    intro fl O h
    simp only [sectionIds, List.append_eq_nil_iff] at h
    exact ⟨ihb _ _ h.1.1, ihh _ _ h.1.2, ihk _ _ h.2⟩
  | nested _ o _ k iho ihk =>
    intro fl O h
    simp only [sectionIds, List.append_eq_nil_iff] at h
    exact ⟨iho _ _ h.1, ihk _ _ h.2⟩
  | guard c k ihc ihk =>
    intro fl O h
    simp only [sectionIds, List.append_eq_nil_iff] at h
    exact ⟨⟨ihc _ _ h.1, ihc _ _ h.1⟩, ihk _ _ h.2⟩

theorem entered_apart (p : Prog) : ∀ (O : List Nat), NoneInItself p → (∀ id ∈ sectionIds p, id ∉ O) →
    Entered (fun fl O id => fl = false ∧ id ∉ O) p false O := by
  induction p with
  | done => intros; trivial
  | stmt m k ih => exact ih
  | sec id loc b k ihb ihk =>
    intro O h hO
    refine ⟨⟨rfl, hO id (by simp [sectionIds])⟩, ihb _ h.2.1 ?_, ihk _ h.2.2 fun x hx => hO x (by simp [sectionIds, hx])⟩
    intro x hx hm
    rcases List.mem_append.mp hm with hm | hm
    · exact hO x (by simp [sectionIds, hx]) hm
    · rw [List.mem_singleton] at hm
      subst hm
      exact h.1 hx
  | capture _ k ih => exact ih
  | block b k ihb ihk =>
    exact fun O h hO => ⟨ihb _ h.1 fun x hx => hO x (by simp [sectionIds, hx]),
      ihk _ h.2 fun x hx => hO x (by simp [sectionIds, hx])⟩
  | tryCatch _ b h k ihb ihh ihk =>
    exact fun O h hO => ⟨ihb _ h.1 fun x hx => hO x (by simp [sectionIds, hx]),
      ihh _ h.2.1 fun x hx => hO x (by simp [sectionIds, hx]), ihk _ h.2.2 fun x hx => hO x (by simp [sectionIds, hx])⟩
  | nested _ o _ k iho ihk =>
    exact fun O h hO => ⟨iho _ h.1 fun x hx => hO x (by simp [sectionIds, hx]),
      ihk _ h.2 fun x hx => hO x (by simp [sectionIds, hx])⟩
  | guard c k ihc ihk =>
    exact fun O h hO => ⟨⟨entered_none c _ _ h.1, entered_none c _ _ h.1⟩,
      ihk _ h.2 fun x hx => hO x (by simp [sectionIds, hx])⟩

end Verif.Timing
