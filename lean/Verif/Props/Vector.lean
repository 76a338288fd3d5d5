import Verif.Lemmas.Vector
/-!
# C01: fixed-capacity containers
-/
namespace Verif.Props
open Verif Verif.Spec SV

variable {α : Type}

/-- One call on a well-formed container: never undefined behaviour; on return the capacity is the
same and the size is within it. -/
theorem C01_step_safe (v : SV α) (hv : v.size ≤ v.capacity) (op : SV.Op α) :
    v.step op ≠ .ub ∧
    ∀ v', v.step op = .ok v' → v'.size ≤ v'.capacity ∧ v'.capacity = v.capacity := by
  cases op <;> simp only [SV.step, SV.clear, SV.resize, SV.grow, SV.pushBack, SV.popBack,
    SV.setAt] <;> (repeat' split)
  all_goals simp only [SV.capacity] at *
  all_goals (refine ⟨by simp <;> omega, ?_⟩; intro v' h; simp at h; try subst h)
  all_goals simp at *
  all_goals omega

/-- **C01** (capacity). Whatever sequence of calls a client makes on a well-formed container, the
behaviour is defined, and if all calls return, the size is still within the unchanged capacity. -/
theorem C01_capacity_invariant (v : SV α) (hv : v.size ≤ v.capacity) (ops : List (SV.Op α)) :
    v.run ops ≠ .ub ∧
    ∀ v', v.run ops = .ok v' → v'.size ≤ v'.capacity ∧ v'.capacity = v.capacity := by
  induction ops generalizing v with
  | nil => simp [SV.run]; exact hv
  | cons op ops ih =>
    obtain ⟨h1, h2⟩ := C01_step_safe v hv op
    simp only [SV.run, List.foldlM_cons] at *
    cases hs : v.step op with
    | ok v1 =>
      obtain ⟨h3, h4⟩ := h2 v1 hs
      have := ih v1 h3
      simpa [h4] using this
    | abort => simp
    | ub => exact absurd hs h1

/-- **C01** (requirements are enforced). For `grow` arguments small enough for the `size_t` sum not
to wrap, a call is reported through the assertion handler exactly when its documented requirement
is violated.
Missing from the full claim: `grow` with an argument near `2^64`, see `C01_grow_wraps`. -/
theorem C01_abort_iff_partial (v : SV α) (hv : v.size ≤ v.capacity) (op : SV.Op α)
    (hw : NoWrap v.capacity op) :
    v.step op = .abort ↔ Violates v.capacity v.contents op := by
  have hl : v.contents.length = v.size := by simp [SV.contents, SV.capacity] at *; omega
  cases op with
  | clear => simp [SV.step, Violates]
  | resize n => simp [SV.step, SV.resize, Violates]
  | grow n =>
    simp only [NoWrap] at hw
    have : (v.size + n) % sizeT = v.size + n := Nat.mod_eq_of_lt (by simp [sizeT]; omega)
    simp [SV.step, SV.grow, Violates, this, hl]
  | pushBack x =>
    simp only [SV.step, SV.pushBack, Violates, hl]
    repeat' split
    all_goals simp_all
  | popBack =>
    have : v.contents = [] ↔ v.size = 0 := by rw [← hl]; simp
    simp [SV.step, SV.popBack, Violates, this]
  | set i x =>
    simp only [SV.step, SV.setAt, Violates, hl]
    repeat' split
    all_goals simp_all

/-- A call that returns has the effect of the plain list operation (same restriction). -/
theorem C01_step_refines_partial (v v' : SV α) (hv : v.size ≤ v.capacity) (op : SV.Op α)
    (hw : NoWrap v.capacity op) (h : v.step op = .ok v') :
    ListStep v.capacity v.contents op v'.contents := by
  have hl : v.contents.length = v.size := by simp [SV.contents, SV.capacity] at *; omega
  have hv' : v.size ≤ v.buf.length := hv
  cases op with
  | clear =>
    simp [SV.step, SV.clear] at h; subst h
    simpa [SV.contents] using ListStep.clear v.contents
  | resize n =>
    simp only [SV.step, SV.resize] at h
    split at h
    · simp at h
    rename_i h1; simp at h h1; subst h
    refine .resize _ _ n h1 ?_ ?_
    · simp [SV.contents, SV.capacity] at *; omega
    · rw [hl]; simp [SV.contents, List.take_take, Nat.min_comm]
  | grow n =>
    simp only [NoWrap] at hw
    have he : (v.size + n) % sizeT = v.size + n := Nat.mod_eq_of_lt (by simp [sizeT]; omega)
    simp only [SV.step, SV.grow, he] at h
    split at h
    · simp at h
    rename_i h1; simp at h h1; subst h
    refine .grow _ _ n (by omega) ?_ ?_
    · simp [SV.contents, SV.capacity] at *; omega
    · rw [hl]; simp [SV.contents, List.take_take]
  | pushBack x =>
    simp only [SV.step, SV.pushBack] at h
    split at h
    · simp at h
    · split at h
      · rename_i h1 h2
        simp at h; subst h
        have : (SV.contents { buf := v.buf.set v.size x, size := v.size + 1 }) = v.contents ++ [x] := by
          have h2' : v.size < v.buf.length := h2
          simp only [SV.contents]
          rw [List.take_add_one]
          simp [List.take_set, h2', List.set_eq_of_length_le (l := v.buf.take v.size) (i := v.size) (by simp; omega)]
        rw [this]
        exact .pushBack _ _ (by omega)
      · simp at h
  | popBack =>
    simp only [SV.step, SV.popBack] at h
    split at h
    · simp at h
    · rename_i h1
      simp at h; subst h
      have : (SV.contents { buf := v.buf, size := v.size - 1 }) = v.contents.dropLast := by
        rw [List.dropLast_eq_take, hl]
        simp [SV.contents, List.take_take]
      rw [this]
      refine .popBack _ ?_
      intro hc; rw [hc] at hl; simp at hl; omega
  | set i x =>
    simp only [SV.step, SV.setAt] at h
    split at h
    · simp at h
    · split at h
      · simp at h; subst h
        have : (SV.contents { buf := v.buf.set i x, size := v.size }) = v.contents.set i x := by
          simp [SV.contents, List.take_set]
        rw [this]
        exact .set _ _ _ (by omega)
      · simp at h

/-- **C01** (list behaviour). For every sequence of calls (with the same restriction on `grow`)
which all return, the visible elements are those a plain list would hold after the same calls. -/
theorem C01_refines_list_partial (v v' : SV α) (hv : v.size ≤ v.capacity) (ops : List (SV.Op α))
    (hw : ∀ op ∈ ops, NoWrap v.capacity op) (h : v.run ops = .ok v') :
    ListSteps v.capacity v.contents ops v'.contents := by
  induction ops generalizing v with
  | nil => simp [SV.run] at h; subst h; exact .nil _
  | cons op ops ih =>
    simp only [SV.run, List.foldlM_cons] at h
    cases hs : v.step op with
    | abort => simp [hs] at h
    | ub => simp [hs] at h
    | ok v1 =>
      obtain ⟨h3, h4⟩ := (C01_step_safe v hv op).2 v1 hs
      simp only [hs, Outcome.bind_ok] at h
      refine .cons (C01_step_refines_partial v v1 hv op (hw op (by simp)) hs) ?_
      have := ih v1 h3 (fun o ho => by rw [h4]; exact hw o (by simp [ho])) h
      rwa [h4] at this

/-- Reading element `i` returns the list element, and an out-of-range index is reported. -/
theorem C01_get (v : SV α) (hv : v.size ≤ v.capacity) (i : Nat) :
    v.get i = (match v.contents[i]? with | some x => .ok x | none => .abort) := by
  have hv' : v.size ≤ v.buf.length := hv
  simp only [SV.get, SV.contents]
  by_cases h : v.size ≤ i
  · have : (v.buf.take v.size)[i]? = none := by simp; omega
    simp [h, this]
  · have h' : i < v.size := by omega
    have hb : i < v.buf.length := by omega
    simp [h, h', hb]

/-- `back()` is the last list element, and is reported on an empty container. -/
theorem C01_back (v : SV α) (hv : v.size ≤ v.capacity) :
    v.back = (match v.contents.getLast? with | some x => .ok x | none => .abort) := by
  have hv' : v.size ≤ v.buf.length := hv
  by_cases h0 : v.size = 0
  · simp [SV.back, SV.contents, h0]
  · have hb : v.size - 1 < v.buf.length := by omega
    have h1 : v.size - 1 < v.size := by omega
    have : v.contents.getLast? = some v.buf[v.size - 1] := by
      rw [List.getLast?_eq_getElem?]
      have : v.contents.length = v.size := by simp [SV.contents]; omega
      rw [this]; simp [SV.contents, h1, hb]
    simp [SV.back, h0, this, hb]

/-- Construction from an initializer list keeps all elements, or is reported if too long. -/
theorem C01_ofList (cap : Nat) (fill : α) (xs : List α) :
    (xs.length ≤ cap → ∃ v, SV.ofList cap fill xs = .ok v ∧ v.capacity = cap ∧ v.contents = xs) ∧
    (cap < xs.length → SV.ofList cap fill xs = .abort) := by
  have key : ∀ (ys : List α) (v : SV α) (l : List α), v.Holds cap l →
      (l.length + ys.length ≤ cap → ∃ v', ys.foldlM (fun v x => v.pushBack x) v = .ok v' ∧
        v'.Holds cap (l ++ ys)) ∧
      (cap < l.length + ys.length → ys.foldlM (fun v x => v.pushBack x) v = .abort) := by
    intro ys
    induction ys with
    | nil =>
      intro v l h
      refine ⟨fun _ => ⟨v, rfl, by simpa using h⟩, fun h' => ?_⟩
      have := h.le; simp at h'; omega
    | cons y ys ih =>
      intro v l h
      have hle := h.le
      obtain ⟨h1, h2, h3⟩ := id h
      by_cases hf : l.length = cap
      · refine ⟨fun h' => by simp at h'; omega, fun _ => ?_⟩
        simp [List.foldlM_cons, SV.pushBack, SV.capacity, h1, h2, hf]
      · have hp : v.pushBack y = .ok { buf := v.buf.set v.size y, size := v.size + 1 } := by
          simp only [SV.pushBack, SV.capacity]
          rw [if_neg (by omega), if_pos (by omega)]
        have hh : ({ buf := v.buf.set v.size y, size := v.size + 1 } : SV α).Holds cap (l ++ [y]) := by
          refine ⟨by simp [h1], by simp [h2], ?_⟩
          have hb : v.size < v.buf.length := by omega
          show (v.buf.set v.size y).take (v.size + 1) = _
          rw [List.take_add_one]
          simp [List.take_set, h3, hb, List.set_eq_of_length_le (l := l) (i := v.size) (by omega)]
        have := ih _ _ hh
        simp only [List.foldlM_cons, hp, Outcome.bind_ok]
        simp only [List.length_append, List.length_cons, List.length_nil, List.append_assoc,
          List.cons_append, List.nil_append] at this ⊢
        refine ⟨fun h' => this.1 (by omega), fun h' => this.2 (by omega)⟩
  have := key xs (SV.empty cap fill) [] (SV.holds_empty cap fill)
  simp only [List.length_nil, Nat.zero_add, List.nil_append] at this
  refine ⟨fun h => ?_, this.2⟩
  obtain ⟨v, hv, hh⟩ := this.1 h
  exact ⟨v, hv, hh.capacity, hh.contents⟩

/-- The full claim fails: `grow` with an argument near `2^64` returns although the requirement
`size() + elem <= capacity()` is violated, and the container shrinks. -/
theorem C01_grow_wraps :
    ∃ v : SV Nat, v.size ≤ v.capacity ∧ Violates v.capacity v.contents (.grow (2 ^ 64 - 1)) ∧
      ∃ v', v.step (.grow (2 ^ 64 - 1)) = .ok v' ∧ v'.size < v.size :=
  ⟨⟨[7, 8, 9], 1⟩, by decide, by simp [Violates, SV.contents, SV.capacity],
   ⟨[7, 8, 9], 0⟩, by decide, by decide⟩

/-! Non-vacuity: a concrete container and call sequence meeting the hypotheses. -/
example : (⟨[1, 2, 3, 0], 3⟩ : SV Nat).size ≤ (⟨[1, 2, 3, 0], 3⟩ : SV Nat).capacity ∧
    (∀ op ∈ ([.pushBack 5, .popBack, .set 0 9, .grow 1, .resize 2] : List (SV.Op Nat)),
      NoWrap 4 op) ∧
    (⟨[1, 2, 3, 0], 3⟩ : SV Nat).run [.pushBack 5, .popBack, .set 0 9, .grow 1, .resize 2]
      = .ok ⟨[9, 2, 3, 5], 2⟩ := by
  refine ⟨by decide, ?_, by decide⟩
  intro op h
  simp at h
  rcases h with h | h | h | h | h <;> subst h <;> simp [NoWrap]
example : (⟨[1, 2, 3], 3⟩ : SV Nat).step (.pushBack 4) = .abort := by decide

end Verif.Props
