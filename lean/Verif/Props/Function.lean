import Verif.Spec.Function
/-!
# References to functions (C74)
-/
namespace Verif.Props
open Verif.Function Verif.Function.Spec

variable {σ α β : Type}

/-! ## Which constructor is taken -/

private theorem resolveObject (c : Category) :
    resolve ObjectCtor.pattern (fun _ _ => true) objectCtors c =
      match c with
      | .lvalue => some (.object, ⟨false, false, false, false⟩)
      | .constLvalue => some (.constObject, ⟨false, false, true, false⟩)
      | .rvalue => some (.temporary, ⟨false, false, false, true⟩)
      | .constRvalue => some (.temporary, ⟨true, false, true, true⟩) := by
  cases c <;> decide

private theorem resolveOne (s : Shape) (c : Category) (hc : s.isRef = true → s.toPointer = false ∧ s.callOperator = false)
    (hs : s.same = true → s.isRef = true) :
    resolve Ctor.pattern (Ctor.allows s) ctors c =
      if s.same then some (.copy, ⟨false, false, true, false⟩)
      else if s.toPointer then some (.pointer, ⟨false, false, true, false⟩)
      else if s.callOperator then
        match c with
        | .lvalue => some (.functor, ⟨false, false, false, false⟩)
        | .constLvalue => some (.constFunctor, ⟨false, false, true, false⟩)
        | .rvalue => some (.temporary, ⟨false, false, false, true⟩)
        | .constRvalue => some (.temporary, ⟨true, false, true, true⟩)
      else none := by
  rcases s with ⟨r, e, p, o⟩
  revert hc hs
  cases r <;> cases e <;> cases p <;> cases o <;> cases c <;> decide

private theorem shape_ok (code : Code σ α β) (noexc : Bool) (s : Source) :
    ((shape code noexc s).isRef = true →
      (shape code noexc s).toPointer = false ∧ (shape code noexc s).callOperator = false) ∧
    ((shape code noexc s).same = true → (shape code noexc s).isRef = true) := by
  rcases s with (_ | _) | _ | _ | _ | _ <;> simp [shape]

private theorem converts_iff (code : Code σ α β) (noexc : Bool) (p : Nat) :
    converts code noexc p = true ↔ Promises code noexc p := by
  unfold converts Promises
  cases noexc <;> simp

private theorem bindObject_eq (code : Code σ α β) (i : Nat) (c : Category) (m : Nat) :
    bindObject code i c m =
      match c with
      | .lvalue => .ok (.object i m)
      | .constLvalue => if code.memberConst m then .ok (.constObject i m) else .rejected
      | .rvalue => .rejected
      | .constRvalue => .rejected := by
  unfold bindObject
  rw [resolveObject]
  cases c <;> rfl

/-- What a `function_ref` refers to. -/
private def target : Data → Target
  | .pointer none => .nothing
  | .pointer (some p) => .callee (.free p)
  | .object i m => .callee (.member i m)
  | .constObject i m => .callee (.member i m)

/-- The objects and `function_ref`s that an initialiser needs. -/
private def There (w : World σ α β) : Source → Prop
  | .object _ i _ => ∃ s, w.objects[i]? = some (some s)
  | .bound i _ _ => ∃ s, w.objects[i]? = some (some s)
  | .ref r _ => ∃ d, w.refs[r]? = some d
  | _ => True

private theorem alive_eq (w : World σ α β) (s : Source) (d : Data) (hr : ∀ r c, s ≠ .ref r c) :
    (There w s ∧ construct.alive w s (.ok d) = .ok d) ∨
    (¬ There w s ∧ construct.alive w s (.ok d) = .undefined) := by
  rcases s with _ | ⟨k, i, c⟩ | ⟨i, c, m⟩ | ⟨r, c⟩ | _
  · exact .inl ⟨trivial, rfl⟩
  · rcases h : w.objects[i]? with _ | _ | x
    · refine .inr ⟨fun ⟨s, hs⟩ => by simp [h] at hs, by simp [construct.alive, Source.objectNumber, h]⟩
    · refine .inr ⟨fun ⟨s, hs⟩ => by simp [h] at hs, by simp [construct.alive, Source.objectNumber, h]⟩
    · exact .inl ⟨⟨x, h⟩, by simp [construct.alive, Source.objectNumber, h]⟩
  · rcases h : w.objects[i]? with _ | _ | x
    · refine .inr ⟨fun ⟨s, hs⟩ => by simp [h] at hs, by simp [construct.alive, Source.objectNumber, h]⟩
    · refine .inr ⟨fun ⟨s, hs⟩ => by simp [h] at hs, by simp [construct.alive, Source.objectNumber, h]⟩
    · exact .inl ⟨⟨x, h⟩, by simp [construct.alive, Source.objectNumber, h]⟩
  · exact absurd rfl (hr r c)
  · exact .inl ⟨trivial, rfl⟩

private theorem alive_rejected (w : World σ α β) (s : Source) :
    construct.alive w s .rejected = .rejected := by
  unfold construct.alive
  split
  · rename_i h _; cases h
  · rfl

/-- The three ways a construction may go. -/
private def Constructed (code : Code σ α β) (noexc : Bool) (w : World σ α β) (s : Source) : Prop :=
  (¬ Accepted code noexc s ∧ construct code noexc w s = .rejected) ∨
  (Accepted code noexc s ∧ ¬ There w s ∧ construct code noexc w s = .undefined) ∨
  (Accepted code noexc s ∧ There w s ∧ ∃ d, construct code noexc w s = .ok d ∧
    ∀ others, (∀ r, others r = (w.refs[r]?).map target) → names code noexc others s = some (target d))

private theorem of_alive {code : Code σ α β} {noexc : Bool} {w : World σ α β} {s : Source} {d : Data}
    (hr : ∀ r c, s ≠ .ref r c) (ha : Accepted code noexc s)
    (hc : construct code noexc w s = construct.alive w s (.ok d))
    (hn : ∀ others, names code noexc others s = some (target d)) : Constructed code noexc w s := by
  rcases alive_eq w s d hr with ⟨ht, he⟩ | ⟨ht, he⟩
  · exact .inr (.inr ⟨ha, ht, d, hc.trans he, fun o _ => hn o⟩)
  · exact .inr (.inl ⟨ha, ht, hc.trans he⟩)

private theorem of_rejected {code : Code σ α β} {noexc : Bool} {w : World σ α β} {s : Source}
    (ha : ¬ Accepted code noexc s) (hc : construct code noexc w s = .rejected) : Constructed code noexc w s :=
  .inl ⟨ha, hc⟩

private theorem construct_pointer {code : Code σ α β} {noexc : Bool} {w : World σ α β} {s : Source}
    (hb : ∀ i c m, s ≠ .bound i c m) (hs : (shape code noexc s).same = false)
    (hp : (shape code noexc s).toPointer = true) :
    construct code noexc w s = construct.alive w s s.toPointer := by
  have hr := resolveOne (shape code noexc s) s.category (shape_ok code noexc s).1 (shape_ok code noexc s).2
  rw [hs, hp] at hr
  rcases s with _ | _ | ⟨i, c, m⟩ | _ | _
  · unfold construct; simp [hr]
  · unfold construct; simp [hr]
  · exact absurd rfl (hb i c m)
  · unfold construct; simp [hr]
  · unfold construct; simp [hr]

private theorem construct_operator {code : Code σ α β} {noexc : Bool} {w : World σ α β} {k : Class} {i m : Nat}
    {c : Category} (hp : (shape code noexc (.object k i c)).toPointer = false) (hm : k.call = some m) :
    construct code noexc w (.object k i c) = construct.alive w (.object k i c) (bindObject code i c m) := by
  have hr := resolveOne (shape code noexc (.object k i c)) c (shape_ok code noexc _).1 (shape_ok code noexc _).2
  have ho : (shape code noexc (.object k i c)).callOperator = true := by simp [shape, hm]
  have hs : (shape code noexc (.object k i c)).same = false := rfl
  rw [hs, hp, ho] at hr
  rw [bindObject_eq]
  cases c <;>
    simp [construct, Source.category, hr, Source.operator, hm, bindObject_eq, alive_rejected]

private theorem construct_none {code : Code σ α β} {noexc : Bool} {w : World σ α β} {s : Source}
    (hb : ∀ i c m, s ≠ .bound i c m) (hs : (shape code noexc s).same = false)
    (hp : (shape code noexc s).toPointer = false) (ho : (shape code noexc s).callOperator = false) :
    construct code noexc w s = .rejected := by
  have hr := resolveOne (shape code noexc s) s.category (shape_ok code noexc s).1 (shape_ok code noexc s).2
  rw [hs, hp, ho] at hr
  rcases s with _ | _ | ⟨i, c, m⟩ | _ | _
  · unfold construct; simp [hr]
  · unfold construct; simp [hr]
  · exact absurd rfl (hb i c m)
  · unfold construct; simp [hr]
  · unfold construct; simp [hr]

private theorem usable_cases (code : Code σ α β) (i : Nat) (c : Category) (m : Nat) :
    (Usable code c m ∧ ∃ d, bindObject code i c m = .ok d ∧ target d = .callee (.member i m)) ∨
    (¬ Usable code c m ∧ bindObject code i c m = .rejected) := by
  rw [bindObject_eq]
  unfold Usable Temporary ReadOnly
  cases c
  · exact .inl ⟨by simp, _, rfl, rfl⟩
  · cases h : code.memberConst m
    · exact .inr ⟨by simp, rfl⟩
    · exact .inl ⟨by simp, _, rfl, rfl⟩
  · exact .inr ⟨by simp, rfl⟩
  · exact .inr ⟨by simp, rfl⟩

private theorem constructed (code : Code σ α β) (noexc : Bool) (w : World σ α β) (s : Source) :
    Constructed code noexc w s := by
  rcases s with (_ | p) | ⟨k, i, c⟩ | ⟨i, c, m⟩ | ⟨r, c⟩ | c
  · exact of_alive (d := .pointer none) (by simp) trivial (construct_pointer (by simp) rfl rfl) (fun _ => rfl)
  · cases h : converts code noexc p with
    | true =>
      exact of_alive (d := .pointer (some p)) (by simp) ((converts_iff ..).mp h)
        (construct_pointer (by simp) rfl h) (fun _ => rfl)
    | false =>
      refine of_rejected (fun ha => ?_) (construct_none (by simp) rfl h rfl)
      rw [(converts_iff code noexc p).mpr ha] at h
      cases h
  · have viaOperator : (shape code noexc (.object k i c)).toPointer = false → ¬ Plain code noexc k →
        Constructed code noexc w (.object k i c) := by
      intro hp hn
      cases hm : k.call with
      | none =>
        refine of_rejected ?_ (construct_none (by simp) rfl hp (by simp [shape, hm]))
        rintro (h | ⟨m, h, _⟩)
        · exact hn h
        · rw [hm] at h; cases h
      | some m =>
        have hc := construct_operator (w := w) (i := i) (c := c) hp hm
        rcases usable_cases code i c m with ⟨hu, d, hd, ht⟩ | ⟨hu, hd⟩
        · rw [hd] at hc
          refine of_alive (d := d) (by simp) (.inr ⟨m, hm, hu⟩) hc (fun o => ?_)
          rw [ht]
          simp only [names, hm]
          cases hi : k.invoker with
          | none => rfl
          | some p => simp only [if_neg (fun h => hn ⟨p, hi, h⟩)]
        · rw [hd, alive_rejected] at hc
          refine of_rejected ?_ hc
          rintro (h | ⟨m', h, hu'⟩)
          · exact hn h
          · rw [hm] at h; cases h; exact hu hu'
    cases hi : k.invoker with
    | none =>
      exact viaOperator (by simp [shape, hi]) (fun ⟨p, h, _⟩ => by rw [hi] at h; cases h)
    | some p =>
      cases h : converts code noexc p with
      | true =>
        have hpr := (converts_iff ..).mp h
        have hs : (shape code noexc (.object k i c)).toPointer = true := by simp [shape, hi, h]
        have hc := construct_pointer (w := w) (by simp) rfl hs
        have ht : (Source.object k i c).toPointer = .ok (.pointer (some p)) := by simp [Source.toPointer, hi]
        rw [ht] at hc
        refine of_alive (by simp) (.inl ⟨p, hi, hpr⟩) hc (fun o => ?_)
        simp only [names, hi]
        cases k.call with
        | none => rfl
        | some m => simp only [if_pos hpr]; rfl
      | false =>
        refine viaOperator (by simp [shape, hi, h]) (fun ⟨q, hq, hpr⟩ => ?_)
        rw [hi] at hq; cases hq
        rw [(converts_iff code noexc p).mpr hpr] at h
        cases h
  · have hc : construct code noexc w (.bound i c m) =
        construct.alive w (.bound i c m) (bindObject code i c m) := rfl
    rcases usable_cases code i c m with ⟨hu, d, hd, ht⟩ | ⟨hu, hd⟩
    · rw [hd] at hc
      exact of_alive (d := d) (by simp) hu hc (fun o => by rw [ht]; rfl)
    · rw [hd, alive_rejected] at hc
      exact of_rejected hu hc
  · have hr := resolveOne (shape code noexc (.ref r c)) c (shape_ok code noexc _).1 (shape_ok code noexc _).2
    rw [show (shape code noexc (.ref r c)).same = true from rfl] at hr
    have hc : construct code noexc w (.ref r c) =
        match w.refs[r]? with
        | some d => .ok d
        | none => .undefined := by
      unfold construct; simp [Source.category, hr]; rfl
    cases h : w.refs[r]? with
    | none =>
      rw [h] at hc
      exact .inr (.inl ⟨trivial, fun ⟨d, hd⟩ => (by rw [h] at hd; cases hd), hc⟩)
    | some d =>
      rw [h] at hc
      exact .inr (.inr ⟨trivial, ⟨d, h⟩, d, hc, fun o ho => by simp [names, ho, h]⟩)
  · exact of_rejected (fun h => h) (construct_none (by simp) rfl rfl rfl)

/-- **C74.** A `function_ref` can be made of exactly what it should be made of: functions (that promise not to throw if it
does), closures without captures even if temporary, named objects with one call operator, named objects with a member
function, `function_ref`s of the same type; never of a temporary object, and of an object that can only be read only
with a `const` member function. Any other initialiser does not compile. -/
theorem C74_accepted (code : Code σ α β) (noexc : Bool) (w : World σ α β) (s : Source) :
    construct code noexc w s ≠ .rejected ↔ Accepted code noexc s := by
  rcases constructed code noexc w s with ⟨ha, hc⟩ | ⟨ha, _, hc⟩ | ⟨ha, _, d, hc, _⟩
  · simp [ha, hc]
  · simp [ha, hc]
  · simp [ha, hc]

/-! ## What it refers to -/

private theorem history_append (code : Code σ α β) (noexc : Bool) :
    ∀ (ops rest : List (Op σ α)) (w : World σ α β),
      history code noexc (ops ++ rest) w = history code noexc ops w >>= history code noexc rest := by
  intro ops
  induction ops with
  | nil => intro rest w; rfl
  | cons op ops ih =>
    intro rest w
    show (step code noexc w op >>= fun w => history code noexc (ops ++ rest) w) =
      (step code noexc w op >>= fun w => history code noexc ops w) >>= history code noexc rest
    cases h : step code noexc w op with
    | ok x => exact ih rest x
    | _ => rfl

private theorem bind_ok {τ υ : Type} {x : Result τ} {f : τ → Result υ} {y : υ} (h : (x >>= f) = .ok y) :
    ∃ a, x = .ok a ∧ f a = .ok y := by
  cases x with
  | ok a => exact ⟨a, rfl, h⟩
  | _ => cases h

private theorem callFree_refs {code : Code σ α β} {p : Nat} {a : α} {w w' : World σ α β}
    (h : callFree code p a w = .ok w') :
    w' = { w with calls := w.calls ++ [(.free p, a, code.free p a)] } := by
  unfold callFree at h
  dsimp only at h
  split at h
  · cases h
  · cases h; rfl

private theorem callMember_refs {code : Code σ α β} {i m : Nat} {a : α} {w w' : World σ α β}
    (h : callMember code i m a w = .ok w') : w'.refs = w.refs := by
  unfold callMember at h
  split at h
  · dsimp only at h
    split at h
    · cases h
    · cases h; rfl
  · cases h

private theorem call_refs {code : Code σ α β} {noexc : Bool} {d : Data} {a : α} {w w' : World σ α β}
    (h : Function.call code noexc d a w = .ok w') : w'.refs = w.refs := by
  unfold Function.call at h
  obtain ⟨x, hx, hy⟩ := bind_ok h
  have he : x = w' := by
    unfold leave at hy
    split at hy
    · cases hy
    · cases hy; rfl
  subst he
  rcases d with (_ | p) | ⟨i, m⟩ | ⟨i, m⟩
  · cases hx
  · rw [callFree_refs hx]
  · exact callMember_refs hx
  · exact callMember_refs hx

/-- What the references of a world refer to is what the history says, and there are as many as were made. -/
private def Agrees (code : Code σ α β) (noexc : Bool) (past : List (Op σ α)) (w : World σ α β) : Prop :=
  w.refs.length = made past ∧ ∀ r, refersRev code noexc past r = (w.refs[r]?).map target

private theorem agrees_step {code : Code σ α β} {noexc : Bool} {past : List (Op σ α)} {w w' : World σ α β}
    {op : Op σ α} (hw : Agrees code noexc past w) (h : step code noexc w op = .ok w') :
    Agrees code noexc (op :: past) w' := by
  obtain ⟨hl, hr⟩ := hw
  have keep : w'.refs = w.refs → (∀ s, op ≠ .make s) → (∀ r s, op ≠ .assign r s) →
      Agrees code noexc (op :: past) w' := by
    intro he h1 h2
    cases op with
    | make s => exact absurd rfl (h1 s)
    | assign r s => exact absurd rfl (h2 r s)
    | _ => exact ⟨by rw [he]; exact hl, fun r => by rw [he]; exact hr r⟩
  cases op with
  | create s => cases h; exact keep rfl (by simp) (by simp)
  | set i s =>
    refine keep ?_ (by simp) (by simp)
    simp only [step] at h
    split at h
    · cases h; rfl
    · cases h
  | destroy i =>
    refine keep ?_ (by simp) (by simp)
    simp only [step] at h
    split at h
    · cases h; rfl
    · cases h
  | make s =>
    obtain ⟨d, hd, hw'⟩ := bind_ok (x := construct code noexc w s) h
    cases hw'
    rcases constructed code noexc w s with ⟨_, hc⟩ | ⟨_, _, hc⟩ | ⟨_, _, e, hc, hn⟩
    · rw [hc] at hd; cases hd
    · rw [hc] at hd; cases hd
    · rw [hc] at hd; cases hd
      refine ⟨by simp [made, hl], fun r => ?_⟩
      unfold refersRev
      rw [← hl]
      by_cases he : r = w.refs.length
      · rw [if_pos he, he, hn _ hr]
        simp
      · rw [if_neg he, hr r]
        by_cases hlt : r < w.refs.length
        · rw [List.getElem?_append_left hlt]
        · rw [List.getElem?_eq_none (by omega), List.getElem?_eq_none (by simp; omega)]
  | assign q s =>
    obtain ⟨d, hd, hw'⟩ := bind_ok (x := construct code noexc w s) h
    by_cases hq : q < w.refs.length
    · rw [if_pos hq] at hw'
      cases hw'
      rcases constructed code noexc w s with ⟨_, hc⟩ | ⟨_, _, hc⟩ | ⟨_, _, e, hc, hn⟩
      · rw [hc] at hd; cases hd
      · rw [hc] at hd; cases hd
      · rw [hc] at hd; cases hd
        refine ⟨by simp [made, hl], fun r => ?_⟩
        unfold refersRev
        by_cases he : r = q
        · rw [if_pos he, he, hn _ hr]
          simp [hq]
        · rw [if_neg he, hr r]
          simp [Ne.symm he]
    · rw [if_neg hq] at hw'; cases hw'
  | call r a =>
    refine keep ?_ (by simp) (by simp)
    cases hd : w.refs[r]? with
    | none => simp only [step, hd] at h; cases h
    | some d => simp only [step, hd] at h; exact call_refs h

private theorem agrees_history {code : Code σ α β} {noexc : Bool} :
    ∀ (ops past : List (Op σ α)) (w w' : World σ α β), Agrees code noexc past w →
      history code noexc ops w = .ok w' → Agrees code noexc (ops.reverse ++ past) w' := by
  intro ops
  induction ops with
  | nil => intro past w w' hw h; cases h; exact hw
  | cons op ops ih =>
    intro past w w' hw h
    obtain ⟨x, hx, hy⟩ := bind_ok (x := step code noexc w op) h
    rw [List.reverse_cons, List.append_assoc]
    exact ih (op :: past) x w' (agrees_step hw hx) hy

private theorem agrees {code : Code σ α β} {noexc : Bool} {ops : List (Op σ α)} {w : World σ α β}
    (h : history code noexc ops {} = .ok w) : ∀ r, refers code noexc ops r = (w.refs[r]?).map target := by
  have := agrees_history ops [] {} w ⟨rfl, fun r => by simp [refersRev]⟩ h
  rw [List.append_nil] at this
  exact this.2

/-! ## Calls -/

private theorem callMember_dead {code : Code σ α β} {i m : Nat} {a : α} {w : World σ α β}
    (h : (w.objects[i]?).join = none) : callMember code i m a w = .undefined := by
  unfold callMember
  rcases h' : w.objects[i]? with _ | _ | s
  · rfl
  · rfl
  · rw [h'] at h; cases h

private theorem callMember_live {code : Code σ α β} {i m : Nat} {a : α} {w : World σ α β} {s : σ}
    (h : (w.objects[i]?).join = some s) :
    callMember code i m a w =
      if failed (code.member m s a).1 = true ∧ code.memberNoexcept m = true then .terminated
      else .ok { w with
        objects := w.objects.set i (some (if code.memberConst m then s else (code.member m s a).2))
        calls := w.calls ++ [(.member i m, a, (code.member m s a).1)] } := by
  have h' : w.objects[i]? = some (some s) := by
    rcases h' : w.objects[i]? with _ | _ | s'
    · rw [h'] at h; cases h
    · rw [h'] at h; cases h
    · rw [h'] at h; cases h; rfl
  unfold callMember
  simp only [h']
  cases h1 : (code.member m s a).1 <;> cases h2 : code.memberNoexcept m <;> simp [failed]

private theorem callFree_eq (code : Code σ α β) (p : Nat) (a : α) (w : World σ α β) :
    callFree code p a w =
      if failed (code.free p a) = true ∧ code.freeNoexcept p = true then .terminated
      else .ok { w with calls := w.calls ++ [(.free p, a, code.free p a)] } := by
  unfold callFree
  cases h1 : code.free p a <;> cases h2 : code.freeNoexcept p <;> simp [failed]

private theorem guard_ends {code : Code σ α β} {noexc : Bool} {c : Callee} {a : α} {w : World σ α β} {x : Answer β}
    {inner : Result (World σ α β)} {w' : World σ α β} (ha : answer code w a c = some x)
    (hi : inner = if failed x = true ∧ quiet code c = true then .terminated else .ok w')
    (hc : Called code c a x w w') :
    CallEnds code noexc c a w (inner >>= leave noexc) := by
  unfold CallEnds
  rw [ha]
  have hl : lastAnswer w' = some x := by simp [lastAnswer, hc.calls]
  have hb : ∀ f : World σ α β → Result (World σ α β), ((.ok w' : Result _) >>= f) = f w' := fun _ => rfl
  have ht : ∀ f : World σ α β → Result (World σ α β), ((.terminated : Result (World σ α β)) >>= f) = .terminated :=
    fun _ => rfl
  subst hi
  cases x with
  | returned b =>
    simp only [failed, Bool.false_eq_true, false_and, if_false, hb]
    exact ⟨w', by simp [leave, hl], hc⟩
  | threw =>
    cases hq : quiet code c <;> cases noexc
    · simp only [failed, Bool.false_eq_true, and_false, or_self, if_false, hb]
      exact ⟨w', by simp [leave, hl], hc⟩
    · simp [failed, hb, leave, hl]
    · simp [failed, ht]
    · simp [failed, ht]

private theorem call_ends (code : Code σ α β) (noexc : Bool) (d : Data) (c : Callee) (a : α) (w : World σ α β)
    (hd : target d = .callee c) : CallEnds code noexc c a w (Function.call code noexc d a w) := by
  have free : ∀ p, c = .free p → CallEnds code noexc c a w (callFree code p a w >>= leave noexc) := by
    rintro p rfl
    refine guard_ends (x := code.free p a) rfl (callFree_eq code p a w) ⟨rfl, rfl, rfl, fun j => ?_⟩
    show (w.objects[j]?).join = ((w.objects[j]?).join).map _
    cases (w.objects[j]?).join <;> rfl
  have member : ∀ i m, c = .member i m →
      CallEnds code noexc c a w (callMember code i m a w >>= leave noexc) := by
    rintro i m rfl
    cases ho : (w.objects[i]?).join with
    | none =>
      have ha : answer code w a (.member i m) = none := by simp [answer, ho]
      unfold CallEnds
      rw [ha, callMember_dead ho]
      rfl
    | some s =>
      have ha : answer code w a (.member i m) = some (code.member m s a).1 := by simp [answer, ho]
      refine guard_ends ha (callMember_live ho) ⟨rfl, rfl, by simp, fun j => ?_⟩
      have hlt : i < w.objects.length := by
        rcases Nat.lt_or_ge i w.objects.length with h | h
        · exact h
        · rw [List.getElem?_eq_none h] at ho; cases ho
      show (((w.objects.set i _)[j]?).join) = _
      by_cases hj : i = j
      · subst hj
        rw [List.getElem?_set_self hlt, ho]
        cases hm : code.memberConst m <;> simp [after, hm]
      · rw [List.getElem?_set_ne hj]
        cases (w.objects[j]?).join <;> simp [after, hj]
  rcases d with (_ | p) | ⟨i, m⟩ | ⟨i, m⟩
  · cases hd
  · exact free p (by cases hd; rfl)
  · exact member i m (by cases hd; rfl)
  · exact member i m (by cases hd; rfl)

/-- **C74.** After any sequence of operations, calling a `function_ref` is calling what was last given to it, whatever
other `function_ref`s were made of it or assigned meanwhile: the function is called exactly once, with the argument, on
its object as it is now, its answer comes back, and nothing else changes. If the object is gone or there is no function,
the behaviour is undefined; an exception ends the program if the function or the type of the `function_ref` is
`noexcept`, else it comes through. -/
theorem C74_call (code : Code σ α β) (noexc : Bool) (ops : List (Op σ α)) (w : World σ α β)
    (h : history code noexc ops {} = .ok w) (r : Nat) (a : α) :
    match refers code noexc ops r with
    | none => step code noexc w (.call r a) = .undefined
    | some .nothing => step code noexc w (.call r a) = .undefined
    | some (.callee c) => CallEnds code noexc c a w (step code noexc w (.call r a)) := by
  rw [agrees h r]
  cases hd : w.refs[r]? with
  | none => simp [step, hd]
  | some d =>
    have hs : step code noexc w (.call r a) = Function.call code noexc d a w := by simp [step, hd]
    rw [hs]
    simp only [Option.map_some]
    cases ht : target d with
    | nothing =>
      rcases d with (_ | p) | ⟨i, m⟩ | ⟨i, m⟩
      · rfl
      · cases ht
      · cases ht
      · cases ht
    | callee c => exact call_ends code noexc d c a w ht

/-- **C74.** A `function_ref` made of an object that can only be read never changes it: the member function it calls is
`const`. -/
theorem C74_const (code : Code σ α β) (noexc : Bool) (w : World σ α β) (k : Class) (i m : Nat) :
    (construct code noexc w (.bound i .constLvalue m) ≠ .rejected → ∀ a j s, after code a (.member i m) j s = s) ∧
    (construct code noexc w (.object k i .constLvalue) ≠ .rejected → ¬ Plain code noexc k → k.call = some m →
      ∀ a j s, after code a (.member i m) j s = s) := by
  have key : code.memberConst m = true → ∀ a j s, after code a (.member i m) j s = s := by
    intro hm a j s
    simp [after, hm]
  refine ⟨fun h => key ?_, fun h hp hm => key ?_⟩
  · exact ((C74_accepted ..).mp h).2 rfl
  · rcases (C74_accepted ..).mp h with hp' | ⟨m', hm', hu⟩
    · exact absurd hp' hp
    · rw [hm] at hm'; cases hm'; exact hu.2 rfl

/-- **C74.** A copy refers to what its original referred to, and goes on doing so when another initialiser is assigned
to the original or its object changes. -/
theorem C74_copy (code : Code σ α β) (noexc : Bool) (ops later : List (Op σ α)) (w : World σ α β) (r : Nat) (c : Category)
    (h : history code noexc (ops ++ .make (.ref r c) :: later) {} = .ok w)
    (hl : ∀ s, .assign (made ops) s ∉ later) :
    ∃ d, (refers code noexc ops r = some d) ∧
      refers code noexc (ops ++ .make (.ref r c) :: later) (made ops) = some d := by
  rw [history_append] at h
  obtain ⟨w1, h1, h2⟩ := bind_ok h
  obtain ⟨w2, h2, h3⟩ := bind_ok (x := step code noexc w1 (.make (.ref r c))) h2
  have hmade : ∀ l : List (Op σ α), made l.reverse = made l := by
    have happ : ∀ l k : List (Op σ α), made (l ++ k) = made l + made k := by
      intro l k
      induction l with
      | nil => simp [made]
      | cons op l ih => cases op <;> simp [made, ih] <;> omega
    intro l
    induction l with
    | nil => rfl
    | cons op l ih =>
      rw [List.reverse_cons, happ, ih]
      cases op <;> simp [made]
  obtain ⟨d, hd, _⟩ := bind_ok (x := construct code noexc w1 (.ref r c)) h2
  rcases constructed code noexc w1 (.ref r c) with ⟨_, hc⟩ | ⟨_, _, hc⟩ | ⟨_, ⟨e, he⟩, _⟩
  · rw [hc] at hd; cases hd
  · rw [hc] at hd; cases hd
  · have hr : refers code noexc ops r = some (target e) := by rw [agrees h1 r, he]; rfl
    refine ⟨target e, hr, ?_⟩
    have key : ∀ l : List (Op σ α), (∀ s, .assign (made ops) s ∉ l) →
        refersRev code noexc (l ++ .make (.ref r c) :: ops.reverse) (made ops) = some (target e) ∧
        made ops < made (l ++ .make (.ref r c) :: ops.reverse) := by
      intro l
      induction l with
      | nil =>
        intro _
        refine ⟨?_, by simp [made, hmade]⟩
        show (if made ops = made ops.reverse then _ else _) = _
        rw [if_pos (hmade ops).symm]
        exact hr
      | cons op l ih =>
        intro hn
        obtain ⟨i1, i2⟩ := ih (fun s hs => hn s (List.mem_cons_of_mem _ hs))
        cases op with
        | make s =>
          refine ⟨?_, Nat.lt_succ_of_lt i2⟩
          show (if made ops = made (l ++ .make (.ref r c) :: ops.reverse) then _ else _) = _
          rw [if_neg (by omega)]
          exact i1
        | assign q s =>
          refine ⟨?_, i2⟩
          show (if _ then _ else _) = _
          rw [if_neg]
          · exact i1
          · rintro rfl
            exact hn s (List.mem_cons_self ..)
        | _ => exact ⟨i1, i2⟩
    unfold refers
    rw [List.reverse_append, List.reverse_cons, List.append_assoc]
    exact (key later.reverse (fun s hs => hl s (List.mem_reverse.mp hs))).1

/-! ## Examples -/

/-- Functions of a program: 0 adds one and is `noexcept`, 1 throws; member function 0 adds to the state of its object and
returns it, member function 1 only reads it. -/
private def sample : Code Nat Nat Nat where
  free p a := if p = 0 then .returned (a + 1) else .threw
  freeNoexcept p := p = 0
  member m s a := (.returned (s + a), if m = 0 then s + a else s)
  memberConst m := m ≠ 0
  memberNoexcept _ := false

/-- A closure with captures whose call operator is member function 0. -/
private def counter : Class := { call := some 0 }

/-- A closure without captures that may throw. -/
private def thrower : Class := { invoker := some 1, call := some 1 }

/-- A reference to an object, a copy of it, another initialiser for the first, another state for the object. -/
private def story : List (Op Nat Nat) :=
  [.create 10, .make (.object counter 0 .lvalue), .make (.ref 0 .lvalue), .assign 0 (.pointer (some 0)), .set 0 20]

/-- The world of `C74_call`, and the call through the copy: the object has its new state, and the argument is added. -/
example :
    history sample true story {} = .ok ⟨[some 20], [.pointer (some 0), .object 0 0], []⟩ ∧
    refers sample true story 0 = some (.callee (.free 0)) ∧
    refers sample true story 1 = some (.callee (.member 0 0)) ∧
    history sample true (story ++ [.call 1 5, .call 0 5]) {} =
      .ok ⟨[some 25], [.pointer (some 0), .object 0 0],
        [(.member 0 0, 5, .returned 25), (.free 0, 5, .returned 6)]⟩ := by
  decide

/-- The object is gone: undefined. A null pointer: undefined. -/
example :
    history sample true (story ++ [.destroy 0, .call 1 5]) {} = .undefined ∧
    history sample true [.make (.pointer none), .call 0 5] {} = .undefined := by
  decide

/-- An exception through a type that is not `noexcept` comes back to the caller; through one that is, it ends the
program. A closure that may throw is no plain function for the latter, so a temporary one is not taken. -/
example :
    history sample false [.make (.pointer (some 1)), .call 0 5] {} =
      .ok ⟨[], [.pointer (some 1)], [(.free 1, 5, .threw)]⟩ ∧
    history sample true [.make (.pointer (some 1))] {} = .rejected ∧
    history sample false [.create 1, .make (.object thrower 0 .rvalue)] {} =
      .ok ⟨[some 1], [.pointer (some 1)], []⟩ ∧
    history sample true [.create 1, .make (.object thrower 0 .rvalue)] {} = .rejected ∧
    history sample true [.create 1, .make (.object thrower 0 .lvalue)] {} =
      .ok ⟨[some 1], [.object 0 1], []⟩ := by
  decide

/-- `C74_accepted`: temporaries with state are refused, and what only a changeable object can do is refused for one that
can only be read. -/
example :
    ¬ Accepted sample true (.object counter 0 .rvalue) ∧ ¬ Accepted sample true (.object counter 0 .constLvalue) ∧
    Accepted sample true (.object counter 0 .lvalue) ∧ Accepted sample true (.bound 0 .constLvalue 1) ∧
    ¬ Accepted sample true (.bound 0 .constRvalue 1) ∧ ¬ Accepted sample true (.otherRef .lvalue) := by
  simp [Accepted, Plain, Usable, Temporary, ReadOnly, counter, sample]

/-- `C74_const`: a reader of an object that can only be read. -/
example :
    construct sample true ⟨[some 7], [], []⟩ (.bound 0 .constLvalue 1) = .ok (.constObject 0 1) ∧
    construct sample true ⟨[some 7], [], []⟩ (.object { call := some 1 } 0 .constLvalue) = .ok (.constObject 0 1) := by
  decide

/-- `C74_copy`: the copy in the story. -/
example : ∃ d, refers sample true [.create 10, .make (.object counter 0 .lvalue)] 0 = some d ∧
    refers sample true story 1 = some d :=
  C74_copy sample true [.create 10, .make (.object counter 0 .lvalue)] [.assign 0 (.pointer (some 0)), .set 0 20]
    ⟨[some 20], [.pointer (some 0), .object 0 0], []⟩ 0 .lvalue (by decide) (by simp [made])

end Verif.Props
