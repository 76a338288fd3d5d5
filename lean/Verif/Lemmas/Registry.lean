import Verif.Spec.Registry
/-!
# Lemmas about the registry
-/
namespace Verif.Reg
open Verif.Reg.Spec

theorem makeFullName_eq [Run.MessageLimit] (maxName : Nat) (id : Filter.TestId) :
    Filter.makeFullName maxName id = if (fullName id).length ≤ maxName then fullName id else [] := by
  unfold Filter.makeFullName fullName
  cases id.type with
  | nil => rfl
  | cons c t => rfl

/-- The test a predicate picks. -/
def picks (pred : Filter.TestId → Outcome Bool) (c : Case) : Bool := decide (pred c.test.id = .ok true)

/-- The registry after a run: the selected tests get the state of their result. -/
def settled (sel : Case → Bool) : List Case → List Run.TS → List Case
  | [], _ => []
  | c :: cs, rs =>
    if sel c then
      match rs with
      | r :: rs => { c with state := r.state } :: settled sel cs rs
      | [] => c :: settled sel cs []
    else c :: settled sel cs rs

theorem runEach_ok [Run.MessageLimit] {lim : Limits} {fuel : Nat} {pred : Filter.TestId → Outcome Bool} :
    ∀ {cs : List Case} {acc acc' : Acc}, runEach lim fuel pred cs acc = some (.ok acc') →
    ∃ rs : List Run.TS, (∀ c ∈ cs, ∃ b, pred c.test.id = .ok b) ∧
      (cs.filter (picks pred)).map (fun c => Run.run lim.cfg fuel c.test) =
        rs.map (fun r => some (.ok r)) ∧
      acc'.log = acc.log ++ rs.flatMap (·.log) ∧
      acc'.totals = rs.foldl Totals.add acc.totals ∧
      acc'.cases = acc.cases ++ settled (picks pred) cs rs := by
  intro cs
  induction cs with
  | nil =>
    intro acc acc' h
    cases h
    exact ⟨[], by simp, rfl, by simp, rfl, by simp [settled]⟩
  | cons c cs ih =>
    intro acc acc' h
    rw [runEach] at h
    cases hp : pred c.test.id with
    | abort => rw [hp] at h; cases h
    | ub => rw [hp] at h; cases h
    | ok b =>
      rw [hp] at h
      cases b with
      | false =>
        have hpk : picks pred c = false := by simp [picks, hp]
        obtain ⟨rs, h1, h2, h3, h4, h5⟩ := ih h
        refine ⟨rs, ?_, ?_, h3, h4, ?_⟩
        · intro d hd
          rcases List.mem_cons.mp hd with rfl | hd
          · exact ⟨_, hp⟩
          · exact h1 d hd
        · rw [List.filter_cons, hpk]; exact h2
        · rw [h5]; simp [settled, hpk]
      | true =>
        have hpk : picks pred c = true := by simp [picks, hp]
        dsimp only at h
        cases hr : Run.run lim.cfg fuel c.test with
        | none => rw [hr] at h; cases h
        | some o =>
          rw [hr] at h
          cases o with
          | abort => cases h
          | ub => cases h
          | ok s =>
            obtain ⟨rs, h1, h2, h3, h4, h5⟩ := ih h
            refine ⟨s :: rs, ?_, ?_, ?_, h4, ?_⟩
            · intro d hd
              rcases List.mem_cons.mp hd with rfl | hd
              · exact ⟨_, hp⟩
              · exact h1 d hd
            · rw [List.filter_cons, hpk]
              simp only [if_true, List.map_cons, hr, h2]
            · rw [h3]; simp
            · rw [h5]; simp [settled, hpk]

theorem runEach_of [Run.MessageLimit] {lim : Limits} {fuel : Nat} {pred : Filter.TestId → Outcome Bool} :
    ∀ {cs : List Case} {acc : Acc} {rs : List Run.TS}, (∀ c ∈ cs, ∃ b, pred c.test.id = .ok b) →
      (cs.filter (picks pred)).map (fun c => Run.run lim.cfg fuel c.test) =
        rs.map (fun r => some (.ok r)) →
    ∃ acc', runEach lim fuel pred cs acc = some (.ok acc') := by
  intro cs
  induction cs with
  | nil => intro acc rs _ _; exact ⟨acc, rfl⟩
  | cons c cs ih =>
    intro acc rs h1 h2
    obtain ⟨b, hp⟩ := h1 c (by simp)
    have h1' : ∀ d ∈ cs, ∃ b, pred d.test.id = .ok b := fun d hd => h1 d (List.mem_cons_of_mem _ hd)
    rw [runEach, hp]
    cases b with
    | false =>
      have hpk : picks pred c = false := by simp [picks, hp]
      rw [List.filter_cons, hpk] at h2
      exact ih h1' h2
    | true =>
      have hpk : picks pred c = true := by simp [picks, hp]
      rw [List.filter_cons, hpk] at h2
      cases rs with
      | nil => simp at h2
      | cons r rs =>
        simp only [if_true, List.map_cons, List.cons.injEq] at h2
        rw [h2.1]
        exact ih h1' h2.2

theorem add_fields [Run.MessageLimit] (t : Totals) (s : Run.TS) : t.add s =
    { success := t.success && decide (s.state ≠ .failed)
      run := t.run + 1
      fail := t.fail + if s.state = .failed then 1 else 0
      allowedFail := t.allowedFail + if s.state = .allowedFail then 1 else 0
      skip := t.skip + if s.state = .skipped then 1 else 0
      asserts := t.asserts + s.asserts
      failures := t.failures + s.failures
      allowed := t.allowed + s.allowed } := by
  unfold Totals.add
  cases s.state <;> simp [Totals.addState]

theorem totals_eq [Run.MessageLimit] : ∀ (rs : List Run.TS) (t : Totals), rs.foldl Totals.add t =
    { success := t.success && rs.all fun r => decide (r.state ≠ .failed)
      run := t.run + rs.length
      fail := t.fail + count .failed rs
      allowedFail := t.allowedFail + count .allowedFail rs
      skip := t.skip + count .skipped rs
      asserts := t.asserts + total (·.asserts) rs
      failures := t.failures + total (·.failures) rs
      allowed := t.allowed + total (·.allowed) rs } := by
  intro rs
  induction rs with
  | nil => intro t; simp [count, total]
  | cons r rs ih =>
    intro t
    rw [List.foldl_cons, ih, add_fields]
    have hc : ∀ st, count st (r :: rs) = (if r.state = st then 1 else 0) + count st rs := by
      intro st
      unfold count
      rw [List.filter_cons]
      by_cases h : r.state = st
      · simp [h, Nat.add_comm]
      · simp [h]
    have ht : ∀ f, total f (r :: rs) = f r + total f rs := by intro f; rfl
    rw [hc, hc, hc, ht, ht, ht]
    simp only [List.all_cons, List.length_cons, Bool.and_assoc, Nat.add_assoc, Nat.add_comm 1]

theorem count_partition [Run.MessageLimit] : ∀ (rs : List Run.TS), (∀ r ∈ rs, r.state ≠ .notRun) →
    rs.length = count .success rs + count .failed rs + count .allowedFail rs + count .skipped rs := by
  intro rs
  induction rs with
  | nil => intro _; rfl
  | cons r rs ih =>
    intro h
    have := ih fun x hx => h x (List.mem_cons_of_mem _ hx)
    have hr := h r (by simp)
    unfold count at this ⊢
    simp only [List.filter_cons, List.length_cons]
    cases hs : r.state <;> simp [hs] at hr ⊢ <;> omega

theorem listLoop_of [Run.MessageLimit] {pred : Filter.TestId → Outcome Bool} : ∀ {cs : List Case},
    (∀ c ∈ cs, ∃ b, pred c.test.id = .ok b) →
    listLoop pred cs = .ok ((cs.filter (picks pred)).map fun c => .listed c.test.id) := by
  intro cs
  induction cs with
  | nil => intro _; rfl
  | cons c cs ih =>
    intro h
    obtain ⟨b, hp⟩ := h c (by simp)
    rw [listLoop, hp, ih fun d hd => h d (List.mem_cons_of_mem _ hd)]
    cases b with
    | false =>
      have hpk : picks pred c = false := by simp [picks, hp]
      simp only [Outcome.bind_ok, Outcome.pure_eq, Bool.false_eq_true, if_false, List.filter_cons, hpk]
    | true =>
      have hpk : picks pred c = true := by simp [picks, hp]
      simp only [Outcome.bind_ok, Outcome.pure_eq, if_true, List.filter_cons, hpk, List.map_cons]

end Verif.Reg
