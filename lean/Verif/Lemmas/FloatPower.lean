import Verif.Lemmas.FloatSum
/-!
# Powers of two
-/
namespace Verif.Float
open Verif

theorem bind_eq_ok {α β : Type} {x : Outcome α} {f : α → Outcome β} {b : β} :
    x >>= f = .ok b → ∃ a, x = .ok a ∧ f a = .ok b := by
  intro h
  cases x with
  | ok a => exact ⟨a, rfl, h⟩
  | abort => cases h
  | ub => cases h

theorem bind_same {α β : Type} {x : Outcome α} {f g : α → Outcome β} (h : ∀ a, x = .ok a → f a = g a) :
    x >>= f = x >>= g := by
  cases x with
  | ok a => exact h a rfl
  | _ => rfl

theorem scaleUp_lt : ∀ (n d : ℕ) (e : ℤ) (r : Fixed), d < 2 ^ 64 → scaleUp id n d e = .ok r → r.digits < 2 ^ 64
  | 0, _, _, _, _, h => by cases h
  | n + 1, d, e, r, hd, h => by
    rw [scaleUp] at h
    split at h
    · rename_i hc
      have hcap := cap_eq
      unfold int32 at h
      split at h
      · exact scaleUp_lt n _ _ r (by simp only [id]; omega) h
      · cases h
    · cases h; exact hd

theorem make_lt {d : ℕ} {e : ℤ} {r : Fixed} (hd : d < 2 ^ 64) (h : make id d e = .ok r) : r.digits < 2 ^ 64 := by
  unfold make at h
  split at h
  · exact scaleUp_lt _ _ _ _ hd h
  · cases h; decide

theorem mul_stores {w : ℕ → ℕ} (hw : Stores w) {a b : Fixed} (ha : a.digits < 2 ^ 64) (hb : b.digits < 2 ^ 64) :
    mul w a b = mul id a b := by
  have h1 := mulDigits_spec hw ha hb
  have h2 := mulDigits_spec stores_id ha hb
  unfold mul
  rw [h1.1, h2.1]
  congr 1
  funext e
  congr 1
  funext e'
  exact make_stores hw stores_id (Nat.lt_trans h2.2 (by decide)) ..

theorem mul_lt {a b r : Fixed} (ha : a.digits < 2 ^ 64) (hb : b.digits < 2 ^ 64) (h : mul id a b = .ok r) :
    r.digits < 2 ^ 64 := by
  have h2 := mulDigits_spec stores_id ha hb
  unfold mul at h
  rw [h2.1] at h
  obtain ⟨e, _, h⟩ := bind_eq_ok h
  obtain ⟨e', _, h⟩ := bind_eq_ok h
  exact make_lt (Nat.lt_trans h2.2 (by decide)) h

theorem powerLoop_stores {w : ℕ → ℕ} (hw : Stores w) (x : ℕ) : ∀ (ts : List (ℕ × ℤ)) (i : ℕ) (p : Fixed),
    (∀ t ∈ ts, t.1 < 2 ^ 64) → p.digits < 2 ^ 64 → powerLoop w x ts i p = powerLoop id x ts i p := by
  intro ts
  induction ts with
  | nil => intro i p _ _; rfl
  | cons t ts ih =>
    intro i p ht hp
    have ht1 := ht t (List.mem_cons_self ..)
    rw [powerLoop, powerLoop]
    split
    · rw [make_stores hw stores_id ht1]
      apply bind_same
      intro y hy
      have hy := make_lt ht1 hy
      rw [mul_stores hw hp hy]
      apply bind_same
      intro z hz
      exact ih _ _ (fun t h => ht t (List.mem_cons_of_mem _ h)) (mul_lt hp hy hz)
    · exact ih _ _ (fun t h => ht t (List.mem_cons_of_mem _ h)) hp

/-! ### All powers of two, by computation

The tree of all products is computed by the kernel. `force` makes it compute a number before it goes on. -/

/-- `f n`, after `n` has been computed. -/
def force {α : Type} (n : ℕ) (f : ℕ → α) : α :=
  match n with
  | 0 => f 0
  | k + 1 => f (k + 1)

theorem force_eq {α : Type} (n : ℕ) (f : ℕ → α) : force n f = f n := by cases n <;> rfl

/-- `f e`, after `e` has been computed. -/
def forceInt {α : Type} (e : ℤ) (f : ℤ → α) : α :=
  match e with
  | .ofNat n => force n fun n => f (.ofNat n)
  | .negSucc n => force n fun n => f (.negSucc n)

theorem forceInt_eq {α : Type} (e : ℤ) (f : ℤ → α) : forceInt e f = f e := by
  cases e <;> simp only [forceInt, force_eq]

/-- `p` is of moderate size and off by at most `2340 / 10 ^ 20` of `y` (or `1 / y`). -/
def nearOk (inverse : Bool) (y : ℕ) (p : Fixed) : Bool :=
  decide (cap ≤ p.digits) && decide (p.digits + 5 < 2 ^ 64) && decide (-330 ≤ p.exponent) &&
    decide (p.exponent ≤ 310) &&
  match inverse, p.exponent with
  | true, .ofNat _ => false
  | true, .negSucc n => force (10 ^ (n + 1)) fun t => decide (10 ^ 20 * dist (p.digits * y) t ≤ 2340 * t)
  | false, .negSucc n => force (y * 10 ^ (n + 1)) fun t => decide (10 ^ 20 * dist p.digits t ≤ 2340 * t)
  | false, .ofNat n => decide (10 ^ 20 * dist (p.digits * 10 ^ n) y ≤ 2340 * y)

/-- The products of `p` and some of the numbers in the table, all compared with the power of two that they
stand for. -/
def treeOk (inverse : Bool) : List (ℕ × ℤ) → ℕ → ℕ → Fixed → Bool
  | [], _, y, p => nearOk inverse y p
  | t :: ts, i, y, p =>
    treeOk inverse ts (i + 1) y p &&
    match make id t.1 t.2 with
    | .ok x =>
      match mul id p x with
      | .ok ⟨d, e⟩ => force d fun d => forceInt e fun e => force (y * 2 ^ 2 ^ i) fun y =>
          treeOk inverse ts (i + 1) y ⟨d, e⟩
      | _ => false
    | _ => false

set_option maxRecDepth 20000 in
theorem powers32 : treeOk false (mulTable.take 7) 0 1 ⟨10 ^ 19, -19⟩ = true := by decide +kernel
set_option maxRecDepth 20000 in
theorem powers32_inverse : treeOk true (divTable.take 7) 0 1 ⟨10 ^ 19, -19⟩ = true := by decide +kernel
set_option maxRecDepth 20000 in
theorem powers64 : treeOk false (mulTable.take 10) 0 1 ⟨10 ^ 19, -19⟩ = true := by decide +kernel
set_option maxRecDepth 20000 in
theorem powers64_inverse : treeOk true (divTable.take 10) 0 1 ⟨10 ^ 19, -19⟩ = true := by decide +kernel

theorem treeOk_spec {inverse : Bool} {x : ℕ} : ∀ (ts : List (ℕ × ℤ)) (i y : ℕ) (p : Fixed),
    treeOk inverse ts i y p = true → y = 2 ^ (x % 2 ^ i) →
    ∃ r, powerLoop id x ts i p = .ok r ∧ nearOk inverse (2 ^ (x % 2 ^ (i + ts.length))) r = true := by
  intro ts
  induction ts with
  | nil => rintro i y p h rfl; exact ⟨p, rfl, h⟩
  | cons t ts ih =>
    intro i y p h hy
    have hmod : x % 2 ^ (i + 1) = x % 2 ^ i + 2 ^ i * (x / 2 ^ i % 2) := Nat.mod_pow_succ
    have hbit := Nat.testBit_eq_decide_div_mod_eq (x := x) (i := i)
    have hlen : i + (t :: ts).length = i + 1 + ts.length := by simp; omega
    rw [hlen, powerLoop, hbit]
    rw [treeOk, Bool.and_eq_true] at h
    by_cases hb : x / 2 ^ i % 2 = 1
    · obtain ⟨_, h⟩ := h
      cases hm : make id t.1 t.2 with
      | abort => rw [hm] at h; cases h
      | ub => rw [hm] at h; cases h
      | ok z =>
        rw [hm] at h
        cases hq : mul id p z with
        | abort => simp only [hq] at h; cases h
        | ub => simp only [hq] at h; cases h
        | ok q =>
          obtain ⟨d, e⟩ := q
          simp only [hq, force_eq, forceInt_eq] at h
          obtain ⟨r, h1, h2⟩ := ih _ _ _ h (by rw [hy, hmod, hb, Nat.mul_one, Nat.pow_add])
          refine ⟨r, ?_, h2⟩
          rw [hb, if_pos (by simp), Outcome.bind_ok, hq, Outcome.bind_ok]
          exact h1
    · obtain ⟨r, h1, h2⟩ := ih _ _ _ h.1 (by
        rw [hy, hmod, show x / 2 ^ i % 2 = 0 by omega, Nat.mul_zero, Nat.add_zero])
      refine ⟨r, ?_, h2⟩
      rw [decide_eq_false hb, if_neg (by simp)]
      exact h1

/-- The relative error of a power of two. -/
abbrev powerError : ℚ := 2340 / 10 ^ 20

/-- `y`, or its inverse. -/
def target (inverse : Bool) (y : ℚ) : ℚ := if inverse then 1 / y else y

theorem close_of_nat {a b : ℕ} {A v T : ℚ} (h : 10 ^ 20 * dist a b ≤ 2340 * b) (hA : 0 < A)
    (ha : (a : ℚ) = v * A) (hb : (b : ℚ) = T * A) : |v - T| ≤ powerError * T := by
  have h := (Nat.cast_le (α := ℚ)).2 h
  push_cast [dist_abs] at h
  rw [ha, hb, ← sub_mul, abs_mul, abs_of_pos hA] at h
  unfold powerError
  have h : (100000000000000000000 * |v - T|) * A ≤ (2340 * T) * A := by
    linarith
  have := le_of_mul_le_mul_right h hA
  rw [div_mul_eq_mul_div, le_div_iff₀ (by positivity)]
  linarith

theorem nearOk_spec {inverse : Bool} {y : ℕ} {p : Fixed} (hy : 0 < y) (h : nearOk inverse y p = true) :
    Normal (-330) 310 p ∧ |val p - target inverse y| ≤ powerError * target inverse y := by
  obtain ⟨d, e⟩ := p
  have hyq : (0 : ℚ) < y := by exact_mod_cast hy
  unfold nearOk at h
  simp only [Bool.and_eq_true, decide_eq_true_eq] at h
  obtain ⟨⟨⟨⟨h1, h2⟩, h3⟩, h4⟩, h⟩ := h
  refine ⟨⟨h1, h2, h3, h4⟩, ?_⟩
  unfold val target
  cases inverse <;> cases e with
  | ofNat n =>
    first
    | cases h
    | simp only [decide_eq_true_eq] at h
      refine close_of_nat (A := 1) h one_pos ?_ ?_
      · push_cast; rw [mul_one]; simp
      · simp
  | negSucc n =>
    simp only [force_eq, decide_eq_true_eq] at h
    have hz : (10 : ℚ) ^ (Int.negSucc n) = 1 / 10 ^ (n + 1) := by rw [zpow_negSucc, one_div]
    rw [hz]
    first
    | refine close_of_nat (A := y * 10 ^ (n + 1)) h (by positivity) ?_ ?_
      · push_cast; field_simp
      · push_cast; simp; field_simp
    | refine close_of_nat (A := 10 ^ (n + 1)) h (by positivity) ?_ ?_
      · field_simp
      · push_cast; simp

/-- The power of two for `x`. -/
theorem power_all {inverse : Bool} {table : List (ℕ × ℤ)} {x : ℕ} (ht : ∀ t ∈ table, t.1 < 2 ^ 64)
    (h : treeOk inverse table 0 1 ⟨10 ^ 19, -19⟩ = true) (hx : x < 2 ^ table.length) :
    ∃ r, (∀ w, Stores w → (do powerLoop w x table 0 (← make w 1 0)) = .ok r) ∧ Normal (-330) 310 r ∧
      |val r - target inverse (2 ^ x)| ≤ powerError * target inverse (2 ^ x) := by
  obtain ⟨r, h1, h2⟩ := treeOk_spec (x := x) table 0 1 _ h (by rw [Nat.pow_zero, Nat.mod_one, Nat.pow_zero])
  rw [Nat.zero_add, Nat.mod_eq_of_lt hx] at h2
  obtain ⟨h3, h4⟩ := nearOk_spec (Nat.pow_pos (by decide)) h2
  push_cast at h4
  refine ⟨r, ?_, h3, h4⟩
  intro w hw
  rw [make_stores hw stores_id (by decide), show make id 1 0 = .ok ⟨10 ^ 19, -19⟩ by decide +kernel, Outcome.bind_ok,
    powerLoop_stores hw x table 0 _ ht (by decide), h1]

end Verif.Float
