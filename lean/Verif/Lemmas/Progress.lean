import Verif.Lemmas.Check
/-! # How the section levels encode the progress through the leaves -/
namespace Verif.Run
open Spec

/-- Number of direct sections of a block. -/
def nsec : Prog → Nat
  | .done => 0
  | .stmt _ k => nsec k
  | .sec _ _ _ k => 1 + nsec k
  | .capture _ k => nsec k
  | .block b k => nsec b + nsec k
  | .tryCatch _ _ _ k => nsec k
  | .nested _ _ _ k => nsec k
  | .guard _ k => nsec k

/-- Previous section id and deeper levels, after `n` passes through a block whose first section has
number `c + 1`. -/
def enc : Prog → Nat → Nat → Nat × List Level
  | .done, c, _ => (c, [])
  | .stmt _ k, c, n => enc k c n
  | .sec _ _ b k, c, n =>
    if n = 0 then (c, [])
    else if n < max 1 (leaves b) then
      (c + 1, { cur := 0, prev := (enc b 0 n).1, max := nsec b } :: (enc b 0 n).2)
    else enc k (c + 1) (n - max 1 (leaves b))
  | .capture _ k, c, n => enc k c n
  | .block b k, c, n =>
    if n < leaves b then enc b c n else enc k (c + nsec b) (n - leaves b)
  | .tryCatch _ _ _ k, c, n => enc k c n
  | .nested _ _ _ k, c, n => enc k c n
  | .guard _ k, c, n => enc k c n

theorem leaves_pos (K : Prog) : leaves K = 0 ↔ nsec K = 0 := by
  induction K with
  | done => simp [leaves, nsec]
  | stmt m k ih => simpa [leaves, nsec] using ih
  | sec id loc b k ihb ihk => simp only [leaves, nsec]; omega
  | capture caps k ih => simpa [leaves, nsec] using ih
  | block b k ihb ihk => simp only [leaves, nsec]; omega
  | tryCatch ty b h k _ _ ih => simpa [leaves, nsec] using ih
  | nested loc o a k _ ih => simpa [leaves, nsec] using ih
  | guard cl k _ ih => simpa [leaves, nsec] using ih

theorem enc_zero (K : Prog) (c : Nat) : enc K c 0 = (c, []) := by
  induction K generalizing c with
  | done => rfl
  | stmt m k ih => exact ih c
  | sec id loc b k ihb ihk => simp [enc]
  | capture caps k ih => exact ih c
  | block b k ihb ihk =>
    simp only [enc]
    split
    · exact ihb c
    · have : leaves b = 0 := by omega
      rw [(leaves_pos b).mp this]
      simpa using ihk c
  | tryCatch ty b h k _ _ ih => exact ih c
  | nested loc o a k _ ih => exact ih c
  | guard cl k _ ih => exact ih c

theorem enc_full' (K : Prog) (c n : Nat) (hn : n = leaves K) : enc K c n = (c + nsec K, []) := by
  induction K generalizing c n with
  | done => rfl
  | stmt m k ih => exact ih c n hn
  | sec id loc b k ihb ihk =>
    simp only [leaves] at hn
    simp only [enc, nsec]
    have h1 : ¬ (n = 0) := by omega
    have h2 : ¬ (n < max 1 (leaves b)) := by omega
    rw [if_neg h1, if_neg h2, ihk _ _ (by omega), Nat.add_assoc]
  | capture caps k ih => exact ih c n hn
  | block b k ihb ihk =>
    simp only [leaves] at hn
    simp only [enc, nsec]
    have h2 : ¬ (n < leaves b) := by omega
    rw [if_neg h2, ihk _ _ (by omega), Nat.add_assoc]
  | tryCatch ty b h k _ _ ih => exact ih c n hn
  | nested loc o a k _ ih => exact ih c n hn
  | guard cl k _ ih => exact ih c n hn

theorem enc_full (K : Prog) (c : Nat) : enc K c (leaves K) = (c + nsec K, []) :=
  enc_full' K c _ rfl

theorem enc_ge (K : Prog) (c n : Nat) :
    c ≤ (enc K c n).1 ∧ ((enc K c n).2 ≠ [] → c < (enc K c n).1) := by
  induction K generalizing c n with
  | done => simp [enc]
  | stmt m k ih => exact ih c n
  | sec id loc b k ihb ihk =>
    simp only [enc]
    split
    · simp
    · split
      · simp
      · have := ihk (c + 1) (n - max 1 (leaves b))
        exact ⟨by omega, fun _ => by omega⟩
  | capture caps k ih => exact ih c n
  | block b k ihb ihk =>
    simp only [enc]
    split
    · exact ihb c n
    · have := ihk (c + nsec b) (n - leaves b)
      exact ⟨by omega, fun h => by have := this.2 h; omega⟩
  | tryCatch ty b h k _ _ ih => exact ih c n
  | nested loc o a k _ ih => exact ih c n
  | guard cl k _ ih => exact ih c n

theorem enc_le (K : Prog) (c n : Nat) : (enc K c n).1 ≤ c + nsec K := by
  induction K generalizing c n with
  | done => simp [enc, nsec]
  | stmt m k ih => exact ih c n
  | sec id loc b k ihb ihk =>
    simp only [enc, nsec]
    split
    · omega
    · split
      · simp only; omega
      · have := ihk (c + 1) (n - max 1 (leaves b)); omega
  | capture caps k ih => exact ih c n
  | block b k ihb ihk =>
    simp only [enc, nsec]
    split
    · have := ihb c n; omega
    · have := ihk (c + nsec b) (n - leaves b); omega
  | tryCatch ty b h k _ _ ih => exact ih c n
  | nested loc o a k _ ih => exact ih c n
  | guard cl k _ ih => exact ih c n

/-- Before the last leaf, something is visibly unfinished. -/
theorem enc_unfinished (K : Prog) (c n : Nat) (h : n < leaves K) :
    (enc K c n).1 ≠ c + nsec K ∨ ∃ l ∈ (enc K c n).2, l.prev ≠ l.max := by
  induction K generalizing c n with
  | done => simp [leaves] at h
  | stmt m k ih => exact ih c n h
  | sec id loc b k ihb ihk =>
    simp only [enc, nsec]
    simp only [leaves] at h
    split
    · left; simp only; omega
    · split
      · right
        rename_i h0 h1
        have hb : n < leaves b := by omega
        rcases ihb 0 n hb with h' | ⟨l, hl, h'⟩
        · exact ⟨_, List.mem_cons_self .., by simpa using h'⟩
        · exact ⟨l, List.mem_cons_of_mem _ hl, h'⟩
      · rcases ihk (c + 1) (n - max 1 (leaves b)) (by omega) with h' | h'
        · left; omega
        · exact Or.inr h'
  | capture caps k ih => exact ih c n h
  | block b k ihb ihk =>
    simp only [enc, nsec]
    simp only [leaves] at h
    split
    · rename_i hb
      rcases ihb c n hb with h' | h'
      · left
        have := enc_le b c n
        omega
      · exact Or.inr h'
    · rcases ihk (c + nsec b) (n - leaves b) (by omega) with h' | h'
      · left; omega
      · exact Or.inr h'
  | tryCatch ty b hd k _ _ ih => exact ih c n h
  | nested loc o a k _ ih => exact ih c n h
  | guard cl k _ ih => exact ih c n h

/-- The levels at depth `d`: those above, the current one, those below. A level that does not exist
yet is empty. -/
def Shape (d : Nat) (levels anc : List Level) (lv : Level) (inner : List Level) : Prop :=
  anc.length = d ∧ (levels = anc ++ lv :: inner ∨ (levels = anc ∧ lv = {} ∧ inner = []))

/-- Forget how far the current pass has gone in a level. -/
def zeroCur (l : Level) : Level := { l with cur := 0 }

/-- No section numbered in `(c, c + n]` would be entered. -/
def Untargeted (leaf : Bool) (lv : Level) (inner : List Level) (n : Nat) : Prop :=
  leaf = true ∨ ∀ i, lv.cur < i → i ≤ lv.cur + n → i ≠ lv.prev + 1 ∧ ¬ (i = lv.prev ∧ inner ≠ [])

/-! ## The progress depends on the sections only -/

/-- `nsec`, from the sections. -/
def Spec.Sections.count : Sections → Nat
  | .none => 0
  | .one _ _ rest => 1 + rest.count

/-- `leaves`, from the sections. -/
def Spec.Sections.leaves : Sections → Nat
  | .none => 0
  | .one _ inner rest => max 1 inner.leaves + rest.leaves

/-- `enc`, from the sections. -/
def Spec.Sections.enc : Sections → Nat → Nat → Nat × List Level
  | .none, c, _ => (c, [])
  | .one _ inner rest, c, n =>
    if n = 0 then (c, [])
    else if n < max 1 inner.leaves then
      (c + 1, { cur := 0, prev := (inner.enc 0 n).1, max := inner.count } :: (inner.enc 0 n).2)
    else rest.enc (c + 1) (n - max 1 inner.leaves)

theorem Spec.Sections.count_append (a b : Sections) : (a.append b).count = a.count + b.count := by
  induction a with
  | none => simp [Sections.append, Sections.count]
  | one id x r _ ih => simp [Sections.append, Sections.count, ih]; omega

theorem Spec.Sections.leaves_append (a b : Sections) : (a.append b).leaves = a.leaves + b.leaves := by
  induction a with
  | none => simp [Sections.append, Sections.leaves]
  | one id x r _ ih => simp [Sections.append, Sections.leaves, ih]; omega

theorem nsec_sections (K : Prog) : nsec K = (sections K).count := by
  induction K <;> simp_all [nsec, sections, Sections.count, Sections.count_append] <;> omega

theorem leaves_sections (K : Prog) : leaves K = (sections K).leaves := by
  induction K <;> simp_all [leaves, sections, Sections.leaves, Sections.leaves_append]

theorem Spec.Sections.enc_append (a b : Sections) : ∀ c n, (a.append b).enc c n =
    if n < a.leaves then a.enc c n else b.enc (c + a.count) (n - a.leaves) := by
  induction a with
  | none => intro c n; simp [Sections.append, Sections.leaves, Sections.count]
  | one id x r _ ih =>
    intro c n
    have hl : (Sections.one id x r).leaves = max 1 x.leaves + r.leaves := rfl
    have hc : (Sections.one id x r).count = 1 + r.count := rfl
    rw [Sections.append, Sections.enc, Sections.enc]
    by_cases h0 : n = 0
    · rw [if_pos h0, if_pos (by omega), if_pos h0]
    · rw [if_neg h0, if_neg h0]
      by_cases h1 : n < max 1 x.leaves
      · rw [if_pos h1, if_pos (by omega), if_pos h1]
      · rw [if_neg h1, if_neg h1, ih, hl, hc]
        by_cases h2 : n - max 1 x.leaves < r.leaves
        · rw [if_pos h2, if_pos (by omega)]
        · rw [if_neg h2, if_neg (by omega), show c + 1 + r.count = c + (1 + r.count) by omega,
            show n - max 1 x.leaves - r.leaves = n - (max 1 x.leaves + r.leaves) by omega]

theorem enc_sections (K : Prog) : ∀ c n, enc K c n = (sections K).enc c n := by
  induction K with
  | done => intro c n; rfl
  | stmt m k ih => exact ih
  | sec id loc b k ihb ihk =>
    intro c n
    simp only [enc, sections, Sections.enc, ihb, ihk, nsec_sections, leaves_sections]
  | capture l k ih => exact ih
  | block b k ihb ihk =>
    intro c n
    simp only [enc, sections, Sections.enc_append, ihb, ihk, nsec_sections, leaves_sections]
  | tryCatch t b h k _ _ ih => exact ih
  | nested l o a k _ ih => exact ih
  | guard c k _ ih => exact ih

theorem same_leaves {p q : Prog} (h : sections p = sections q) : leaves p = leaves q := by
  rw [leaves_sections, leaves_sections, h]

theorem same_nsec {p q : Prog} (h : sections p = sections q) : nsec p = nsec q := by
  rw [nsec_sections, nsec_sections, h]

theorem same_enc {p q : Prog} (h : sections p = sections q) (c n : Nat) : enc p c n = enc q c n := by
  rw [enc_sections, enc_sections, h]

theorem same_count {p q : Prog} (h : sections p = sections q) : passCount p = passCount q := by
  unfold passCount; rw [same_leaves h]

/-! ## Functions that do the same in each execution -/

theorem no_zero (b : Body) : b.no 0 = b.first := rfl

theorem no_one (p : Prog) (n : Nat) : (p : Body).no n = p := by
  cases n with
  | zero => rfl
  | succ n => simp [Body.no]

theorem always_one {P : Prog → Prop} {p : Prog} (h : P p) : Always P (p : Body) := fun n => by rw [no_one]; exact h

theorem alike_one (p : Prog) : Alike (p : Body) := always_one rfl

theorem always_iff {P : Prog → Prop} {b : Body} : Always P b ↔ P b.first ∧ ∀ p ∈ b.later, P p := by
  constructor
  · intro h
    refine ⟨h 0, fun p hp => ?_⟩
    obtain ⟨i, hi⟩ := List.getElem?_of_mem hp
    have := h (i + 1)
    simp only [Body.no, List.getElem?_cons_succ, hi, Option.getD_some] at this
    exact this
  · rintro ⟨h1, h2⟩ n
    cases n with
    | zero => exact h1
    | succ n =>
      simp only [Body.no, List.getElem?_cons_succ]
      cases hx : b.later[n]? with
      | some p => exact h2 p (List.mem_of_getElem? hx)
      | none =>
        simp only [Option.getD_none]
        cases hl : b.later with
        | nil => exact h1
        | cons p l =>
          rw [List.getLastD_cons]
          exact h2 _ (by rw [hl]; exact List.getLastD_mem_cons ..)

end Verif.Run
