import Verif.Model.TypeName
import Verif.Props.Expression
/-!
# C65: the names of types
-/
namespace Verif.Props
open Verif.TypeName

/-- The first occurrence of a pattern whose first character does not come again in it. -/
private theorem findAt_first {a : Char} {as : Text} (h : a ∉ as) : ∀ (x rest : Text), ¬ a :: as <:+: x →
    Util.findAt (a :: as) (x ++ (a :: as) ++ rest) = some x.length := by
  intro x rest
  induction x with
  | nil =>
    intro _
    have : (a :: as) <+: (a :: as) ++ rest := List.prefix_append _ _
    simp only [List.nil_append, List.cons_append, Util.findAt, List.length_nil] at this ⊢
    rw [if_pos (List.isPrefixOf_iff_prefix.mpr this)]
  | cons c x ih =>
    intro hi
    have h1 : ¬ a :: as <+: c :: (x ++ (a :: as) ++ rest) := by
      intro hp
      rw [List.cons_prefix_cons] at hp
      obtain ⟨rfl, hp⟩ := hp
      by_cases hl : as.length ≤ x.length
      · apply hi
        rw [List.append_assoc] at hp
        have : as <+: x := List.prefix_of_prefix_length_le hp (List.prefix_append _ _) hl
        exact (List.cons_prefix_cons.mpr ⟨rfl, this⟩).isInfix
      · have hx : x ++ [a] <+: as := by
          refine List.prefix_of_prefix_length_le (l₃ := x ++ (a :: as) ++ rest) ?_ hp (by simp; omega)
          refine ⟨as ++ rest, by simp⟩
        obtain ⟨t, ht⟩ := hx
        apply h
        rw [← ht]; simp
    have h2 : ¬ a :: as <:+: x := fun ⟨u, v, e⟩ => hi ⟨c :: u, v, by simp [← e]⟩
    simp only [List.cons_append, Util.findAt]
    rw [if_neg (by rw [List.isPrefixOf_iff_prefix]; simpa using h1)]
    have := ih h2
    simp only [List.append_assoc, List.cons_append] at this ⊢
    rw [this]; rfl

/-- A pattern that does not begin at any of the first characters. -/
private theorem findAt_skip {p : Text} : ∀ (x y : Text), (∀ i < x.length, ¬ p <+: (x ++ y).drop i) →
    Util.findAt p (x ++ y) = (Util.findAt p y).map (· + x.length) := by
  intro x y
  induction x with
  | nil => intro _; simp
  | cons c x ih =>
    intro h
    have h0 := h 0 (by simp)
    rw [List.drop_zero, List.cons_append] at h0
    rw [List.cons_append, Util.findAt, if_neg (by rwa [List.isPrefixOf_iff_prefix]), ih ?_]
    · cases Util.findAt p y with
      | none => rfl
      | some n => simp; omega
    · intro i hi
      have := h (i + 1) (by simpa using hi)
      simpa using this

private theorem not_at {x p : Text} (y : Text) (h : ∀ i < x.length, ∃ a ∈ (x.drop i).zip p, a.1 ≠ a.2) :
    ∀ i < x.length, ¬ p <+: (x ++ y).drop i := by
  intro i hi hp
  obtain ⟨⟨u, v⟩, ha, hne⟩ := h i hi
  rw [List.drop_append_of_le_length (by omega)] at hp
  obtain ⟨t, ht⟩ := hp
  obtain ⟨k, hk, e⟩ := List.mem_iff_getElem.mp ha
  simp only [List.getElem_zip, Prod.mk.injEq] at e
  have hk' := hk
  rw [List.length_zip] at hk'
  have h1 : (x.drop i ++ y)[k]? = some u := by
    rw [List.getElem?_append_left (by omega), List.getElem?_eq_getElem (by omega), e.1]
  have h2 : (p ++ t)[k]? = some v := by
    rw [List.getElem?_append_left (by omega), List.getElem?_eq_getElem (by omega), e.2]
  rw [ht, h1] at h2
  exact hne (Option.some.inj h2)

/-- What comes before the prefix, and after the suffix. -/
private def _root_.Verif.TypeName.Compiler.head (c : Compiler) : Text := c.before.take (c.before.length - c.prefix.length)
private def _root_.Verif.TypeName.Compiler.tail (c : Compiler) : Text := c.after.drop c.suffix.length

private theorem before_eq (c : Compiler) : c.before = c.head ++ c.prefix ∧ c.after = c.suffix ++ c.tail := by
  cases c <;> decide +kernel

private theorem head_mismatch (c : Compiler) :
    (∀ i < c.head.length, ∃ a ∈ (c.head.drop i).zip c.prefix, a.1 ≠ a.2) ∧
    (∀ i < (c.head ++ c.prefix).length, ∃ a ∈ ((c.head ++ c.prefix).drop i).zip c.suffix, a.1 ≠ a.2) := by
  cases c <;> decide +kernel

private theorem findAt_self {p : Text} (h : p ≠ []) (y : Text) : Util.findAt p (p ++ y) = some 0 := by
  cases p with
  | nil => exact absurd rfl h
  | cons a p =>
    rw [List.cons_append, Util.findAt, if_pos]
    rw [List.isPrefixOf_iff_prefix]
    exact List.prefix_append (a :: p) y

/-- The prefix is found where the type begins. -/
private theorem prefix_at (c : Compiler) (rest : Text) :
    Util.findAt c.prefix (c.head ++ c.prefix ++ rest) = some c.head.length := by
  rw [List.append_assoc, findAt_skip _ _ (not_at _ (head_mismatch c).1), findAt_self (by cases c <;> decide)]
  simp

/-- The suffix is not found before the type. -/
private theorem suffix_after (c : Compiler) (rest : Text) : Util.findAt c.suffix (c.head ++ c.prefix ++ rest) =
    (Util.findAt c.suffix rest).map (· + (c.head ++ c.prefix).length) :=
  findAt_skip _ _ (not_at _ (head_mismatch c).2)

private theorem suffix_shape (c : Compiler) : ∃ a as, c.suffix = a :: as ∧ a ∉ as := by
  cases c
  · exact ⟨']', [], rfl, by decide⟩
  · exact ⟨';', [' '], rfl, by decide⟩
  · exact ⟨'>', "(void)".toList, rfl, by decide⟩

private theorem small (c : Compiler) : (c.head ++ c.prefix).length ≤ 200 ∧ c.suffix.length ≤ 10 ∧
    c.tail.length ≤ 60 := by cases c <;> decide

/-- What `get_type_name` returns when the suffix is found `n` characters after the beginning of the type. -/
private theorem typeName_of_find {c : Compiler} {type : Text} {n : Nat} (ht : type.length + 500 < 2 ^ 64)
    (h : Util.findAt c.suffix (type ++ c.suffix ++ c.tail) = some n) (hn : n ≤ type.length) :
    typeName c type = .ok (type.take n) := by
  obtain ⟨s1, s2, s3⟩ := small c
  have hl : (c.head ++ c.prefix).length = c.head.length + c.prefix.length := by simp
  have e : c.function type = c.head ++ c.prefix ++ (type ++ c.suffix ++ c.tail) := by
    simp [Compiler.function, before_eq]
  have f1 : find (c.function type) c.prefix = c.head.length := by
    rw [find, e, prefix_at]; rfl
  have f2 : find (c.function type) c.suffix = n + (c.head ++ c.prefix).length := by
    rw [find, e, suffix_after, h]; rfl
  have hlen : (c.function type).length =
      (c.head ++ c.prefix).length + (type.length + c.suffix.length + c.tail.length) := by
    rw [e]; simp only [List.length_append]
  unfold typeName getTypeName
  simp only [f1, f2, ← hl]
  generalize hk : (c.head ++ c.prefix).length = k at *
  rw [Nat.mod_eq_of_lt (by omega), show 2 ^ 64 + (n + k) - k = n + 2 ^ 64 by omega, Nat.add_mod_right,
    Nat.mod_eq_of_lt (by omega), if_neg (by omega)]
  rw [e, ← hk, List.drop_left, List.append_assoc, List.take_append_of_le_length hn]

/-- The text that must not be in the spelling of a type. -/
def mark : Compiler → Text
  | .clang => "]".toList
  | .gcc => "; ".toList
  | .msvc => ">(void)".toList

private theorem mark_eq (c : Compiler) : mark c = c.suffix := by cases c <;> rfl

/-- **C65**. The name of a type is its spelling, on every compiler. Partial: the spelling must not have the text by
which `get_type_name` recognises the end of the type (a `]` for clang; see `C65_not_arrays`). -/
theorem C65_name_partial (c : Compiler) {type : Text} (ht : type.length + 500 < 2 ^ 64) (h : ¬ mark c <:+: type) :
    typeName c type = .ok type := by
  rw [mark_eq] at *
  obtain ⟨a, as, e, ha⟩ := suffix_shape c
  have hf : Util.findAt c.suffix (type ++ c.suffix ++ c.tail) = some type.length := by
    rw [e] at h ⊢
    exact findAt_first ha type _ h
  rw [typeName_of_find ht hf (Nat.le_refl _), List.take_length]

/-- **C65**. Otherwise it is what comes before that text. -/
theorem C65_cut (c : Compiler) {x y : Text} (ht : (x ++ mark c ++ y).length + 500 < 2 ^ 64)
    (h : ¬ mark c <:+: x) : typeName c (x ++ mark c ++ y) = .ok x := by
  rw [mark_eq] at *
  obtain ⟨a, as, e, ha⟩ := suffix_shape c
  have hf : Util.findAt c.suffix (x ++ c.suffix ++ y ++ c.suffix ++ c.tail) = some x.length := by
    rw [e] at h ⊢
    have := findAt_first ha x (y ++ (a :: as) ++ c.tail) h
    simpa using this
  rw [typeName_of_find ht hf (by simp)]
  simp

/-- **C65**. So types with different spellings have different names. Partial: as above. -/
theorem C65_distinct_partial (c : Compiler) {s t : Text} (hs : s.length + 500 < 2 ^ 64) (ht : t.length + 500 < 2 ^ 64)
    (hs' : ¬ mark c <:+: s) (ht' : ¬ mark c <:+: t) (hne : s ≠ t) : typeName c s ≠ typeName c t := by
  rw [C65_name_partial c hs hs', C65_name_partial c ht ht']
  exact fun h => hne (Outcome.ok.inj h)

/-- **C65** fails for arrays with clang: the name of `int[3]` is `int[3`, and `int[2][3]` and `int[2][4]` have the same
name (so that the tests of a `TEMPLATE_TEST_CASE` for these types cannot be told apart). -/
theorem C65_not_arrays : typeName .clang "int[3]".toList = .ok "int[3".toList ∧
    typeName .clang "int[2][3]".toList = typeName .clang "int[2][4]".toList := by decide +kernel

example : ¬ mark .clang <:+: "std::tuple<int, float>".toList ∧
    ¬ mark .gcc <:+: "int[2][3]".toList ∧ ¬ mark .msvc <:+: "void(__cdecl*)(int)".toList := by
  simp only [← findAt_infix]; decide

example : typeName .gcc "int[2][3]".toList = .ok "int[2][3]".toList ∧
    typeName .msvc "struct S<class T>".toList = .ok "struct S<class T>".toList := by decide +kernel

end Verif.Props
