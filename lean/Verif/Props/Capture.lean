import Verif.Model.Capture
import Verif.Spec.Capture
import Verif.Lemmas.StringUtil
/-!
# C24: the names of captured expressions
-/
namespace Verif.Props
open Verif.Capture Verif.Spec.Capture

/-- Text in front of the first part of a split. -/
private def prepend (t : Text) (o : Option (Text × Text)) : Option (Text × Text) :=
  o.map fun p => (t ++ p.1, p.2)

private theorem split_cons {q : Scan} {c : Char} (cs : Text) (h : q.splits c = false) :
    split q (c :: cs) = prepend [c] (split (q.next c) cs) := by
  rw [split, h]; rfl

private theorem prepend_prepend (a b : Text) (o : Option (Text × Text)) :
    prepend a (prepend b o) = prepend (a ++ b) o := by
  cases o <;> simp [prepend]

private theorem split_string (n : Int) : ∀ (s r : Text), '"' ∉ s →
    split ⟨true, false, n⟩ (s ++ '"' :: r) = prepend (s ++ ['"']) (split ⟨false, false, n⟩ r) := by
  intro s
  induction s with
  | nil =>
    intro r _
    rw [List.nil_append, split_cons _ (by simp [Scan.splits])]
    rfl
  | cons c s ih =>
    intro r h
    have hc : c ≠ '"' := fun e => h (by simp [e])
    rw [List.cons_append, split_cons _ (by simp [Scan.splits])]
    have : Scan.next ⟨true, false, n⟩ c = ⟨true, false, n⟩ := by simp [Scan.next, hc]
    rw [this, ih r fun e => h (List.mem_cons_of_mem _ e), prepend_prepend]
    rfl

private theorem split_literal (n : Int) : ∀ (s r : Text), '\'' ∉ s →
    split ⟨false, true, n⟩ (s ++ '\'' :: r) = prepend (s ++ ['\'']) (split ⟨false, false, n⟩ r) := by
  intro s
  induction s with
  | nil =>
    intro r _
    rw [List.nil_append, split_cons _ (by simp [Scan.splits])]
    rfl
  | cons c s ih =>
    intro r h
    have hc : c ≠ '\'' := fun e => h (by simp [e])
    rw [List.cons_append, split_cons _ (by simp [Scan.splits])]
    have : Scan.next ⟨false, true, n⟩ c = ⟨false, true, n⟩ := by simp [Scan.next, hc]
    rw [this, ih r fun e => h (List.mem_cons_of_mem _ e), prepend_prepend]
    rfl

private theorem split_nested {t : Text} (h : Nested t) : ∀ (n : Int) (r : Text), 0 < n →
    split ⟨false, false, n⟩ (t ++ r) = prepend t (split ⟨false, false, n⟩ r) := by
  induction h with
  | nil => intro n r _; cases e : split ⟨false, false, n⟩ r <;> simp [prepend, e]
  | @char c t hc _ ih =>
    intro n r hn
    have hs : Scan.splits ⟨false, false, n⟩ c = false := by simp [Scan.splits]; omega
    have hx : Scan.next ⟨false, false, n⟩ c = ⟨false, false, n⟩ := by
      simp only [List.mem_cons, List.not_mem_nil, or_false, not_or] at hc
      simp [Scan.next, hc]
    rw [List.cons_append, split_cons _ hs, hx, ih n r hn, prepend_prepend]
    rfl
  | @string s t hs _ ih =>
    intro n r hn
    rw [List.append_assoc, List.cons_append, split_cons _ (by simp [Scan.splits])]
    have hx : Scan.next ⟨false, false, n⟩ '"' = ⟨true, false, n⟩ := by simp [Scan.next]
    rw [hx, List.cons_append, split_string n s _ hs, ih n r hn, prepend_prepend, prepend_prepend]
    simp
  | @literal s t hs _ ih =>
    intro n r hn
    rw [List.append_assoc, List.cons_append, split_cons _ (by simp [Scan.splits])]
    have hx : Scan.next ⟨false, false, n⟩ '\'' = ⟨false, true, n⟩ := by simp [Scan.next]
    rw [hx, List.cons_append, split_literal n s _ hs, ih n r hn, prepend_prepend, prepend_prepend]
    simp
  | @group i t _ _ ihi iht =>
    intro n r hn
    rw [List.append_assoc, List.cons_append, split_cons _ (by simp [Scan.splits])]
    have hx : Scan.next ⟨false, false, n⟩ '(' = ⟨false, false, n + 1⟩ := by simp [Scan.next]
    rw [hx, List.cons_append, ihi (n + 1) _ (by omega), split_cons _ (by simp [Scan.splits])]
    have hy : Scan.next ⟨false, false, n + 1⟩ ')' = ⟨false, false, n⟩ := by simp [Scan.next]
    rw [hy, iht n r hn, prepend_prepend, prepend_prepend, prepend_prepend]
    simp

private theorem split_expr {t : Text} (h : Expr t) : ∀ (r : Text),
    split {} (t ++ r) = prepend t (split {} r) := by
  induction h with
  | nil => intro r; cases e : split {} r <;> simp [prepend, e]
  | @char c t hc _ ih =>
    intro r
    simp only [List.mem_cons, List.not_mem_nil, or_false, not_or] at hc
    have hs : Scan.splits {} c = false := by simp [Scan.splits, hc]
    have hx : Scan.next {} c = {} := by simp [Scan.next, hc]
    rw [List.cons_append, split_cons _ hs, hx, ih r, prepend_prepend]
    rfl
  | @string s t hs _ ih =>
    intro r
    rw [List.append_assoc, List.cons_append, split_cons _ (by simp [Scan.splits])]
    have hx : Scan.next {} '"' = ⟨true, false, 0⟩ := by simp [Scan.next]
    rw [hx, List.cons_append, split_string 0 s _ hs, ih r, prepend_prepend, prepend_prepend]
    simp
  | @literal s t hs _ ih =>
    intro r
    rw [List.append_assoc, List.cons_append, split_cons _ (by simp [Scan.splits])]
    have hx : Scan.next {} '\'' = ⟨false, true, 0⟩ := by simp [Scan.next]
    rw [hx, List.cons_append, split_literal 0 s _ hs, ih r, prepend_prepend, prepend_prepend]
    simp
  | @group i t hi _ iht =>
    intro r
    rw [List.append_assoc, List.cons_append, split_cons _ (by simp [Scan.splits])]
    have hx : Scan.next {} '(' = ⟨false, false, 1⟩ := by simp [Scan.next]
    rw [hx, List.cons_append, split_nested hi 1 _ (by omega), split_cons _ (by simp [Scan.splits])]
    have hy : Scan.next ⟨false, false, 1⟩ ')' = {} := by simp [Scan.next]
    rw [hy, iht r, prepend_prepend, prepend_prepend, prepend_prepend]
    simp

private theorem expr_blank : ∀ {b : Text}, Blank b → Expr b := by
  intro b
  induction b with
  | nil => intro _; exact .nil
  | cons c b ih =>
    intro h
    refine .char ?_ (ih fun x hx => h x (List.mem_cons_of_mem _ hx))
    rcases h c (by simp) with e | e | e | e <;> simp [e]

private theorem expr_append {a b : Text} (ha : Expr a) (hb : Expr b) : Expr (a ++ b) := by
  induction ha with
  | nil => exact hb
  | char hc _ ih => exact .char hc ih
  | @string s t hs _ ih =>
    rw [List.append_assoc, List.cons_append]; exact .string hs ih
  | literal hs _ ih => rw [List.append_assoc, List.cons_append]; exact .literal hs ih
  | group hi _ ih => rw [List.append_assoc, List.cons_append]; exact .group hi ih

private theorem dropWhile_blank {p : Char → Bool} {b : Text} (hb : ∀ c ∈ b, p c = true) {c : Char}
    (hc : p c = false) (t : Text) : (b ++ c :: t).dropWhile p = c :: t := by
  induction b with
  | nil => simp [hc]
  | cons x b ih =>
    rw [List.cons_append, List.dropWhile_cons, hb x (by simp)]
    exact ih fun y hy => hb y (List.mem_cons_of_mem _ hy)

private theorem blank_iff (c : Char) : blanks.contains c = true ↔ Blank [c] := by
  simp [blanks, Blank]

private theorem trim_arg {a : Arg} (h : a.Ok) : trim a.text = a.expr := by
  obtain ⟨h1, h2, _, ⟨c, t, e1, hc⟩, ⟨d, u, e2, hd⟩⟩ := h
  have hb : ∀ {b : Text}, Blank b → ∀ x ∈ b, blanks.contains x = true := by
    intro b hb x hx
    rw [blank_iff]
    intro y hy
    rw [List.mem_singleton.mp hy]
    exact hb x hx
  have hc' : blanks.contains c = false := by rw [← Bool.not_eq_true, blank_iff]; exact hc
  have hd' : blanks.contains d = false := by rw [← Bool.not_eq_true, blank_iff]; exact hd
  unfold trim Arg.text
  dsimp only
  rw [if_neg]
  · rw [List.append_assoc, e1, List.cons_append, dropWhile_blank (hb h1) hc', ← List.cons_append, ← e1,
      List.reverse_append, e2, List.reverse_append, List.reverse_singleton, List.singleton_append,
      dropWhile_blank (fun x hx => hb h2 x (by simpa using hx)) hd']
    simp
  · simp only [List.all_append, e1, List.all_cons, hc']
    simp

/-- **C24**. Extracting names one after the other from the text of the arguments gives the
expressions, without the blanks around them, in order. -/
theorem C24_next_name (a : Arg) (as : List Arg) (h : a.Ok) :
    extractNextName (joined (a :: as)) = (a.expr, joined as) := by
  have he : Expr a.text := expr_append (expr_append (expr_blank h.1) h.2.2.1) (expr_blank h.2.1)
  unfold extractNextName
  cases as with
  | nil =>
    have : split {} (joined [a]) = none := by
      have := split_expr he []
      rw [List.append_nil] at this
      rw [joined, this]; rfl
    rw [this]
    simp only [joined]
    rw [trim_arg h]
  | cons b bs =>
    have : split {} (joined (a :: b :: bs)) = some (a.text, joined (b :: bs)) := by
      rw [joined, split_expr he]
      simp [split, prepend, Scan.splits]
    rw [this]
    dsimp only
    rw [trim_arg h]

/-- **C24**. The captures made by `CAPTURE(a, b, ...)`: one for each argument, in order, labelled with
its own expression. -/
theorem C24_captures (cap : Nat) (hcap : cap + 3 < 2 ^ 64) : ∀ (args : List (Arg × Text)),
    (∀ a ∈ args, a.1.Ok) →
    captureTexts cap (joined (args.map (·.1))) (args.map (·.2)) =
      .ok (args.map fun a => Verif.Spec.cut cap (a.1.expr ++ " := ".toList ++ a.2)) := by
  intro args
  induction args with
  | nil => intro _; rfl
  | cons a as ih =>
    intro h
    obtain ⟨v, e, hv⟩ := Util.appendOrTruncate_holds false (SV.holds_empty cap ' ') hcap
      [a.1.expr, " := ".toList, a.2]
    have hc : captureText cap a.1.expr a.2 = .ok (Verif.Spec.cut cap (a.1.expr ++ " := ".toList ++ a.2)) := by
      unfold captureText
      rw [e, Outcome.bind_ok]
      dsimp only
      rw [hv.contents]
      simp [Verif.Spec.cut]
    rw [List.map_cons, List.map_cons, captureTexts, C24_next_name _ _ (h a (by simp))]
    dsimp only
    rw [hc, Outcome.bind_ok, ih fun b hb => h b (List.mem_cons_of_mem _ hb)]
    rfl

/-- `f(x, "a)"),  ','` with blanks. -/
def captureArgs : List Arg :=
  [⟨[], "f(x, \"a)\")".toList, [' ']⟩, ⟨[' ', ' '], "','".toList, []⟩]

example : joined captureArgs = "f(x, \"a)\") ,  ','".toList := by decide
example : ∀ a ∈ captureArgs, a.Ok := by
  intro a ha
  simp only [captureArgs, List.mem_cons, List.not_mem_nil, or_false] at ha
  rcases ha with rfl | rfl
  · refine ⟨by simp [Blank], by simp [Blank], ?_, ⟨'f', _, rfl, by simp [Blank]⟩,
      ⟨')', "f(x, \"a)\"".toList, rfl, by simp [Blank]⟩⟩
    exact .char (by decide) (.group (i := "x, \"a)\"".toList)
      (.char (by decide) (.char (by decide) (.char (by decide) (.string (s := "a)".toList) (by decide) .nil)))) .nil)
  · exact ⟨by simp [Blank], by simp [Blank], .literal (s := [',']) (by decide) .nil,
      ⟨'\'', _, rfl, by simp [Blank]⟩, ⟨'\'', [ '\'', ','], rfl, by simp [Blank]⟩⟩
example : captureTexts 30 (joined captureArgs) ["1".toList, ",".toList] =
    .ok ["f(x, \"a)\") := 1".toList, "',' := ,".toList] := by decide

/-- **C24** outside the claim: braces and escaped quotes are not understood. -/
theorem C24_braces_split : extractNextName "T{1, 2}".toList = ("T{1".toList, " 2}".toList) := by decide

end Verif.Props
