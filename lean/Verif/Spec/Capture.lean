/-!
# The text of expressions, as far as commas are concerned

Independent of the model.
-/
namespace Verif.Spec.Capture

/-- Text between parentheses: commas are allowed; parentheses are balanced; string and character
literals contain anything but their own quote (in particular no escaped quote). -/
inductive Nested : List Char → Prop
  | nil : Nested []
  | char {c t} (hc : c ∉ ['(', ')', '"', '\'']) : Nested t → Nested (c :: t)
  | string {s t} (hs : '"' ∉ s) : Nested t → Nested ('"' :: s ++ '"' :: t)
  | literal {s t} (hs : '\'' ∉ s) : Nested t → Nested ('\'' :: s ++ '\'' :: t)
  | group {i t} : Nested i → Nested t → Nested ('(' :: i ++ ')' :: t)

/-- The text of an expression: the same, with commas only between parentheses or in literals. -/
inductive Expr : List Char → Prop
  | nil : Expr []
  | char {c t} (hc : c ∉ [',', '(', ')', '"', '\'']) : Expr t → Expr (c :: t)
  | string {s t} (hs : '"' ∉ s) : Expr t → Expr ('"' :: s ++ '"' :: t)
  | literal {s t} (hs : '\'' ∉ s) : Expr t → Expr ('\'' :: s ++ '\'' :: t)
  | group {i t} : Nested i → Expr t → Expr ('(' :: i ++ ')' :: t)

/-- Blank characters only. -/
def Blank (s : List Char) : Prop := ∀ c ∈ s, c = ' ' ∨ c = '\t' ∨ c = '\n' ∨ c = '\r'

/-- An argument as written: an expression between blanks. -/
structure Arg where
  before : List Char
  expr : List Char
  after : List Char

/-- The text of an argument. -/
def Arg.text (a : Arg) : List Char := a.before ++ a.expr ++ a.after

/-- The expression has a beginning and an end that are not blank, and there is nothing but blanks
around it. -/
def Arg.Ok (a : Arg) : Prop :=
  Blank a.before ∧ Blank a.after ∧ Expr a.expr ∧
  (∃ c t, a.expr = c :: t ∧ ¬Blank [c]) ∧ (∃ c t, a.expr = t ++ [c] ∧ ¬Blank [c])

/-- Arguments separated by commas. -/
def joined : List Arg → List Char
  | [] => []
  | [a] => a.text
  | a :: b :: as => a.text ++ ',' :: joined (b :: as)

end Verif.Spec.Capture
