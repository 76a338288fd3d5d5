import Verif.Spec.Filter
/-!
# Specification of filters that pick out tests

Written from the documentation (README.md, "Filtering tests"): the characters with a meaning are `*`, `,`, a backslash, and at the
start of a filter `~` and `[`; a backslash takes the meaning away.
-/
namespace Verif.Spec

/-- `w` is a way of writing the text `s`: every backslash, `*` and `,` has a backslash in front of it. Other characters may have
one too. -/
inductive Quoted : List Char → List Char → Prop
  | nil : Quoted [] []
  | plain {c w s} : c ≠ '\\' → c ≠ '*' → c ≠ ',' → Quoted w s → Quoted (c :: w) (c :: s)
  | esc {c w s} : Quoted w s → Quoted ('\\' :: c :: w) (c :: s)

/-- The simplest way: a backslash in front of every character. -/
def quote (s : List Char) : List Char := s.flatMap fun c => ['\\', c]

/-- The start of a filter has no meaning: neither `~` nor `[`. -/
def Unmarked (w : List Char) : Prop := w.head? ≠ some '~' ∧ w.head? ≠ some '['

instance (w : List Char) : Decidable (Unmarked w) := inferInstanceAs (Decidable (_ ∧ _))

/-- Alternatives in one filter. -/
def commas (ws : List (List Char)) : List Char := List.intercalate [','] ws

/-- What can be asked of a text (a name or a tag). -/
inductive Pattern
  | is (s : List Char)
  | starts (s : List Char)
  | ends (s : List Char)
  | has (s : List Char)

/-- The text in question. -/
def Pattern.text : Pattern → List Char
  | .is s => s
  | .starts s => s
  | .ends s => s
  | .has s => s

/-- Which texts are meant. -/
def Pattern.Holds : Pattern → List Char → Prop
  | .is s, t => t = s
  | .starts s, t => s <+: t
  | .ends s, t => s <:+ t
  | .has s, t => s <:+: t

/-- How it is written: a `*` stands for any text. -/
inductive Written : List Char → Pattern → Prop
  | is {w s} : Quoted w s → Written w (.is s)
  | starts {w s} : Quoted w s → Written (w ++ ['*']) (.starts s)
  | ends {w s} : Quoted w s → Written ('*' :: w) (.ends s)
  | has {w s} : Quoted w s → Written ('*' :: (w ++ ['*'])) (.has s)

/-- What can be asked of a test. -/
inductive Criterion
  | name (p : Pattern)
  | tag (p : Pattern)
  | notName (p : Pattern)
  | notTag (p : Pattern)

/-- Whether a test is as asked; a tag `.x` is short for `.` and `x`. -/
def Criterion.Holds : Criterion → Test → Prop
  | .name p, t => p.Holds t.name
  | .tag p, t => ∃ x ∈ t.tags.flatMap ordinary, p.Holds x
  | .notName p, t => ¬ p.Holds t.name
  | .notTag p, t => ∀ x ∈ t.tags.flatMap ordinary, ¬ p.Holds x

/-- Whether tests that are as asked are asked for, even hidden ones. -/
def Criterion.Asks : Criterion → Prop
  | .name _ | .tag _ => True
  | .notName _ | .notTag _ => False

/-- How it is written. (Names are not empty; there are no brackets in tags.) -/
inductive Says : List Char → Criterion → Prop
  | name {w p} : Written w p → w ≠ [] → Unmarked w → Says w (.name p)
  | tag {w p} : Written w p → ']' ∉ p.text → Says (bracket w) (.tag p)
  | notName {w p} : Written w p → w ≠ [] → w.head? ≠ some '[' → Says ('~' :: w) (.notName p)
  | notTag {w p} : Written w p → ']' ∉ p.text → Says ('~' :: bracket w) (.notTag p)

/-- A test is as all arguments ask: as one of the alternatives of each. A hidden test has to be asked for by one of them. -/
def Asked (args : List (List Criterion)) (t : Test) : Prop :=
  (∀ arg ∈ args, ∃ c ∈ arg, c.Holds t) ∧ (Hidden t → ∃ arg ∈ args, ∃ c ∈ arg, c.Holds t ∧ c.Asks)

end Verif.Spec
