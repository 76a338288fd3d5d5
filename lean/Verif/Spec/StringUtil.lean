/-!
# Specifications for the string utilities

Independent of the model.
-/
namespace Verif.Spec

/-- The truncation marker in a destination of capacity `cap`: three dots, or fewer if they do not
fit. -/
def marker (cap : Nat) : List Char := List.replicate (min 3 cap) '.'

/-- A text as shown in `cap` characters: cut to a leading part and the marker if it is too long. -/
def cut (cap : Nat) (s : List Char) : List Char :=
  if s.length ≤ cap then s else s.take (cap - 3) ++ marker cap

/-- Replacing every occurrence of `p` (non-empty), searching from left to right and continuing
after each occurrence. (`cs.drop (p.length - 1)` is `(c :: cs).drop p.length`.) -/
def replaced (p r : List Char) : List Char → List Char
  | [] => []
  | c :: cs =>
    if p <+: c :: cs then r ++ replaced p r (cs.drop (p.length - 1)) else c :: replaced p r cs
termination_by s => s.length
decreasing_by all_goals simp <;> omega

/-- Replacing a single character by a text. -/
def escaped (c : Char) (r : List Char) (s : List Char) : List Char :=
  s.flatMap (fun x => if x = c then r else [x])

/-- Position `i` holds a plain (unescaped, non-backslash) character: the run of backslashes
immediately before it has even length. -/
def PlainAt (s : List Char) (i : Nat) (c : Char) : Prop :=
  s[i]? = some c ∧ c ≠ '\\' ∧ ((s.take i).reverse.takeWhile (· = '\\')).length % 2 = 0

/-- A pattern element: any sequence, or one given character. -/
inductive Tok
  | any
  | lit (c : Char)
  deriving DecidableEq, Repr

/-- How a pattern text is read: `*` is a wildcard, a backslash makes the next character literal,
every other character stands for itself. A text ending in an unpaired backslash has no reading. -/
inductive Reads : List Char → List Tok → Prop
  | nil : Reads [] []
  | any {r ts} : Reads r ts → Reads ('*' :: r) (.any :: ts)
  | esc {c r ts} : Reads r ts → Reads ('\\' :: c :: r) (.lit c :: ts)
  | lit {c r ts} : c ≠ '*' → c ≠ '\\' → Reads r ts → Reads (c :: r) (.lit c :: ts)

/-- The set of texts a list of pattern elements stands for. -/
inductive Glob : List Tok → List Char → Prop
  | nil : Glob [] []
  | any {ts s} (pre : List Char) : Glob ts s → Glob (.any :: ts) (pre ++ s)
  | lit {c ts s} : Glob ts s → Glob (.lit c :: ts) (c :: s)

end Verif.Spec
