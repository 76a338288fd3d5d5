import Verif.Spec.StringUtil
/-!
# Specification of tags and filters

Independent of the model; written from the documentation (README.md, "Filtering tests").
-/
namespace Verif.Spec

/-- A tag in its brackets. -/
def bracket (t : List Char) : List Char := '[' :: (t ++ [']'])

/-- The tag string `[t1][t2]...[tn]`. -/
def tagString (ts : List (List Char)) : List Char := ts.flatMap bracket

/-- A tag contains no brackets. -/
def TagOk (t : List Char) : Prop := '[' ∉ t ∧ ']' ∉ t

/-- The tag hides the test: `.` or `.x`. -/
def Hides (t : List Char) : Prop := t.head? = some '.'

instance (t : List Char) : Decidable (Hides t) := inferInstanceAs (Decidable (_ = _))

/-- The ordinary tags a written tag stands for: `.x` is short for `.` and `x`. -/
def ordinary (t : List Char) : List (List Char) :=
  match t with
  | '.' :: c :: x => [['.'], c :: x]
  | t => [t]

/-- All ordinary tags, with their brackets. -/
def visibleTags (ts : List (List Char)) : List (List Char) := (ts.flatMap ordinary).map bracket

/-- A pattern matches a text. (An empty pattern matches everything.) -/
def PatMatches (p s : List Char) : Prop := p = [] ∨ ∃ ts, Reads p ts ∧ Glob ts s

/-- A test as seen by filters: full name and tags (without brackets). -/
structure Test where
  name : List Char
  tags : List (List Char)

/-- The parts of a filter: cut at every comma that is not preceded by an (unescaped) backslash. -/
def commaParts : List Char → List (List Char)
  | [] => [[]]
  | ['\\'] => [['\\']]
  | '\\' :: c :: s => (commaParts s).modifyHead (fun p => '\\' :: c :: p)
  | ',' :: s => [] :: commaParts s
  | c :: s => (commaParts s).modifyHead (c :: ·)

/-- Put a text in front of the first element, or alone if there is none. -/
def glueHead (x : List Char) : List (List Char) → List (List Char)
  | [] => [x]
  | p :: ps => (x ++ p) :: ps

/-- The groups of a tag filter: cut behind every unescaped closing bracket. -/
def tagGroups : List Char → List (List Char)
  | [] => []
  | ['\\'] => [['\\']]
  | '\\' :: c :: s => glueHead ['\\', c] (tagGroups s)
  | ']' :: s => [']'] :: tagGroups s
  | c :: s => glueHead [c] (tagGroups s)

/-- Does a pattern, possibly negated by a leading `~`, accept a candidate set of texts? -/
def Accepts (p : List Char) (texts : List (List Char)) : Prop :=
  match p with
  | '~' :: p => ¬ ∃ s ∈ texts, PatMatches p s
  | p => ∃ s ∈ texts, PatMatches p s

/-- Not negated. -/
def Positive (p : List Char) : Prop := p.head? ≠ some '~'

/-- Tag filters start with `[` or `~[`. -/
def IsTagFilter (part : List Char) : Prop := ['['] <+: part ∨ ['~', '['] <+: part

/-- What filters see of a test: its full name, its ordinary tags (with their brackets), and whether it is hidden. -/
structure View where
  name : List Char
  shown : List (List Char)
  hidden : Prop

/-- A part of a filter includes a test: a tag filter if each of its groups accepts the tags, a name
filter if it accepts the name. -/
def View.PartIncludes (part : List Char) (v : View) : Prop :=
  (IsTagFilter part ∧ ∀ g ∈ tagGroups part, Accepts g v.shown) ∨
  (¬ IsTagFilter part ∧ Accepts part [v.name])

/-- ... and does so explicitly: by at least one pattern that is not negated. -/
def View.PartExplicit (part : List Char) (v : View) : Prop :=
  View.PartIncludes part v ∧
    ((IsTagFilter part ∧ ∃ g ∈ tagGroups part, Positive g) ∨ (¬ IsTagFilter part ∧ Positive part))

/-- A filter argument includes a test if one of its comma-separated parts does. -/
def View.Includes (filter : List Char) (v : View) : Prop := ∃ p ∈ commaParts filter, View.PartIncludes p v

/-- ... explicitly, if one of its parts does. -/
def View.IncludesExplicitly (filter : List Char) (v : View) : Prop :=
  ∃ p ∈ commaParts filter, View.PartExplicit p v

/-- The tests selected by the filter arguments. -/
def View.Selected (filters : List (List Char)) (v : View) : Prop :=
  (∀ f ∈ filters, View.Includes f v) ∧ (v.hidden → ∃ f ∈ filters, View.IncludesExplicitly f v)

/-- The test is hidden. -/
def Hidden (t : Test) : Prop := ∃ x ∈ t.tags, Hides x

/-- A test as filters see it. -/
def Test.view (t : Test) : View := ⟨t.name, visibleTags t.tags, Hidden t⟩

/-- The same for a test given by its tags. -/
def Includes (filter : List Char) (t : Test) : Prop := View.Includes filter t.view
def IncludesExplicitly (filter : List Char) (t : Test) : Prop := View.IncludesExplicitly filter t.view
def Selected (filters : List (List Char)) (t : Test) : Prop := View.Selected filters t.view

/-! ## Tag texts of any form -/

/-- A tag text cut in two wherever a `[` follows a `]`. -/
def cutTags : List Char → List (List Char)
  | [] => [[]]
  | [c] => [[c]]
  | c :: d :: s =>
    if c = ']' ∧ d = '[' then [c] :: cutTags (d :: s) else (cutTags (d :: s)).modifyHead (c :: ·)

/-- The tags found in a tag text: its pieces. (A piece `]` in front of others is no tag.) -/
def written (s : List Char) : List (List Char) :=
  if s = [] then []
  else match cutTags s with
    | [']'] :: p :: ps => p :: ps
    | ps => ps

/-- The piece hides the test. -/
def PieceHides (p : List Char) : Prop := ['[', '.'] <+: p

instance (p : List Char) : Decidable (PieceHides p) := inferInstanceAs (Decidable (_ <+: _))

/-- The ordinary tags that a piece stands for: `[.x]` is short for `[.]` and `[x]`. -/
def shownPiece (p : List Char) : List (List Char) :=
  if PieceHides p ∧ p ≠ "[.]".toList then ["[.]".toList, '[' :: p.drop 2] else [p]

/-- A tag text can be read if it is empty, or has brackets of both kinds and no tag `.x` that is too long. -/
def Readable (maxTag : Nat) (s : List Char) : Prop :=
  s = [] ∨ ('[' ∈ s ∧ ']' ∈ s ∧ ∀ p ∈ written s, PieceHides p → p ≠ "[.]".toList → p.length ≤ maxTag + 1)

/-- A test with any tag text as filters see it. -/
def textView (name tags : List Char) : View :=
  ⟨name, (written tags).flatMap shownPiece, ∃ p ∈ written tags, PieceHides p⟩

end Verif.Spec
