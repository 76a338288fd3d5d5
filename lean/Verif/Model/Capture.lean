import Verif.Model.StringUtil
/-!
# Model of the text of captures

Source: src/snitch_capture.cpp 7-20, 36-82, include/snitch/snitch_capture.hpp 26-46. How captures are
stored and removed is in Verif/Model/TestCase.lean.
-/
namespace Verif.Capture

/-- src/snitch_capture.cpp 80 and 69: the characters removed by `trim`. -/
def blanks : List Char := [' ', '\t', '\n', '\r']

/-- src/snitch_capture.cpp 8-20 `trim`. Text consisting of blanks only is left as it is. -/
def trim (s : Text) : Text :=
  let isBlank := fun c => blanks.contains c
  if s.all isBlank then s
  else ((s.dropWhile isBlank).reverse.dropWhile isBlank).reverse

/-- src/snitch_capture.cpp 41-43: what is known about the position reached. -/
structure Scan where
  inString : Bool := false
  inChar : Bool := false
  parens : Int := 0

/-- src/snitch_capture.cpp 45-72: the effect of one character. (The loop jumps from one of the
characters `,()"'` to the next by `find_first_of`; all other characters have no effect.) -/
def Scan.next (q : Scan) (c : Char) : Scan :=
  if c = '"' then if !q.inChar then { q with inString := !q.inString } else q
  else if c = '\'' then if !q.inString then { q with inChar := !q.inChar } else q
  else if c = '(' then if !q.inString && !q.inChar then { q with parens := q.parens + 1 } else q
  else if c = ')' then if !q.inString && !q.inChar then { q with parens := q.parens - 1 } else q
  else q

/-- src/snitch_capture.cpp 66: a comma here separates two names. -/
def Scan.splits (q : Scan) (c : Char) : Bool :=
  c == ',' && !q.inString && !q.inChar && q.parens == 0

/-- src/snitch_capture.cpp 39-75: the text before and after the first separating comma. -/
def split (q : Scan) : Text → Option (Text × Text)
  | [] => none
  | c :: cs =>
    if q.splits c then some ([], cs)
    else (split (q.next c) cs).map fun p => (c :: p.1, p.2)

/-- src/snitch_capture.cpp 36-82 `extract_next_name`: the name and the remaining names. -/
def extractNextName (names : Text) : Text × Text :=
  match split {} names with
  | some (a, rest) => (trim a, rest)
  | none => (trim names, [])

/-- include/snitch/snitch_capture.hpp 26-30, the text of one capture (`add_capture` has just cleared
the string): the argument is given by the text it is appended as. -/
def captureText (cap : Nat) (name value : Text) : Outcome Text := do
  let (ss, _) ← Util.appendOrTruncate false (SV.empty cap ' ') [name, " := ".toList, value]
  return ss.contents

/-- include/snitch/snitch_capture.hpp 33-37 `add_captures`: the texts of the captures. -/
def captureTexts (cap : Nat) : Text → List Text → Outcome (List Text)
  | _, [] => .ok []
  | names, v :: vs => do
    let (name, names) := extractNextName names
    let c ← captureText cap name v
    let cs ← captureTexts cap names vs
    return c :: cs

end Verif.Capture
