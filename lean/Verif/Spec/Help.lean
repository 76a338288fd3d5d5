import Verif.Spec.Cli
import Verif.Spec.StringUtil
/-!
# What the command line prints

The help text, as a user sees it, and the complaints about a command line. Independent of the code that prints them;
the kinds of arguments are those of Verif/Spec/Cli.lean.
-/
namespace Verif.Cli.Spec
open Verif Verif.Spec

/-- A text in colour, if colours are wanted. -/
def tinted (color : Bool) (code : String) (s : Text) : Text :=
  if color then code.toList ++ s ++ "\x1b[0m".toList else s

/-- The arguments as listed in the help text. -/
def rows : List (String × String) :=
  [("-l, --list-tests", "List tests by name"),
   ("    --list-tags", "List tags by name"),
   ("    --list-tests-with-tag <tag>", "List tests by name with a given tag"),
   ("    --list-reporters", "List available test reporters (see --reporter)"),
   ("-r, --reporter <reporter[::key=value]*>", "Choose which reporter to use to output the test results"),
   ("-v, --verbosity <quiet|normal|high|full>", "Define how much gets sent to the standard output"),
   ("-o, --out <path>", "Saves output to a file given as 'path'"),
   ("    --color <always|default|never>", "Enable/disable color in output"),
   ("    --colour-mode <ansi|default|none>", "Enable/disable color in output (for compatibility with Catch2)"),
   ("-h, --help", "Print help"),
   ("<test regex>", "A regex to select which test cases to run")]

/-- One line of this list. -/
def row (color : Bool) (r : String × String) : Text :=
  "  ".toList ++ tinted color "\x1b[1;35m" r.1.toList ++ " ".toList ++ r.2.toList ++ "\n".toList

/-- The first line. -/
def title (version : Text) : Text :=
  "Test runner (snitch v".toList ++ version ++ " | compatible with Catch2 v3.4.0)".toList

/-- The help text of the program `name`. (At most `cap` characters are shown of the name.) -/
def helpText (cap : Nat) (color : Bool) (version name : Text) : Text :=
  tinted color "\x1b[1;36m" (title version) ++ "\n".toList ++
  tinted color "\x1b[1;32m" "Usage:".toList ++ "\n".toList ++
  cut cap ("  ".toList ++ name) ++ " [options...] [<test regex>...]\n\n".toList ++
  rows.flatMap (row color)

/-! ## Reading the help text -/

/-- The pieces of a text between the characters `sep`. -/
def splitAt (sep : Char) : Text → List Text
  | [] => [[]]
  | c :: cs =>
    if c = sep then [] :: splitAt sep cs
    else match splitAt sep cs with
      | [] => [[c]]
      | w :: ws => (c :: w) :: ws

/-- The options a line tells about: names beginning with a dash, and the value if the next word is in angle
brackets. -/
def optionsOfLine (line : Text) : List (Text × Option Text) :=
  let words := (splitAt ' ' line).filter (· ≠ [])
  let value := match words.dropWhile (fun w => w.head? = some '-') with
    | ('<' :: w) :: _ => some (w.takeWhile (· ≠ '>'))
    | _ => none
  (words.takeWhile (fun w => w.head? = some '-')).map fun w => (w.takeWhile (· ≠ ','), value)

/-- The options in a help text: those in the lines after the first empty line. -/
def optionsListed (help : Text) : List (Text × Option Text) :=
  ((splitAt '\n' help).dropWhile (· ≠ [])).flatMap optionsOfLine

/-! ## Complaints -/

/-- A complaint: an error, after which the command line is refused, or a warning. -/
structure Complaint where
  error : Bool
  text : Text
deriving DecidableEq, Repr

def duplicated (a : Text) : Complaint := ⟨true, " duplicate command line argument '".toList ++ a ++ "'".toList⟩

def valueMissing (value a : Text) : Complaint :=
  ⟨true, " missing value '<".toList ++ value ++ ">' for command line argument '".toList ++ a ++ "'".toList⟩

def unknownArgument (a : Text) : Complaint := ⟨false, " unknown command line argument '".toList ++ a ++ "'".toList⟩

/-- What the values of the options are called, by the long names of the options. -/
def valueNames : List (String × String) :=
  [("--list-tests-with-tag", "tag"), ("--reporter", "reporter[::key=value]*"),
   ("--verbosity", "quiet|normal|high|full"), ("--out", "path"), ("--color", "always|default|never"),
   ("--colour-mode", "ansi|default|none")]

def valueNameOf (long : Text) : Text := (find long valueNames).getD []

/-- The complaints about a command line, read from left to right; `seen` are the long names of the options met so
far. The value of an option that is given twice is not taken as its value, but read as the next argument. -/
def complaints (seen : List Text) : List Text → List Complaint
  | [] => []
  | a :: rest =>
    if a.head? = some '-' then
      match kind a with
      | .flag l => if l ∈ seen then duplicated a :: complaints seen rest else complaints (l :: seen) rest
      | .valued l =>
        if l ∈ seen then duplicated a :: complaints seen rest
        else match rest with
          | [] => [valueMissing (valueNameOf l) a]
          | _ :: rest => complaints (l :: seen) rest
      | .swallow =>
        match rest with
        | [] => [unknownArgument a]
        | _ :: rest => unknownArgument a :: complaints seen rest
      | .other => unknownArgument a :: complaints seen rest
    else complaints seen rest

/-- A complaint as it is printed: a line, of which at most `cap` characters are shown. -/
def complaintLine (cap : Nat) (color : Bool) (c : Complaint) : Text :=
  cut cap ((if c.error then tinted color "\x1b[1;31m" "error:".toList
    else tinted color "\x1b[1;33m" "warning:".toList) ++ c.text ++ "\n".toList)

end Verif.Cli.Spec
