import Verif.Model.Cli
/-!
# What a command line means

Independent of the parser: the documented options (README "Command-line API", `--help`), and how a list
of arguments is read from left to right.
-/
namespace Verif.Cli.Spec
open Verif Verif.Cli

/-- What an argument starting with a dash is. -/
inductive Kind
  /-- an option without value, with its long name -/
  | flag (long : Text)
  /-- an option with a value, with its long name -/
  | valued (long : Text)
  /-- an option of Catch2 which is ignored together with its value -/
  | swallow
  /-- anything else: ignored -/
  | other
  deriving DecidableEq, Repr

/-- Options without value: all names and the long name. -/
def flags : List (String × String) :=
  [("-l", "--list-tests"), ("--list-tests", "--list-tests"), ("--list-tags", "--list-tags"),
   ("--list-reporters", "--list-reporters"), ("-h", "--help"), ("--help", "--help")]

/-- Options with a value: all names and the long name. -/
def valuedOptions : List (String × String) :=
  [("--list-tests-with-tag", "--list-tests-with-tag"), ("-r", "--reporter"),
   ("--reporter", "--reporter"), ("-v", "--verbosity"), ("--verbosity", "--verbosity"),
   ("-o", "--out"), ("--out", "--out"), ("--color", "--color"), ("--colour-mode", "--colour-mode")]

/-- Options of Catch2 which have a value and are ignored. -/
def swallowed : List String :=
  ["-x", "--abortx", "-w", "--warn", "-d", "--durations", "-D", "--min-duration", "-f",
   "--input-file", "-#", "--filenames-as-tags", "-c", "--section", "--order", "--rng-seed",
   "--wait-for-keypress", "--shard-count", "--shard-index"]

/-- Look up a name in a table. -/
def find (a : Text) (table : List (String × String)) : Option Text :=
  (table.find? fun p => p.1.toList == a).map fun p => p.2.toList

/-- What the documentation says about an argument starting with a dash. -/
def kind (a : Text) : Kind :=
  match find a flags with
  | some l => .flag l
  | none =>
    match find a valuedOptions with
    | some l => .valued l
    | none => if swallowed.any (fun s => s.toList == a) then .swallow else .other

/-- The items of a command line. -/
inductive Token
  | option (long : Text) (value : Option Text)
  | positional (value : Text)
  | unknown (arg : Text)
  deriving DecidableEq, Repr

/-- Reading a command line from left to right; `none` if the value of an option is missing. -/
def tokens : List Text → Option (List Token)
  | [] => some []
  | a :: rest =>
    if a.head? = some '-' then
      match kind a with
      | .flag l => (tokens rest).map (.option l none :: ·)
      | .valued l =>
        match rest with
        | [] => none
        | v :: rest => (tokens rest).map (.option l (some v) :: ·)
      | .swallow =>
        match rest with
        | [] => some [.unknown a]
        | _ :: rest => (tokens rest).map (.unknown a :: ·)
      | .other => (tokens rest).map (.unknown a :: ·)
    else (tokens rest).map (.positional a :: ·)

/-- The long names of the options given. -/
def optionNames (ts : List Token) : List Text :=
  ts.filterMap fun | .option l _ => some l | _ => none

/-- The options given, by long name and value. -/
def optionsOf (ts : List Token) : List (Text × Option Text) :=
  ts.filterMap fun | .option l v => some (l, v) | _ => none

/-- The positional arguments given. -/
def positionalsOf (ts : List Token) : List Text :=
  ts.filterMap fun | .positional v => some v | _ => none

/-- The arguments nobody knows. -/
def unknowns (ts : List Token) : List Text :=
  ts.filterMap fun | .unknown a => some a | _ => none

/-- A command line is well-formed: every option that needs a value has one, and no option is given
twice (in any of its spellings). -/
def WellFormed (argv : List Text) : Prop := ∃ ts, tokens argv = some ts ∧ (optionNames ts).Nodup

/-- How many arguments the result records for any command line, well-formed or not, read from left to right: every
positional argument, and every option, with its value, where it is given for the first time. `seen` are the long names
of the options met so far. (The value of an option given once more is read as the next argument.) -/
def recordings (seen : List Text) : List Text → Nat
  | [] => 0
  | a :: rest =>
    if a.head? = some '-' then
      match kind a with
      | .flag l => if l ∈ seen then recordings seen rest else 1 + recordings (l :: seen) rest
      | .valued l =>
        if l ∈ seen then recordings seen rest
        else match rest with
          | [] => 0
          | _ :: rest => 1 + recordings (l :: seen) rest
      | .swallow =>
        match rest with
        | [] => 0
        | _ :: rest => recordings seen rest
      | .other => recordings seen rest
    else 1 + recordings seen rest

/-- The value of an option in a list of items. -/
def given (name : String) (ts : List Token) : Option Text :=
  ((optionsOf ts).find? fun p => p.1 == name.toList).bind Prod.snd

/-- The colour setting asked for by the value of an option. -/
def asks (yes no : String) (value : Option Text) : Option Bool :=
  if value = some yes.toList then some true
  else if value = some no.toList then some false else none

/-- The colour options on any command line, well-formed or not, with their values: read from left to right, each of them
where it is given for the first time; the value of another option is not taken for an option. `seen` are the colour options
met so far. (The value of one given once more is read as the next argument.) -/
def colorArgs (seen : List Text) : List Text → List (Text × Text)
  | [] => []
  | a :: rest =>
    if a.head? = some '-' then
      match kind a with
      | .valued l =>
        if l = "--color".toList ∨ l = "--colour-mode".toList then
          if l ∈ seen then colorArgs seen rest
          else match rest with
            | [] => []
            | v :: rest => (l, v) :: colorArgs (l :: seen) rest
        else match rest with
          | [] => []
          | _ :: rest => colorArgs seen rest
      | .swallow =>
        match rest with
        | [] => []
        | _ :: rest => colorArgs seen rest
      | _ => colorArgs seen rest
    else colorArgs seen rest

/-- Whether messages about a command line are in colour: as the value of `--colour-mode` says, or else that of `--color`, or
else by default. -/
def colorFor (dflt : Bool) (argv : List Text) : Bool :=
  let value (name : String) : Option Text := ((colorArgs [] argv).find? fun p => p.1 == name.toList).map (·.2)
  (asks "ansi" "none" (value "--colour-mode")).getD ((asks "always" "never" (value "--color")).getD dflt)

/-- The verbosity asked for by a value. -/
def verbosityOf (value : Option Text) : Option Nat :=
  match value with
  | none => none
  | some v =>
    if v = "quiet".toList then some 0 else if v = "normal".toList then some 1
    else if v = "high".toList then some 2 else if v = "full".toList then some 3 else none

/-- The part of a path after the last separator. -/
def IsFileName (path name : Text) : Prop :=
  ('/' ∉ name ∧ '\\' ∉ name) ∧ (path = name ∨ ∃ dir c, path = dir ++ c :: name ∧ (c = '/' ∨ c = '\\'))

/-- A file name without its extension: everything before the last dot, all of it without one. -/
def IsStem (name stem : Text) : Prop :=
  ('.' ∉ name ∧ stem = name) ∨ ∃ ext, '.' ∉ ext ∧ name = stem ++ '.' :: ext

end Verif.Cli.Spec
