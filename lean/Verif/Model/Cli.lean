import Verif.Model.StringUtil
/-!
# Model of the command line

Source: src/snitch_cli.cpp 14-63, 65-237, 313-349, 352-390, 403-464; include/snitch/snitch_cli.hpp 23-32;
src/snitch_registry.cpp 914-1071; include/snitch/snitch_registry.hpp 150-151.

Messages printed during parsing are kept as structured values (`Msg`); their text and the help text are in
Verif/Model/Help.lean.
-/
namespace Verif.Cli
open Util

/-- src/snitch_cli.cpp 34-43: `path.find_last_of(chars)`, and what follows / precedes that position.
`afterLast p s` is `s` after the last character satisfying `p`, `none` if there is none. -/
def afterLast (p : Char → Bool) (s : Text) : Option Text :=
  match s with
  | [] => none
  | c :: s =>
    match afterLast p s with
    | some r => some r
    | none => if p c then some s else none

/-- The part of `s` before the last character satisfying `p` (see `afterLast`). -/
def beforeLast (p : Char → Bool) (s : Text) : Option Text :=
  match s with
  | [] => none
  | c :: s =>
    match beforeLast p s with
    | some r => some (c :: r)
    | none => if p c then some [] else none

/-- src/snitch_cli.cpp 34-43 `extract_executable`. -/
def extractExecutable (path : Text) : Text :=
  let path := (afterLast (fun c => c == '\\' || c == '/') path).getD path
  (beforeLast (· == '.') path).getD path

/-- src/snitch_cli.cpp 14-24 `expected_argument`. -/
structure Expected where
  names : List Text
  valueName : Option Text
  ignored : Bool
  mandatory : Bool
  repeatable : Bool
  description : Text
  deriving DecidableEq, Repr

/-- include/snitch/snitch_cli.hpp 23-27 `argument`. -/
structure Argument where
  name : Text
  valueName : Option Text
  value : Option Text
  deriving DecidableEq, Repr

/-- include/snitch/snitch_cli.hpp 29-32 `input`. -/
structure Input where
  executable : Text
  arguments : List Argument
  deriving DecidableEq, Repr

/-- Messages printed by `parse_arguments` (src/snitch_cli.cpp 121-125, 134-139, 155-159, 204-208,
217-227). -/
inductive Msg
  | duplicate (arg : Text)
  | missingValue (value arg : Text)
  | unknown (arg : Text)
  | tooMany
  | missing (option : Bool) (name : Text)
  deriving DecidableEq, Repr

/-- src/snitch_cli.cpp 45-47 `is_option(expected_argument)`. -/
def Expected.isOption (e : Expected) : Bool := !e.names.isEmpty

/-- src/snitch_cli.cpp 49-51 `is_option(argument)`. -/
def Argument.isOption (a : Argument) : Bool := !a.name.isEmpty

/-- The local variables of `parse_arguments` (src/snitch_cli.cpp 71-78), and the messages printed. -/
structure PState where
  args : List Argument := []
  found : List Bool := []
  bad : Bool := false
  msgs : List Msg := []
  deriving DecidableEq, Repr

/-- src/snitch_cli.cpp 79-97: are the expected arguments valid? -/
def validExpected (e : Expected) : Bool :=
  if e.isOption then
    match e.names with
    | [n] => ['-'].isPrefixOf n
    | n :: m :: _ => ['-'].isPrefixOf n && ['-', '-'].isPrefixOf m
    | [] => true
  else e.valueName.isSome

/-- `args.push_back(...)`: fails its assertion when the vector is full. -/
def pushArg (maxArgs : Nat) (a : Argument) (s : PState) : Outcome PState :=
  if s.args.length < maxArgs then .ok { s with args := s.args ++ [a] } else .abort

/-- Printing a message and remembering that the command line is bad (src/snitch_cli.cpp 120-128,
133-142, 203-210). -/
def fail (m : Msg) (s : PState) : PState := { s with bad := true, msgs := s.msgs ++ [m] }

/-- src/snitch_cli.cpp 105-152: the loop over the expected arguments for an argument which starts
with a dash. `next` is the argument that follows, if any. Returns whether a match was found, and by
how much `argi` was advanced. -/
def optionLoop (maxArgs : Nat) (arg : Text) (next : Option Text) : Nat → List Expected → PState →
    Outcome (PState × Bool × Nat)
  | _, [], s => .ok (s, false, 0)
  | i, e :: es, s =>
    if e.ignored || !e.isOption then optionLoop maxArgs arg next (i + 1) es s
    else if !e.names.contains arg then optionLoop maxArgs arg next (i + 1) es s
    else match s.found[i]? with
      | none => .abort
      | some seen =>
        if seen && !e.repeatable then .ok (fail (.duplicate arg) s, true, 0)
        else
          let s := { s with found := s.found.set i true }
          match e.valueName with
          | some vn =>
            match next with
            | none => .ok (fail (.missingValue vn arg) s, true, 0)
            | some v => do
              let s ← pushArg maxArgs ⟨e.names.getLastD [], some vn, some v⟩ s
              return (s, true, 1)
          | none => do
            let s ← pushArg maxArgs ⟨e.names.getLastD [], none, none⟩ s
            return (s, true, 0)

/-- src/snitch_cli.cpp 162-180: how many further arguments an ignored option swallows. -/
def swallow (arg : Text) : List Expected → Nat
  | [] => 0
  | e :: es =>
    if !e.ignored then swallow arg es
    else if !e.names.contains arg then swallow arg es
    else if e.valueName.isSome then 1 else 0

/-- src/snitch_cli.cpp 182-210: a positional argument. -/
def positionalLoop (maxArgs : Nat) (arg : Text) : Nat → List Expected → PState → Outcome PState
  | _, [], s => .ok (fail .tooMany s)
  | i, e :: es, s =>
    if e.ignored || e.isOption then positionalLoop maxArgs arg (i + 1) es s
    else match s.found[i]? with
      | none => .abort
      | some seen =>
        if seen && !e.repeatable then positionalLoop maxArgs arg (i + 1) es s
        else do
          let s ← pushArg maxArgs ⟨[], e.valueName, some arg⟩ s
          return { s with found := s.found.set i true }

/-- src/snitch_cli.cpp 154-160: a warning for an option which is not known. -/
def warnUnknown (arg : Text) (found : Bool) (s : PState) : PState :=
  if found then s else { s with msgs := s.msgs ++ [.unknown arg] }

/-- src/snitch_cli.cpp 99-212: the loop over the arguments. `skip` is the number of further arguments
that `argi += 1` has jumped over. -/
def parseLoop (maxArgs : Nat) (expected : List Expected) : List Text → Nat → PState → Outcome PState
  | [], _, s => .ok s
  | _ :: rest, skip + 1, s => parseLoop maxArgs expected rest skip s
  | arg :: rest, 0, s =>
    if ['-'].isPrefixOf arg then
      match optionLoop maxArgs arg rest.head? 0 expected s with
      | .abort => .abort
      | .ub => .ub
      | .ok (s, found, skip) =>
        parseLoop maxArgs expected rest (skip + swallow arg expected) (warnUnknown arg found s)
    else
      match positionalLoop maxArgs arg 0 expected s with
      | .abort => .abort
      | .ub => .ub
      | .ok s => parseLoop maxArgs expected rest 0 s

/-- src/snitch_cli.cpp 214-230: expected arguments that are mandatory must have been found. -/
def checkMandatory : Nat → List Expected → PState → PState
  | _, [], s => s
  | i, e :: es, s =>
    checkMandatory (i + 1) es
      (if !(s.found.getD i false) && e.mandatory && !e.ignored then
        fail (.missing e.isOption (if e.isOption then e.names.getLastD [] else e.valueName.getD [])) s
      else s)

/-- src/snitch_cli.cpp 65-237 `impl::parse_arguments`: the messages printed (when not silent) and the
result. The caller passes `argv[0]` and the other arguments. -/
def parseWith (maxArgs : Nat) (expected : List Expected) (tolerant : Bool) (argv0 : Text)
    (argv : List Text) : Outcome (List Msg × Option Input) :=
  if !expected.all validExpected then .abort
  else do
    let s ← parseLoop maxArgs expected argv 0 { found := expected.map fun _ => false }
    let s := checkMandatory 0 expected s
    return (s.msgs, if s.bad && !tolerant then none else some ⟨extractExecutable argv0, s.args⟩)

/-- One row of the table of expected arguments: an option. -/
def option (names : List String) (value : Option String) (ignored : Bool) (description : String := "") :
    Expected :=
  { names := names.map String.toList, valueName := value.map String.toList, ignored := ignored
    mandatory := false, repeatable := false, description := description.toList }

/-- src/snitch_cli.cpp 314-349 `expected_args`. -/
def expectedArgs : List Expected :=
  [ option ["-l", "--list-tests"] none false "List tests by name",
    option ["--list-tags"] none false "List tags by name",
    option ["--list-tests-with-tag"] (some "tag") false "List tests by name with a given tag",
    option ["--list-reporters"] none false "List available test reporters (see --reporter)",
    option ["-r", "--reporter"] (some "reporter[::key=value]*") false
      "Choose which reporter to use to output the test results",
    option ["-v", "--verbosity"] (some "quiet|normal|high|full") false
      "Define how much gets sent to the standard output",
    option ["-o", "--out"] (some "path") false "Saves output to a file given as 'path'",
    option ["--color"] (some "always|default|never") false "Enable/disable color in output",
    option ["--colour-mode"] (some "ansi|default|none") false
      "Enable/disable color in output (for compatibility with Catch2)",
    option ["-h", "--help"] none false "Print help",
    { names := [], valueName := some "test regex".toList, ignored := false, mandatory := false,
      repeatable := true, description := "A regex to select which test cases to run".toList },
    option ["-s", "--success"] none true,
    option ["-b", "--break"] none true,
    option ["-e", "--nothrow"] none true,
    option ["-i", "--invisibles"] none true,
    option ["-n", "--name"] none true,
    option ["-a", "--abort"] none true,
    option ["-x", "--abortx"] (some "x") true,
    option ["-w", "--warn"] (some "x") true,
    option ["-d", "--durations"] (some "x") true,
    option ["-D", "--min-duration"] (some "x") true,
    option ["-f", "--input-file"] (some "x") true,
    option ["-#", "--filenames-as-tags"] (some "x") true,
    option ["-c", "--section"] (some "x") true,
    option ["--list-listeners"] none true,
    option ["--order"] (some "x") true,
    option ["--rng-seed"] (some "x") true,
    option ["--libidentify"] none true,
    option ["--wait-for-keypress"] (some "x") true,
    option ["--shard-count"] (some "x") true,
    option ["--shard-index"] (some "x") true,
    option ["--allow-running-no-tests"] none true ]

/-- src/snitch_cli.cpp 355-367 `output_args`: everything but the colour options is ignored. -/
def outputArgs : List Expected :=
  expectedArgs.map fun e =>
    { e with ignored := !e.names.any fun n => n == "--color".toList || n == "--colour-mode".toList }

/-- src/snitch_cli.cpp 419-431 `get_option`. -/
def getOption (args : Input) (name : Text) : Option Argument :=
  args.arguments.find? fun a => a.name == name

/-- src/snitch_cli.cpp 433-446 `get_positional_argument`. -/
def getPositional (args : Input) (name : Text) : Option Argument :=
  args.arguments.find? fun a => !a.isOption && a.valueName == some name

/-- src/snitch_cli.cpp 448-464 `for_each_positional_argument`: the values passed to the callback.
Dereferencing the missing value of an argument would be undefined. -/
def positionals (name : Text) : List Argument → Outcome (List Text)
  | [] => .ok []
  | a :: as =>
    if !a.isOption && a.valueName == some name then
      match a.value with
      | none => .ub
      | some v => do
        let vs ← positionals name as
        return v :: vs
    else positionals name as

/-- src/snitch_cli.cpp 372-387: the colour options override the setting, `--colour-mode` last. -/
def overrideColor (dflt : Bool) (args : Input) : Bool :=
  let c := match getOption args "--color".toList with
    | some o => if o.value = some "always".toList then true
        else if o.value = some "never".toList then false else dflt
    | none => dflt
  match getOption args "--colour-mode".toList with
    | some o => if o.value = some "ansi".toList then true
        else if o.value = some "none".toList then false else c
    | none => c

/-- src/snitch_cli.cpp 352-390 `parse_color_options`. `dflt` is `SNITCH_DEFAULT_WITH_COLOR == 1`. -/
def parseColorOptions (maxArgs : Nat) (dflt : Bool) (argv0 : Text) (argv : List Text) :
    Outcome Bool := do
  let (_, ret) ← parseWith maxArgs outputArgs true argv0 argv
  match ret with
  | none => return dflt
  | some args => return overrideColor dflt args

/-- src/snitch_cli.cpp 403-417 `cli::parse_arguments`: whether messages are coloured, the messages,
and the result. -/
def parseArguments (maxArgs : Nat) (dflt : Bool) (argv0 : Text) (argv : List Text) :
    Outcome (Bool × List Msg × Option Input) := do
  let color ← parseColorOptions maxArgs dflt argv0 argv
  let (msgs, ret) ← parseWith maxArgs expectedArgs false argv0 argv
  return (color, msgs, ret)

/-! ## Configuring the registry -/

/-- What the registry is configured to (include/snitch/snitch_registry.hpp 118-161): the part that
`configure` changes. `reporter` is the position of the selected reporter in the list of registered
ones and the calls of its `configure` function; `none` is the default reporter. -/
structure Config where
  withColor : Bool
  verbosity : Nat
  out : Option Text
  reporter : Option (Nat × List (Text × Text))
  warnings : Nat
  deriving DecidableEq, Repr

/-- src/snitch_registry.cpp 992-1028 `parse_colour_mode_option` (with `ansi`, `none`) and
`parse_color_option` (with `always`, `never`): the new setting and whether it was effective. -/
def colorOption (yes no : Text) (value : Text) (c : Config) : Config × Bool :=
  if value = yes then ({ c with withColor := true }, true)
  else if value = no then ({ c with withColor := false }, true)
  else if value = "default".toList then (c, false)
  else ({ c with warnings := c.warnings + 1 }, false)

/-- Dereferencing the value of an option that was found (`*opt->value`); undefined without one. -/
def withValue {α : Type} (o : Option Argument) (dflt : α) (f : Text → Outcome α) : Outcome α :=
  match o with
  | none => .ok dflt
  | some a => match a.value with
    | none => .ub
    | some v => f v

/-- src/snitch_registry.cpp 1041-1056: the verbosity option. -/
def verbosityOption (value : Text) (c : Config) : Config :=
  if value = "quiet".toList then { c with verbosity := 0 }
  else if value = "normal".toList then { c with verbosity := 1 }
  else if value = "high".toList then { c with verbosity := 2 }
  else if value = "full".toList then { c with verbosity := 3 }
  else { c with warnings := c.warnings + 1 }

/-- src/snitch_registry.cpp 967-984: what happens with one option text: a call of the reporter's
`configure` function, or nothing but a warning. -/
def reporterOption (option : Text) : Option (Text × Text) :=
  match option.findIdx? (· == '=') with
  | none => none
  | some 0 => none
  | some p => some (option.take p, option.drop (p + 1))

/-- src/snitch_registry.cpp 957-985: the loop over the options; `options` starts with `::`. Returns
the calls of the reporter's `configure` function. `fuel` bounds the number of iterations. -/
def reporterOptions : Nat → Text → Option (List (Text × Text))
  | 0, _ => none
  | fuel + 1, options =>
    match findFrom options [':', ':'] 2 with
    | none => some (reporterOption (options.drop 2)).toList
    | some p =>
      let options := options.drop p
      (reporterOptions fuel options).map fun rest =>
        (reporterOption ((options.drop 2).take p)).toList ++ rest

/-- src/snitch_registry.cpp 915-990 `parse_reporter`; the registered reporters are given by their
names. A reporter always accepts an option here (whether it warns is up to the reporter), and warnings about
badly formatted options are not counted. What `initialize` does to the verbosity is in `Reg.verbosityFor`; everything
a reporter does to the settings, and what is printed, is in Verif/Model/Configure.lean (see `C70_agrees`). -/
def parseReporter (reporters : List Text) (arg : Text) (c : Config) : Outcome Config :=
  if arg.isEmpty || arg.head? == some ':' then .ok { c with warnings := c.warnings + 1 }
  else
    let pos := findFrom arg [':', ':'] 0
    let name := match pos with | some p => arg.take p | none => arg
    let options := match pos with | some p => arg.drop p | none => []
    match reporters.findIdx? (· == name) with
    | none => .ok { c with warnings := c.warnings + 1 }
    | some i =>
      match findFrom options [':', ':'] 0 with
      | none => .ok { c with reporter := some (i, []) }
      | some _ =>
        match reporterOptions (options.length + 1) options with
        | none => .ub
        | some calls => .ok { c with reporter := some (i, calls) }

/-- src/snitch_registry.cpp 1031-1040: the colour options, `--colour-mode` first. -/
def configureColor (args : Input) (c : Config) : Outcome (Config × Bool) := do
  let (c, o1) ← withValue (getOption args "--colour-mode".toList) (c, false) fun v =>
    .ok (colorOption "ansi".toList "none".toList v c)
  withValue (getOption args "--color".toList) (c, o1) fun v =>
    let r := colorOption "always".toList "never".toList v c
    .ok (r.1, r.2 || o1)

/-- src/snitch_registry.cpp 1058-1066: the output file. Opening it can fail (see `FileWriter.lean`). -/
def configureOut (args : Input) (override : Bool) (c : Config) : Outcome Config :=
  withValue (getOption args "--out".toList) c fun v =>
    .ok { c with out := some v, withColor := if override then c.withColor else false }

/-- src/snitch_registry.cpp 1031-1071 `registry::configure`. -/
def configure (reporters : List Text) (args : Input) (c : Config) : Outcome Config := do
  let (c, override) ← configureColor args c
  let c ← withValue (getOption args "--verbosity".toList) c fun v => .ok (verbosityOption v c)
  let c ← configureOut args override c
  withValue (getOption args "--reporter".toList) c fun v => parseReporter reporters v c

end Verif.Cli
