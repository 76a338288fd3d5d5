import Verif.Model.Cli
import Verif.Model.Print
import Verif.Model.StringUtil
/-!
# Model of what the command line prints

Source: include/snitch/snitch_cli.hpp 36-42, src/snitch_cli.cpp 121-125, 134-139, 155-159, 204-208, 217-227
(messages), 239-311 (`print_help`), 392-417.

The text given to `console_print` is the output. `cap` is `max_message_length`.
-/
namespace Verif.Cli
open Verif.Print

/-- include/snitch/snitch_console.hpp 15 `color::error`. -/
def errorColor : Text := "\x1b[1;31m".toList
/-- include/snitch/snitch_console.hpp 16 `color::warning`. -/
def warningColor : Text := "\x1b[1;33m".toList
/-- include/snitch/snitch_console.hpp 20 `color::pass`. -/
def usageColor : Text := "\x1b[1;32m".toList
/-- include/snitch/snitch_console.hpp 21 `color::highlight1`. -/
def headingColor : Text := "\x1b[1;35m".toList
/-- include/snitch/snitch_console.hpp 22 `color::highlight2`. -/
def descriptionColor : Text := "\x1b[1;36m".toList

/-- include/snitch/snitch_append.hpp 378-382 `append` with several arguments, for strings and coloured values: left to
right, stopping at the first failure. (As `Append.variadic`, which is for strings.) -/
def appendAll (ss : Str) : List Arg → Outcome (Str × Bool)
  | [] => .ok (ss, true)
  | a :: as => do
    let (ss, ok) ← appendArg ss a
    if ok then appendAll ss as else return (ss, false)

/-- include/snitch/snitch_string_utility.hpp 29-37: what follows after `append`. -/
def truncateUnless (ok : Bool) (ss : Str) : Outcome Str :=
  if ok then .ok ss else Util.truncateEnd ss

/-- include/snitch/snitch_cli.hpp 37-42 `cli::print`: the text given to `console_print`. -/
def say (cap : Nat) (args : List Arg) : Outcome Text := do
  let (ss, ok) ← appendAll (SV.empty cap ' ') args
  let ss ← truncateUnless ok ss
  return ss.contents

/-- A string literal. -/
def str (s : String) : Arg := .str s.toList

/-- `make_colored(value, settings.with_color, color)`. -/
def paint (color : Bool) (code value : Text) : Arg := .colored (makeColored value color code)

/-- src/snitch_cli.cpp 122-124, 135-138, 156-158, 205-207, 219-225: the arguments of `cli::print`. -/
def Msg.args (color : Bool) : Msg → List Arg
  | .duplicate arg => [paint color errorColor "error:".toList, str " duplicate command line argument '", .str arg,
      str "'\n"]
  | .missingValue value arg => [paint color errorColor "error:".toList, str " missing value '<", .str value,
      str ">' for command line argument '", .str arg, str "'\n"]
  | .unknown arg => [paint color warningColor "warning:".toList, str " unknown command line argument '", .str arg,
      str "'\n"]
  | .tooMany => [paint color errorColor "error:".toList, str " too many positional arguments\n"]
  | .missing false name => [paint color errorColor "error:".toList, str " missing positional argument '<", .str name,
      str ">'\n"]
  | .missing true name => [paint color errorColor "error:".toList, str " missing option '<", .str name, str ">'\n"]

/-- The messages, one after the other. -/
def sayAll (cap : Nat) (color : Bool) : List Msg → Outcome Text
  | [] => .ok []
  | m :: ms => do
    let t ← say cap (m.args color)
    let ts ← sayAll cap color ms
    return t ++ ts

/-- Dereferencing an optional value name (`*e.value_name`); undefined without one. -/
def theValueName (e : Expected) : Outcome Text :=
  match e.valueName with
  | none => .ub
  | some v => .ok v

/-- src/snitch_cli.cpp 260-270: how a positional argument is shown in the example of usage. -/
def positionalForm (e : Expected) : Outcome (List Arg) := do
  let v ← theValueName e
  return match e.mandatory, e.repeatable with
  | false, false => [str " [<", .str v, str ">]"]
  | true, false => [str " <", .str v, str ">"]
  | false, true => [str " [<", .str v, str ">...]"]
  | true, true => [str " <", .str v, str ">..."]

/-- src/snitch_cli.cpp 255-271: the loop over the positional arguments. -/
def usagePositionals (cap : Nat) : List Expected → Outcome Text
  | [] => .ok []
  | e :: es =>
    if e.ignored || e.isOption then usagePositionals cap es
    else do
      let t ← say cap (← positionalForm e)
      let ts ← usagePositionals cap es
      return t ++ ts

/-- src/snitch_cli.cpp 284-301: the strings appended to `heading`. (They are appended with several calls joined by
`success && append(...)`; so is one call with all of them.) `e.names` has at most two elements (12, 19). -/
def headingParts (e : Expected) : Outcome (List Text) :=
  match e.names with
  | [] => do
    let v ← theValueName e
    return ["<".toList, v, ">".toList]
  | n :: ns =>
    let indent := if ['-', '-'].isPrefixOf n then ["    ".toList] else []
    let second := match ns with
      | [m] => [", ".toList, m]
      | _ => []
    let value := match e.valueName with
      | none => []
      | some v => [" <".toList, v, ">".toList]
    .ok (indent ++ [n] ++ second ++ value)

/-- src/snitch_cli.cpp 282-305: the heading of an argument. `heading.clear()` leaves an empty string of the same
capacity. -/
def heading (cap : Nat) (e : Expected) : Outcome Text := do
  let parts ← headingParts e
  let (ss, _) ← Util.appendOrTruncate false (SV.empty cap ' ') parts
  return ss.contents

/-- src/snitch_cli.cpp 277-310: the list of arguments. -/
def listArguments (cap : Nat) (color : Bool) : List Expected → Outcome Text
  | [] => .ok []
  | e :: es =>
    if e.ignored then listArguments cap color es
    else do
      let h ← heading cap e
      let t ← say cap [str "  ", paint color headingColor h, str " ", .str e.description, str "\n"]
      let ts ← listArguments cap color es
      return t ++ ts

/-- src/snitch_cli.cpp 251-253. -/
def usageOptions (cap : Nat) (expected : List Expected) : Outcome Text :=
  if expected.any Expected.isOption then say cap [str " [options...]"] else .ok []

/-- src/snitch_cli.cpp 239-311 `impl::print_help`. -/
def printHelpWith (cap : Nat) (color : Bool) (name description : Text) (expected : List Expected) : Outcome Text := do
  let t1 ← say cap [paint color descriptionColor description, str "\n"]
  let t2 ← say cap [paint color usageColor "Usage:".toList, str "\n"]
  let t3 ← say cap [str "  ", .str name]
  let t4 ← usageOptions cap expected
  let t5 ← usagePositionals cap expected
  let t6 ← say cap [str "\n\n"]
  let t7 ← listArguments cap color expected
  return t1 ++ t2 ++ t3 ++ t4 ++ t5 ++ t6 ++ t7

/-- src/snitch_cli.cpp 392-393 `program_description`; `version` is `SNITCH_FULL_VERSION`. -/
def programDescription (version : Text) : Text :=
  "Test runner (snitch v".toList ++ version ++ " | compatible with Catch2 v3.4.0)".toList

/-- src/snitch_cli.cpp 399-401 `cli::print_help`. -/
def printHelp (cap : Nat) (color : Bool) (version name : Text) : Outcome Text :=
  printHelpWith cap color name (programDescription version) expectedArgs

/-- src/snitch_cli.cpp 411-414: what follows when the command line is refused. -/
def helpIfRefused (cap : Nat) (color : Bool) (version argv0 : Text) (ret : Option Input) : Outcome Text :=
  match ret with
  | some _ => .ok []
  | none => do
    let t ← say cap [str "\n"]
    let h ← printHelp cap color version argv0
    return t ++ h

/-- src/snitch_cli.cpp 403-417 `cli::parse_arguments`: everything printed, and the result. (The result is that of
`parseArguments`.) -/
def parseAndPrint (cap maxArgs : Nat) (dflt : Bool) (version argv0 : Text) (argv : List Text) :
    Outcome (Text × Option Input) := do
  let (color, msgs, ret) ← parseArguments maxArgs dflt argv0 argv
  let t ← sayAll cap color msgs
  let h ← helpIfRefused cap color version argv0 ret
  return (t ++ h, ret)

end Verif.Cli
