import Verif.Model.Help
/-!
# Model of `registry::configure` with everything it prints and what reporters do

Source: src/snitch_registry.cpp 914-1071, src/snitch_reporter_console.cpp 89-102, src/snitch_reporter_catch2_xml.cpp
164-173, src/snitch_reporter_teamcity.cpp 120-124, 181-186, include/snitch/snitch_registry.hpp 94-108, 130-144.

`Cli.configure` (Verif/Model/Cli.lean) is the part of this that does not depend on what reporters do. Printing with
`cli::print` changes nothing else, so the arguments of its calls are collected, and printed by `sayEach`.
-/
namespace Verif.Configure
open Verif Verif.Cli Verif.Print Verif.Util

/-- include/snitch/snitch_registry.hpp 150-151 `verbose`, `with_color`; and the state of the reporters, whatever it
is. -/
structure Settings (σ : Type) where
  withColor : Bool
  verbosity : Nat
  own : σ
  deriving DecidableEq, Repr

/-- include/snitch/snitch_registry.hpp 101-108 `registered_reporter`: `initialize` and `configure`. These get the registry and
can change its settings; `configure` says whether it knows the option, and can print. (Simplified: they leave alone the
list of reporters, the output and the callbacks of the registry, and print with `cli::print` only.) -/
structure Reporter (σ : Type) where
  name : Text
  prepare : Settings σ → Settings σ
  configure : Text → Text → Settings σ → Settings σ × List (List Arg) × Bool

variable {σ : Type}

/-- A call of `cli::print` with a warning. -/
def warning (color : Bool) (args : List Arg) : List Arg := paint color warningColor "warning:".toList :: args

/-- include/snitch/snitch_console.hpp 17 `color::status`. -/
def statusColor : Text := "\x1b[1;36m".toList

/-- A call of `cli::print` with a note. -/
def note (color : Bool) (args : List Arg) : List Arg := paint color statusColor "note:".toList :: args

/-- src/snitch_registry.cpp 992-1009 `parse_colour_mode_option`. -/
def colourMode (value : Text) (s : Settings σ) : Settings σ × List (List Arg) × Bool :=
  if value = "ansi".toList then ({ s with withColor := true }, [], true)
  else if value = "none".toList then ({ s with withColor := false }, [], true)
  else if value = "default".toList then (s, [], false)
  else (s, [warning s.withColor [str " unknown color directive; please use one of ansi|default|none\n"]], false)

/-- src/snitch_registry.cpp 1011-1028 `parse_color_option`. -/
def color (value : Text) (s : Settings σ) : Settings σ × List (List Arg) × Bool :=
  if value = "always".toList then ({ s with withColor := true }, [], true)
  else if value = "never".toList then ({ s with withColor := false }, [], true)
  else if value = "default".toList then (s, [], false)
  else (s, [warning s.withColor [str " unknown color directive; please use one of always|default|never\n"]], false)

/-- src/snitch_registry.cpp 1042-1055: the verbosity option. -/
def verbosity (value : Text) (s : Settings σ) : Settings σ × List (List Arg) :=
  if value = "quiet".toList then ({ s with verbosity := 0 }, [])
  else if value = "normal".toList then ({ s with verbosity := 1 }, [])
  else if value = "high".toList then ({ s with verbosity := 2 }, [])
  else if value = "full".toList then ({ s with verbosity := 3 }, [])
  else (s, [warning s.withColor [str " unknown verbosity level; please use one of quiet|normal|high|full\n"]])

/-- src/snitch_registry.cpp 965-984: one option of a reporter. -/
def oneOption (r : Reporter σ) (option : Text) (s : Settings σ) : Settings σ × List (List Arg) :=
  match option.findIdx? (· == '=') with
  | none => (s, [warning s.withColor [str " badly formatted reporter option '", .str option,
      str "'; expected 'key=value'\n"]])
  | some 0 => (s, [warning s.withColor [str " badly formatted reporter option '", .str option,
      str "'; expected 'key=value'\n"]])
  | some p =>
    let x := r.configure (option.take p) (option.drop (p + 1)) s
    if x.2.2 then (x.1, x.2.1)
    else (x.1, x.2.1 ++ [warning x.1.withColor [str " unknown reporter option '", .str (option.take p), str "'\n"]])

/-- src/snitch_registry.cpp 957-985: the loop over the options; `options` starts with `::`. `fuel` bounds the number of
iterations. -/
def optionLoop (r : Reporter σ) : Nat → Text → Settings σ → List (List Arg) → Outcome (Settings σ × List (List Arg))
  | 0, _, _, _ => .ub
  | fuel + 1, options, s, said =>
    match findFrom options [':', ':'] 2 with
    | none =>
      let x := oneOption r (options.drop 2) s
      .ok (x.1, said ++ x.2)
    | some p =>
      let options := options.drop p
      let x := oneOption r ((options.drop 2).take p) s
      optionLoop r fuel options x.1 (said ++ x.2)

/-- src/snitch_registry.cpp 956-985: the options, if there are any. -/
def options (r : Reporter σ) (options : Text) (s : Settings σ) : Outcome (Settings σ × List (List Arg)) :=
  match findFrom options [':', ':'] 0 with
  | none => .ok (s, [])
  | some _ => optionLoop r (options.length + 1) options s []

/-- The registry, as far as `configure` is concerned: settings, path of the output file, position of the reporter
that gets the events (`none`: the default), and the calls of `cli::print` so far. -/
structure State (σ : Type) where
  settings : Settings σ
  out : Option Text := none
  reporter : Option Nat := none
  said : List (List Arg) := []
  deriving DecidableEq, Repr

/-- src/snitch_registry.cpp 936-989: the part of `parse_reporter` after the name and the options have been separated. -/
def choose (reporters : List (Reporter σ)) (name opts : Text) (st : State σ) : Outcome (State σ) :=
  match reporters.findIdx? (·.name == name) with
  | none =>
    .ok { st with said := st.said ++
      [warning st.settings.withColor [str " unknown reporter '", .str name, str "', using default\n"],
       note st.settings.withColor [str " available reporters:\n"]] ++
      reporters.map fun r => note st.settings.withColor [str "  ", .str r.name, str "\n"] }
  | some i =>
    match reporters[i]? with
    | none => .ub
    | some r => do
      let x ← options r opts (r.prepare st.settings)
      .ok { st with settings := x.1, reporter := some i, said := st.said ++ x.2 }

/-- src/snitch_registry.cpp 914-990 `parse_reporter`. -/
def parseReporter (reporters : List (Reporter σ)) (arg : Text) (st : State σ) : Outcome (State σ) :=
  if arg.isEmpty || arg.head? == some ':' then
    .ok { st with said := st.said ++ [warning st.settings.withColor [str " invalid reporter '", .str arg,
      str "', using default\n"]] }
  else match findFrom arg [':', ':'] 0 with
    | some p => choose reporters (arg.take p) (arg.drop p) st
    | none => choose reporters arg [] st

/-- src/snitch_registry.cpp 1032-1039: the colour options. -/
def configureColor (args : Input) (st : State σ) : Outcome (State σ × Bool) := do
  let (st, o1) ← withValue (getOption args "--colour-mode".toList) (st, false) fun v =>
    let x := colourMode v st.settings
    .ok ({ st with settings := x.1, said := st.said ++ x.2.1 }, x.2.2)
  withValue (getOption args "--color".toList) (st, o1) fun v =>
    let x := color v st.settings
    .ok ({ st with settings := x.1, said := st.said ++ x.2.1 }, x.2.2 || o1)

/-- src/snitch_registry.cpp 1031-1071 `registry::configure`. (For what happens to the output file see
Verif/Model/Output.lean.) -/
def configure (reporters : List (Reporter σ)) (args : Input) (st : State σ) : Outcome (State σ) := do
  let (st, override) ← configureColor args st
  let st ← withValue (getOption args "--verbosity".toList) st fun v =>
    let x := verbosity v st.settings
    .ok { st with settings := x.1, said := st.said ++ x.2 }
  let st ← withValue (getOption args "--out".toList) st fun v =>
    .ok { st with out := some v, settings :=
      { st.settings with withColor := if override then st.settings.withColor else false } }
  withValue (getOption args "--reporter".toList) st fun v => parseReporter reporters v st

/-- The calls of `cli::print`, one after the other (`cap` is `max_message_length`). -/
def sayEach (cap : Nat) : List (List Arg) → Outcome Text
  | [] => .ok []
  | m :: ms => do
    let t ← say cap m
    let ts ← sayEach cap ms
    return t ++ ts

/-- src/snitch_reporter_console.cpp 89-102: the console reporter. -/
def console (name : Text) : Reporter σ where
  name := name
  prepare := id
  configure := fun option value s =>
    if option = "color".toList then
      let x := color value s
      (x.1, x.2.1, true)
    else if option = "colour-mode".toList then
      let x := colourMode value s
      (x.1, x.2.1, true)
    else (s, [], false)

/-- src/snitch_reporter_catch2_xml.cpp 164-173 and src/snitch_reporter_teamcity.cpp 120-124, 181-186 (with the default
for `configure`, src/snitch_registry.cpp 330-331): the XML and TeamCity reporters. -/
def noOptions (name : Text) : Reporter σ where
  name := name
  prepare := fun s => { s with verbosity := if s.verbosity < 2 then 2 else s.verbosity }
  configure := fun _ _ s => (s, [], false)

end Verif.Configure
