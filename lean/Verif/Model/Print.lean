import Verif.Model.Append
/-!
# Model of coloured text and of printing

Source: include/snitch/snitch_console.hpp 26-51, include/snitch/snitch_registry.hpp 163-200. All of it
runs at run time, so strings are appended by the run-time path.
-/
namespace Verif.Print

/-- include/snitch/snitch_console.hpp 26-31 `colored<T>`, for a value printed as the text `value`. -/
structure Colored where
  value : Text
  start : Text
  stop : Text
deriving DecidableEq, Repr

/-- include/snitch/snitch_console.hpp 23 `color::reset`. -/
def reset : Text := "\x1b[0m".toList

/-- include/snitch/snitch_console.hpp 33-36 `make_colored`. -/
def makeColored (value : Text) (withColor : Bool) (start : Text) : Colored :=
  { value, start := if withColor then start else [], stop := if withColor then reset else [] }

/-- include/snitch/snitch_console.hpp 45-48: if the value was cut, make room for the `n` characters of the
code that ends it. -/
def makeRoom (fits : Bool) (n : Nat) (ss : Str) : Outcome Str :=
  if fits then .ok ss else ss.resize (ss.capacity - n)

/-- include/snitch/snitch_console.hpp 38-51 `append(ss, colored_value)`. The sum of the sizes of the
two codes is taken not to wrap. -/
def appendColored (ss : Str) (c : Colored) : Outcome (Str × Bool) :=
  if ss.available ≤ c.start.length + c.stop.length then .ok (ss, false)
  else do
    let (ss, fits) ← Append.variadic false ss [c.start, c.value]
    let ss ← makeRoom fits c.stop.length ss
    let (ss, fitsStop) ← Append.text false ss c.stop
    return (ss, fitsStop && fits)

/-- An argument of `registry::print`: a string, a coloured value, or any other value that is appended
as a text (integers, pointers, ... : C04-C06). -/
inductive Arg where
  | str (s : Text)
  | colored (c : Colored)
  | value (s : Text)
deriving DecidableEq, Repr

/-- `append(ss, value)` for an argument: include/snitch/snitch_append.hpp 281-287,
include/snitch/snitch_console.hpp 38-51. -/
def appendArg (ss : Str) : Arg → Outcome (Str × Bool)
  | .str s => Append.text false ss s
  | .value s => Append.text false ss s
  | .colored c => appendColored ss c

/-- include/snitch/snitch_registry.hpp 181-184: the last resort of `append_or_print` for an argument
which is not a string. -/
def cutShort (ss : Str) (chunks : List Text) : Outcome (Str × List Text) := do
  let (ss', _) ← Append.text false ss.clear "...".toList
  return (ss', chunks ++ [ss.contents])

/-- include/snitch/snitch_registry.hpp 164-186 `append_or_print`: the buffer and the texts given to
`print_callback` so far. -/
def appendOrPrint (a : Arg) (ss : Str) (chunks : List Text) : Outcome (Str × List Text) := do
  let initSize := ss.size
  let (ss, fits) ← appendArg ss a
  if fits then return (ss, chunks)
  else
    let ss ← ss.resize initSize
    let chunks := chunks ++ [ss.contents]
    let ss := ss.clear
    let (ss, fits) ← appendArg ss a
    if fits then return (ss, chunks)
    else match a with
      | .str s => return (ss.clear, chunks ++ [s])
      | _ => cutShort ss chunks

/-- include/snitch/snitch_registry.hpp 191: the fold over the arguments. -/
def printLoop : List Arg → Str → List Text → Outcome (Str × List Text)
  | [], ss, chunks => .ok (ss, chunks)
  | a :: as, ss, chunks => do
    let (ss, chunks) ← appendOrPrint a ss chunks
    printLoop as ss chunks

/-- include/snitch/snitch_registry.hpp 189-195 `print(args...)`; `cap` is `max_message_length`.
The result is the list of texts given to `print_callback`. -/
def print (cap : Nat) (args : List Arg) : Outcome (List Text) := do
  let (ss, chunks) ← printLoop args (SV.empty cap ' ') []
  return if ss.size = 0 then chunks else chunks ++ [ss.contents]

/-- include/snitch/snitch_registry.hpp 197-200 `print(str)`. -/
def printStr (s : Text) : List Text := [s]

end Verif.Print
