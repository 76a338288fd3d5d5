import Verif.Model.Configure
import Verif.Spec.Help
import Verif.Spec.Print
/-!
# What configuring a registry says and does

Uses the kinds of reporters of Verif/Model/Configure.lean, but not the functions that read the options.
-/
namespace Verif.Configure.Spec
open Verif Verif.Spec Verif.Cli.Spec

/-- A warning, as it is printed; at most `cap` characters are shown. -/
def warningLine (cap : Nat) (color : Bool) (text : Text) : Text :=
  cut cap (tinted color "\x1b[1;33m" "warning:".toList ++ text ++ "\n".toList)

/-- A note, as it is printed. -/
def noteLine (cap : Nat) (color : Bool) (text : Text) : Text :=
  cut cap (tinted color "\x1b[1;36m" "note:".toList ++ text ++ "\n".toList)

/-- The warning about the value of an option that is not one of three; `color` says whether it is in colour. -/
def directive (cap : Nat) (color : Bool) (yes no : String) (value : Option Text) : Text :=
  match value with
  | none => []
  | some v =>
    if v ∈ [yes.toList, "default".toList, no.toList] then []
    else warningLine cap color (" unknown color directive; please use one of ".toList ++ yes.toList ++
      "|default|".toList ++ no.toList)

/-- The warning about an unknown verbosity. -/
def levelWarning (cap : Nat) (color : Bool) (value : Option Text) : Text :=
  match value with
  | none => []
  | some v =>
    if v ∈ ["quiet".toList, "normal".toList, "high".toList, "full".toList] then []
    else warningLine cap color " unknown verbosity level; please use one of quiet|normal|high|full".toList

/-- The pieces of a text between `::`, from left to right. -/
def pieces : Text → List Text
  | [] => [[]]
  | ':' :: ':' :: r => [] :: pieces r
  | c :: r => match pieces r with
    | [] => [[c]]
    | w :: ws => (c :: w) :: ws

/-- Options as written, each after `::`. -/
def glued : List Text → Text
  | [] => []
  | o :: os => "::".toList ++ o ++ glued os

/-- What is taken for the options, if these are written: the last one as it is; instead of each one before, a text that
begins with the next one and is two characters longer. -/
def taken : List Text → List Text
  | [] => []
  | [o] => [o]
  | o :: o' :: os => (o' ++ glued os).take (o.length + 2) :: taken (o' :: os)

variable {σ : Type}

/-- What a reporter does with a list of options, and what is printed meanwhile. -/
def offered (cap : Nat) (r : Reporter σ) : List Text → Settings σ → Settings σ × Text
  | [], s => (s, [])
  | o :: os, s =>
    let k := o.takeWhile (· ≠ '=')
    if k = [] ∨ '=' ∉ o then
      let y := offered cap r os s
      (y.1, warningLine cap s.withColor (" badly formatted reporter option '".toList ++ o ++
        "'; expected 'key=value'".toList) ++ y.2)
    else
      let x := r.configure k (o.drop (k.length + 1)) s
      let y := offered cap r os x.1
      (y.1, (x.2.1.map fun m => cut cap (m.flatMap Print.Spec.whole)).flatten ++
        (if x.2.2 then [] else warningLine cap x.1.withColor (" unknown reporter option '".toList ++ k ++ "'".toList)) ++
        y.2)

/-- The first reporter with this name, and its position. -/
def named (name : Text) : List (Reporter σ) → Option (Nat × Reporter σ)
  | [] => none
  | r :: rs => if r.name = name then some (0, r) else (named name rs).map fun p => (p.1 + 1, p.2)

/-- What choosing the reporter with this name and these options does: settings, position of the reporter chosen if
there is one, and what is printed. -/
def picked (cap : Nat) (rs : List (Reporter σ)) (name : Text) (os : List Text) (s : Settings σ) :
    Settings σ × Option Nat × Text :=
  match named name rs with
  | none => (s, none, warningLine cap s.withColor (" unknown reporter '".toList ++ name ++ "', using default".toList) ++
      noteLine cap s.withColor " available reporters:".toList ++
      (rs.map fun r => noteLine cap s.withColor ("  ".toList ++ r.name)).flatten)
  | some (i, r) =>
    let x := offered cap r (taken os) (r.prepare s)
    (x.1, some i, x.2)

/-- What the value of `--reporter` does: the name comes first, and then the options. -/
def chosen (cap : Nat) (rs : List (Reporter σ)) (value : Option Text) (s : Settings σ) :
    Settings σ × Option Nat × Text :=
  match value with
  | none => (s, none, [])
  | some arg =>
    if arg = [] ∨ arg.head? = some ':' then
      (s, none, warningLine cap s.withColor (" invalid reporter '".toList ++ arg ++ "', using default".toList))
    else picked cap rs ((pieces arg).headD []) (pieces arg).tail s

/-- The reporter that a value of `--reporter` chooses, by its position among these names: the first one whose name is
what comes before any `::`. -/
def choice (names : List Text) (value : Option Text) : Option Nat :=
  match value with
  | none => none
  | some arg =>
    if arg = [] ∨ arg.head? = some ':' then none
    else if (pieces arg).headD [] ∈ names then some (names.idxOf ((pieces arg).headD [])) else none

/-- What `configure` does with the values given for `--colour-mode`, `--color`, `--verbosity`, `--out` and `--reporter`:
these options come into effect in this order, a warning about one of them is in colour if the ones before say so, and
an output file disables colours unless one of the first two had an effect. -/
def configured (cap : Nat) (rs : List (Reporter σ)) (mode color level out reporter : Option Text) (s : Settings σ) :
    Settings σ × Option Nat × Text :=
  let c1 := (asks "ansi" "none" mode).getD s.withColor
  let c2 := (asks "always" "never" color).getD c1
  let c3 := if out.isSome ∧ asks "ansi" "none" mode = none ∧ asks "always" "never" color = none then false else c2
  let r := chosen cap rs reporter ⟨c3, (verbosityOf level).getD s.verbosity, s.own⟩
  (r.1, r.2.1, directive cap s.withColor "ansi" "none" mode ++ directive cap c1 "always" "never" color ++
    levelWarning cap c2 level ++ r.2.2)

end Verif.Configure.Spec
