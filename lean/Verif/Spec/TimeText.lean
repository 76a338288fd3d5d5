import Mathlib.Data.List.Forall2
import Verif.Model.Timing
import Verif.Spec.Rounding
import Verif.Spec.Spans
import Verif.Spec.Declared
import Verif.Model.Whole
/-!
# Times in reports
-/
namespace Verif.Timing.Spec
open Verif.Spec

/-- What is written for a `float` that is not negative: a number in scientific notation with seven digits, off by at most half a
unit of the last one and a billionth of it. This is what `C53_float` and `C53_zero` say of `append_constexpr`; it is also what
the C++ standard says of `std::to_chars` with the format and precision used when the program runs, where the billionth is not
needed. -/
def ShowsFloat (v : ℚ) (text : Text) : Prop :=
  text.length ≤ 13 ∧ ∃ d e, readScientific text = some (false, d, e) ∧ (v = 0 → d = 0) ∧
    (v ≠ 0 → 10 ^ 6 ≤ d ∧ d < 10 ^ 7 ∧ |(d : ℚ) * 10 ^ e - v| ≤ (1 / 2 + 1 / 10 ^ 9) * 10 ^ e)

/-- What reporters make of two times. -/
structure Rendered (start stop : Nat) (d : Events.Duration) : Prop where
  text : ShowsFloat (seconds toSingle start stop) d.text
  micros : micros toSingle (seconds toSingle start stop) = .ok d.micros

/-- The text is a number in scientific notation: the seconds between the two times (in nanoseconds), up to seven parts in ten
million. -/
def SaysSeconds (start stop : Nat) (text : Text) : Prop :=
  ∃ d e, readScientific text = some (false, d, e) ∧
    |(d : ℚ) * 10 ^ e - ((stop : ℚ) - start) / 10 ^ 9| ≤ 7 / 10 ^ 7 * (((stop : ℚ) - start) / 10 ^ 9)

/-- The number is that of the microseconds between the two times, up to one and one part in five million. -/
def SaysMicros (start stop n : Nat) : Prop :=
  |(n : ℚ) - ((stop : ℚ) - start) / 10 ^ 3| ≤ 1 + ((stop : ℚ) - start) / 10 ^ 3 / 5000000

/-- As `SaysSeconds`, for a time in a document, which is there only if times are to be shown. -/
def SaysTime (rl : Report.Limits) (start stop : Nat) (o : Option Text) : Prop :=
  if rl.timings then ∃ text, o = some text ∧ SaysSeconds start stop text else o = none

/-- The conditions on texts, without that on durations. -/
def timeless (k : Whole.Spec.Conditions) : Whole.Spec.Conditions := { k with duration := fun _ => True }

/-- The durations of a program are those measured with a clock that has been read `n` times: `r` are the times of the run that
the command line asks for, what its events tell is made of them, and nothing else is told as a duration. -/
structure Measured [Run.MessageLimit] (p : Whole.Program) (fuel : Nat) (argv0 : Text) (argv : List Text)
    (ts : List Cli.Spec.Token) (clock : Nat → Nat) (n : Nat) (r : RunTimes) : Prop where
  ran : runSelected clock n { p.lim with cfg := { p.lim.cfg with verbosity := Whole.Spec.verbosityIn p ts } } fuel
    (Filter.selectForRun p.lim.cfg.maxTag p.lim.maxName (Cli.Spec.positionalsOf ts)) p.cases = some (.ok r)
  told : ∀ (code : Nat) (es : List Events.Event), Events.main p.src p.lim fuel p.maxArgs (p.reporters.map (·.1)) (Whole.init p) (Whole.config p) argv0 argv
    p.cases = some (.ok (code, es.map .event)) →
    List.Forall₂ (fun (x : Named × Events.Duration) y => x.1 = y.1 ∧ Rendered y.2.1 y.2.2 x.2) (es.filterMap durationOf)
      (spans p.src (Whole.Spec.verbosityIn p ts) r)
  each : ∀ i, ∃ start stop, start ≤ stop ∧ stop < 2 ^ 63 ∧ Rendered start stop (p.src.duration i)

end Verif.Timing.Spec
