import Verif.Spec.Console
/-!
# What the colours of the console report mean
-/
namespace Verif.Report.Spec.Colors
open Verif.Report.Console

/-- Where one is in a text with colours: in text without colour, in a code (what there is of it), in coloured text (its colour
and what there is of it), in the code that ends it. -/
inductive At where
  | plain
  | code (soFar : Text)
  | colored (code text : Text)
  | ending

/-- Reading a text: the coloured parts, each with the code of its colour. -/
def partsFrom : At → Text → List (Text × Text)
  | .colored code text, [] => [(code, text)]
  | _, [] => []
  | .plain, c :: cs => if c = '\x1b' then partsFrom (.code [c]) cs else partsFrom .plain cs
  | .code k, c :: cs => if c = 'm' then partsFrom (.colored (k ++ [c]) []) cs else partsFrom (.code (k ++ [c])) cs
  | .colored k t, c :: cs => if c = '\x1b' then (k, t) :: partsFrom .ending cs else partsFrom (.colored k (t ++ [c])) cs
  | .ending, c :: cs => if c = 'm' then partsFrom .plain cs else partsFrom .ending cs

def parts (s : Text) : List (Text × Text) := partsFrom .plain s

def red : Text := "\x1b[1;31m".toList
def green : Text := "\x1b[1;32m".toList
def yellow : Text := "\x1b[1;33m".toList

/-- The colours with a meaning; the others only set names and values off. -/
def signals (s : Text) : List (Text × Text) := (parts s).filter fun p => p.1 ∈ [red, green, yellow]

/-- What should be said in red, green or yellow about an event. -/
def signal : Console.Event → List (Text × Text)
  | .runEnded true _ _ _ _ _ => [(green, "success:".toList)]
  | .runEnded false _ _ _ _ _ => [(red, "error:".toList)]
  | .caseSkipped .. => [(yellow, "skipped: ".toList)]
  | .assertionFailed _ _ _ true _ => [(green, "expected failure: ".toList)]
  | .assertionFailed _ _ _ false true => [(green, "allowed failure: ".toList)]
  | .assertionFailed _ _ _ false false => [(red, "failed: ".toList)]
  | .assertionSucceeded .. => [(green, "passed: ".toList)]
  | _ => []

end Verif.Report.Spec.Colors
