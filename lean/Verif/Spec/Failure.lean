import Verif.Model.Failure
import Verif.Spec.Help
/-!
# What a program sees when something is refused
-/
namespace Verif.Failure.Spec
open Verif Verif.Failure

/-- What was printed on the console, as one text. -/
def onConsole (said : List Entry) : Text :=
  (said.filterMap fun | .console s => some s | _ => none).flatten

/-- What was printed by the registry, as one text. -/
def byRegistry (said : List Entry) : Text :=
  (said.filterMap fun | .registry s => some s | _ => none).flatten

/-- What the program's own handler was told. -/
def told (said : List Entry) : List Text :=
  said.filterMap fun | .handler s => some s | _ => none

/-- A call is refused for `reason`, in the state `s`, after the registry has printed `printed` and the text `shown` has
been printed on the console. With the standard handler the reason is printed on the console and the program is terminated.
A handler of the program is told the reason, once, and after everything that is printed. If it throws, the caller gets
the exception, and finds the state `s`. If it returns, the program is terminated all the same. -/
def Refused {σ α : Type} (h : Handler) (reason printed shown : Text) (s : σ) (r : Reply σ α) : Prop :=
  ∃ before, byRegistry before = printed ∧ onConsole before = shown ∧ told before = [] ∧
    match h with
    | .standard => (∃ after, r.said = before ++ after ∧ byRegistry after = [] ∧ told after = [] ∧
        onConsole after = "terminate called with message: ".toList ++ reason ++ "\n".toList) ∧ r.result = .terminated
    | .user ends => r.said = before ++ [.handler reason] ∧
      match ends reason with
      | .throws => r.result = .threw s
      | .never => r.result = .never
      | .returns | .terminates => r.result = .terminated

/-- A call is accepted: nothing is printed, the handler is not called, and the call returns. -/
def Accepted {σ α : Type} (s : σ) (a : α) (r : Reply σ α) : Prop := r = ⟨[], .ok s a⟩

/-- The text about a limit: what was exceeded, the option with which snitch has to be built to change this, and its
present value. -/
def limitText (color : Bool) (what option : String) (limit : Nat) : Text :=
  Cli.Spec.tinted color "\x1b[1;31m" "error:".toList ++ (" max ".toList ++ what.toList ++ " reached; please increase '".toList ++
    option.toList ++ "' (currently ".toList) ++ Nat.toDigits 10 limit ++ ")".toList

/-- The documented precondition of a call of a vector function. -/
def Allowed {α : Type} (v : SV α) : SV.Op α → Prop
  | .clear => True
  | .resize n => n ≤ v.capacity
  | .grow n => v.size + n ≤ v.capacity
  | .pushBack _ => v.size < v.capacity
  | .popBack => v.size ≠ 0
  | .set i _ => i < v.size

/-- Why such a call is refused. -/
def reasonFor {α : Type} : SV.Op α → Text
  | .popBack => "pop_back() called on empty vector".toList
  | .set _ _ => "operator[] called with incorrect index".toList
  | _ => "small vector is full".toList

/-- The arguments of `grow` for which the sum of sizes is one of `std::size_t` (C01 is about the others). -/
def NoWrap {α : Type} (v : SV α) : SV.Op α → Prop
  | .grow n => v.size + n < 2 ^ 64
  | _ => True

/-- A function that, whenever an exception leaves it, has changed nothing. -/
def Unharmed {σ α : Type} (x : Act σ α) : Prop := ∀ h s t, (x h s).result = .threw t → t = s

/-- Calls one after the other, without catching anything. -/
def oneByOne {σ α : Type} : List (Act σ α) → Act σ Unit
  | [] => pure ()
  | x :: xs => do
    let _ ← x
    oneByOne xs

/-- The calls that are not refused if they are tried one after the other, the ones that are refused being left out. -/
def accepted {σ α : Type} (h : Handler) : List (Act σ α) → σ → List (Act σ α)
  | [], _ => []
  | x :: xs, s =>
    match (x h s).result with
    | .ok t _ => x :: accepted h xs t
    | _ => accepted h xs s

/-- A handler that throws whatever it is told. -/
def throwing : Handler := .user fun _ => .throws

end Verif.Failure.Spec
