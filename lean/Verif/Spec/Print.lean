import Verif.Model.Print
/-!
# What printing shows
-/
namespace Verif.Print.Spec

/-- The complete text of an argument. -/
def whole : Arg → Text
  | .str s => s
  | .value s => s
  | .colored c => c.start ++ c.value ++ c.stop

/-- What an argument prints as with a buffer of `cap` characters, when its complete text has to be
shortened: strings never are; other values are cut at the capacity and followed by an ellipsis; of a
coloured value, it is the value that is cut, unless the value itself fits with the starting code
(see `C35_reset_cut`). -/
def shown (cap : Nat) : Arg → Text
  | .str s => s
  | .value s => if s.length ≤ cap then s else s.take cap ++ "...".toList.take cap
  | .colored c =>
    if cap ≤ c.start.length + c.stop.length then "...".toList.take cap
    else if c.start.length + c.value.length + c.stop.length ≤ cap then c.start ++ c.value ++ c.stop
    else if c.start.length + c.value.length ≤ cap then
      (c.start ++ c.value ++ c.stop).take cap ++ "...".toList.take cap
    else (c.start ++ c.value).take (cap - c.stop.length) ++ c.stop ++ "...".toList.take cap

/-- The argument fits in a buffer of `cap` characters; no condition on strings. -/
def Fits (cap : Nat) : Arg → Prop
  | .str _ => True
  | .value s => s.length ≤ cap
  | .colored c => c.start.length + c.value.length + c.stop.length ≤ cap ∧
      c.start.length + c.stop.length < cap

end Verif.Print.Spec
