import Verif.Spec.AttrFail
/-!
# Which errors of attribute values tell that the data end within the value
-/
namespace Boxcars.Spec

/-- The names of values that are reported as cut off also when they can not be completed. -/
def vagueNames : List String :=
  ["text string", "System id", "Party Leader", "Loadout Online", "Loadouts online"]

/-- The error tells that the value is cut off: data is lacking for anything but the values above, or
for the characters of a text. -/
def CutError : AttributeError → Prop
  | .notEnoughDataFor what => what ∉ vagueNames
  | .tooBigString n => -512 ≤ n.toInt ∧ n.toInt ≤ 1024
  | _ => False

/-- The error tells that no data can complete the value. -/
def FinalError : AttributeError → Prop
  | .notEnoughDataFor _ => False
  | .tooBigString n => 1024 < n.toInt ∨ n.toInt < -512
  | _ => True

end Boxcars.Spec
