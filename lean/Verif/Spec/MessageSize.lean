import Verif.Model.Display
import Verif.Spec.Size
import Verif.Spec.Text
/-!
# What is assumed of the text made by the standard library

The texts of numbers, tags, locations and rotations have at most `K` bytes, that of an
attribute value at most `K` bytes for each of its entries.
-/
namespace Boxcars.Spec

/-- The text of the standard library is at most `K` times as long as the value. -/
structure BriefText (f : Display.Fmt) (K : Nat) : Prop where
  f32 : ∀ x, (utf8 (f.f32 x)).length ≤ K
  tag : ∀ x, (utf8 (f.tag x)).length ≤ K
  attr : ∀ a, (utf8 (f.attr a)).length ≤ K * attrSize a
  location : ∀ x, (utf8 (f.location x)).length ≤ K
  rotation : ∀ x, (utf8 (f.rotation x)).length ≤ K

end Boxcars.Spec
