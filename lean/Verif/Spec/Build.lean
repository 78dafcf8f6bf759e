import Verif.Model.Types
/-!
# Build versions

Such as `221120.42953.406184`: a date and two numbers.
-/
namespace Boxcars.Spec

/-- A number with `k` decimal digits. -/
def decDigits : Nat → Nat → Str
  | 0, _ => []
  | k + 1, n => Char.ofNat (48 + n / 10 ^ k) :: decDigits k (n % 10 ^ k)

/-- A date of six digits, a number of `k` digits and one of `l` digits. -/
def buildText (k l date b c : Nat) : Str := decDigits 6 date ++ '.' :: (decDigits k b ++ '.' :: decDigits l c)

/-- The build with which the layout changed, or a later one: by date, then by the numbers. -/
def RecentBuild (date b c : Nat) : Prop :=
  221120 < date ∨ (date = 221120 ∧ (42953 < b ∨ (b = 42953 ∧ 406184 ≤ c)))

end Boxcars.Spec
