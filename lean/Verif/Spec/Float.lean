import Verif.Model.Prim
import Mathlib.Algebra.Order.Field.Rat
import Mathlib.Algebra.Order.Field.Power
/-!
# IEEE-754 binary32 values and correct rounding

Independent of the arithmetic in `Model/Float.lean`.
-/
namespace Boxcars.Spec

/-- Exponent field, bits 23 to 30. -/
def fexp (f : F32) : Nat := (f.toNat / 2 ^ 23) % 256
/-- Fraction field, bits 0 to 22. -/
def ffrac (f : F32) : Nat := f.toNat % 2 ^ 23
/-- Sign, bit 31. -/
def fneg (f : F32) : Bool := decide (2 ^ 31 ≤ f.toNat)

/-- Neither infinite nor NaN. -/
def IsFinite (f : F32) : Prop := fexp f ≠ 255

/-- Absolute value of a finite binary32. -/
def fabs (f : F32) : ℚ :=
  if fexp f = 0 then (ffrac f : ℚ) * (2 : ℚ) ^ (-149 : ℤ)
  else ((2 ^ 23 + ffrac f : ℕ) : ℚ) * (2 : ℚ) ^ ((fexp f : ℤ) - 150)

/-- Value of a finite binary32. -/
def fval (f : F32) : ℚ := if fneg f then -fabs f else fabs f

/-- `f` is the rational `x` correctly rounded: no finite binary32 is nearer, and of two
equally near ones `f` has the even fraction. -/
def Nearest (x : ℚ) (f : F32) : Prop :=
  IsFinite f ∧ ∀ g, IsFinite g → |fval f - x| < |fval g - x| ∨
    (|fval f - x| = |fval g - x| ∧ (fval f = fval g ∨ ffrac f % 2 = 0))

end Boxcars.Spec
