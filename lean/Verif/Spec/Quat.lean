import Verif.Spec.Float
import Verif.Model.NetModels
import Mathlib.Algebra.Order.Field.Basic
/-!
# Rotations

What the components of a decoded rotation are, with each operation rounded correctly.
Independent of the arithmetic in `Model/Float.lean`; of the model only the type
`Quaternion` is used.
-/
namespace Boxcars.Spec

/-- `f` is the square root of the rational `x` correctly rounded: `f` is not negative, and
for every other binary32 `g` that is not negative the root is on the same side of the
midpoint of `f` and `g` as `f`, or it is the midpoint and `f` has the even fraction. -/
def NearestSqrt (x : ℚ) (f : F32) : Prop :=
  IsFinite f ∧ 0 ≤ fval f ∧ ∀ g, IsFinite g → 0 ≤ fval g →
    (fval f < fval g → x < ((fval f + fval g) / 2) ^ 2 ∨
      (x = ((fval f + fval g) / 2) ^ 2 ∧ ffrac f % 2 = 0)) ∧
    (fval g < fval f → ((fval f + fval g) / 2) ^ 2 < x ∨
      (x = ((fval f + fval g) / 2) ^ 2 ∧ ffrac f % 2 = 0))

/-- `1/√2` as a binary32. -/
def halfRoot : F32 := 0x3f3504f3#32

/-- The component of a rotation from its 18 bits `n`: `(n / 262143 - 1/2) * 2 * halfRoot`. -/
def Component (n : Nat) (f : F32) : Prop :=
  ∃ p r t : F32, Nearest ((n : ℚ) / 262143) p ∧ Nearest (fval p - 1 / 2) r ∧
    Nearest (fval r * 2) t ∧ Nearest (fval t * fval halfRoot) f

/-- What is left for the square of the fourth component: `1 - a² - b² - c²`, rounded after
each subtraction. -/
def Remainder (a b c : F32) (s : F32) : Prop :=
  ∃ s₁ s₂, Nearest (1 - fval a ^ 2) s₁ ∧ Nearest (fval s₁ - fval b ^ 2) s₂ ∧
    Nearest (fval s₂ - fval c ^ 2) s

/-- Not a number. -/
def IsNaN (f : F32) : Prop := fexp f = 255 ∧ ffrac f ≠ 0

/-- The fourth component. -/
def Fourth (a b c w : F32) : Prop :=
  ∃ s, Remainder a b c s ∧ (0 ≤ fval s → NearestSqrt (fval s) w) ∧ (fval s < 0 → IsNaN w)

/-- The component of a rotation before net version 7, from its 16 bits:
`(n - 32768) * (1 / 32767)`. -/
def OldComponent (n : Nat) (f : F32) : Prop :=
  ∃ q, Nearest (1 / 32767) q ∧ Nearest (((n : ℚ) - 32768) * fval q) f

/-- A rotation from the index `l` of the omitted component and the numbers of the others. -/
def Rotated (l a b c : Nat) (q : Quaternion) : Prop :=
  ∃ x y z w, Component a x ∧ Component b y ∧ Component c z ∧ Fourth x y z w ∧
    ((l = 0 ∧ q = ⟨w, x, y, z⟩) ∨ (l = 1 ∧ q = ⟨x, w, y, z⟩) ∨ (l = 2 ∧ q = ⟨x, y, w, z⟩) ∨
      (l = 3 ∧ q = ⟨x, y, z, w⟩))

/-- The number of which `f` is the component. -/
def number (f : F32) : ℚ := (fval f / fval halfRoot + 1) / 2 * 262143

/-- The transmitted components of a rotation of which component `l` was omitted. -/
def sent (l : Nat) (q : Quaternion) : F32 × F32 × F32 :=
  match l with
  | 0 => (q.y, q.z, q.w)
  | 1 => (q.x, q.z, q.w)
  | 2 => (q.x, q.y, q.w)
  | _ => (q.x, q.y, q.z)

/-- The sum of the squares of the components. -/
def norm2 (q : Quaternion) : ℚ := fval q.x ^ 2 + fval q.y ^ 2 + fval q.z ^ 2 + fval q.w ^ 2

/-- All four components are finite. -/
def FiniteQ (q : Quaternion) : Prop :=
  IsFinite q.x ∧ IsFinite q.y ∧ IsFinite q.z ∧ IsFinite q.w

end Boxcars.Spec
