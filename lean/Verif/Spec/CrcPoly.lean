import Mathlib.Algebra.Polynomial.Basic
import Mathlib.Data.ZMod.Defs
/-!
# Checksum errors as polynomials

The textbook reading of a cyclic redundancy check: a change of a message is a
polynomial over the field with two elements, and it goes unnoticed exactly if the
generator divides it.  This file uses neither the model nor the shift register.
-/
namespace Boxcars.Spec.Crc
open Polynomial

/-- `x^32 + x^26 + x^23 + x^22 + x^16 + x^12 + x^11 + x^10 + x^8 + x^7 + x^5 + x^4 + x^2 + x + 1`,
the generator of IEEE 802.3. -/
noncomputable def generator : (ZMod 2)[X] :=
  X ^ 32 + X ^ 26 + X ^ 23 + X ^ 22 + X ^ 16 + X ^ 12 + X ^ 11 + X ^ 10 + X ^ 8 + X ^ 7 + X ^ 5
    + X ^ 4 + X ^ 2 + X + 1

/-- The difference of two bit strings of the same length, first bit highest. -/
noncomputable def difference : List Bool → List Bool → (ZMod 2)[X]
  | x :: xs, y :: ys => (if x = y then 0 else X ^ xs.length) + difference xs ys
  | _, _ => 0

end Boxcars.Spec.Crc
