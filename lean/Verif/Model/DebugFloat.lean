import Verif.Model.Debug
import Verif.Spec.Decimal
import Verif.Spec.Quat
/-!
# The text of floats in messages

How the standard library writes an `f32` with `{:?}` and `{}`.  The code is not in the repository:
which digits are written is its documented contract, a shortest number that is read as the float.
`{:?}` writes an exponent below `1e-4` and from `1e16` on, and otherwise a point; `{}` never writes
an exponent, and a point only if there are digits after it.
-/
namespace Boxcars.Debug
open Spec

/-- The layout of `d * 10^k` (digits before the point: `lo` to `hi`). -/
def layout (point : Bool) (lo hi : Int) (d : Nat) (k : Int) : Str :=
  let ds := displayNat d
  let kk := (ds.length : Int) + k
  if lo ≤ kk ∧ kk ≤ hi then
    -- 1234e7 is 12340000000.0
    if 0 ≤ k then ds ++ List.replicate k.toNat '0' ++ (if point then ['.', '0'] else [])
    -- 1234e-2 is 12.34
    else if 0 < kk then ds.take kk.toNat ++ '.' :: ds.drop kk.toNat
    -- 1234e-6 is 0.001234
    else ['0', '.'] ++ List.replicate (-kk).toNat '0' ++ ds
  -- 1e30
  else if ds.length = 1 then ds ++ 'e' :: displayInt (kk - 1)
  -- 1234e30 is 1.234e33
  else ds.take 1 ++ '.' :: ds.drop 1 ++ 'e' :: displayInt (kk - 1)

def sign (f : F32) : Str := if fneg f then ['-'] else []

/-- What is known of the text of floats. -/
structure StdText (s : Std) : Prop where
  nan : ∀ f, IsNaN f → s.debug f = ['N', 'a', 'N'] ∧ s.display f = ['N', 'a', 'N']
  inf : ∀ f, ¬IsNaN f → ¬IsFinite f →
    s.debug f = sign f ++ ['i', 'n', 'f'] ∧ s.display f = sign f ++ ['i', 'n', 'f']
  zero : ∀ f, IsFinite f → fval f = 0 →
    s.debug f = sign f ++ ['0', '.', '0'] ∧ s.display f = sign f ++ ['0']
  other : ∀ f, IsFinite f → fval f ≠ 0 → ∃ d k, Shortest f d k ∧
    s.debug f = sign f ++ layout true (-3) 16 d k ∧
    s.display f = sign f ++ layout false (-100) 100 d k

end Boxcars.Debug
