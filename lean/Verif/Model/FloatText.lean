import Verif.Model.Prim
import Verif.Spec.Decimal
/-!
# The text of floats

How `serde_json` writes a finite `f32`.  The code is that of a dependency (`ryu`) and not in the
repository: which digits are written is its documented contract, a shortest number that is read as
the float.  The layout is that of `ryu`'s `pretty::format32`.
-/
namespace Boxcars
open Spec

/-- The layout of `d * 10^k`. -/
def floatLayout (neg : Bool) (d : Nat) (k : Int) : Str :=
  let ds := displayNat d
  let kk := (ds.length : Int) + k
  (if neg then ['-'] else []) ++
    -- 1234e7 is 12340000000.0
    if 0 ≤ k ∧ kk ≤ 13 then ds ++ List.replicate k.toNat '0' ++ ['.', '0']
    -- 1234e-2 is 12.34
    else if 0 < kk ∧ kk ≤ 13 then ds.take kk.toNat ++ '.' :: ds.drop kk.toNat
    -- 1234e-6 is 0.001234
    else if -6 < kk ∧ kk ≤ 0 then ['0', '.'] ++ List.replicate (-kk).toNat '0' ++ ds
    -- 1e30
    else if ds.length = 1 then ds ++ 'e' :: displayInt (kk - 1)
    -- 1234e30 is 1.234e33
    else ds.take 1 ++ '.' :: ds.drop 1 ++ 'e' :: displayInt (kk - 1)

/-- What is known of the text of floats: zeros have a sign, any other float is written as a shortest
number that is read as it. -/
structure RyuText (fmt : F32 → Str) : Prop where
  zero : ∀ f, IsFinite f → fval f = 0 →
    fmt f = if fneg f then ['-', '0', '.', '0'] else ['0', '.', '0']
  other : ∀ f, IsFinite f → fval f ≠ 0 → ∃ d k, Shortest f d k ∧ fmt f = floatLayout (fneg f) d k

end Boxcars
