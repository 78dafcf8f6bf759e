import Verif.Spec.Json
import Mathlib.Algebra.Order.Field.Power
/-!
# Decimal numbers and the floats they are read as
-/
namespace Boxcars.Spec
open Boxcars

/-- The number that digits stand for. -/
def digitsVal (t : Str) : Nat := t.foldl (fun n c => 10 * n + (c.toNat - 48)) 0

/-- A decimal digit. -/
def isDigit (c : Char) : Bool := decide (48 ≤ c.toNat) && decide (c.toNat ≤ 57)

/-- The exponent of a JSON number. -/
def expVal : Str → Int
  | _ :: '-' :: d => -(digitsVal d : Int)
  | _ :: '+' :: d => digitsVal d
  | _ :: d => digitsVal d
  | [] => 0

/-- Digits after a decimal point, and what follows them. -/
def fracPart : Str → Str × Str
  | '.' :: t => (t.takeWhile isDigit, t.dropWhile isDigit)
  | t => ([], t)

/-- The value of a JSON number without its sign. -/
def absVal (t : Str) : ℚ :=
  let f := fracPart (t.dropWhile isDigit)
  (digitsVal (t.takeWhile isDigit ++ f.1) : ℚ) * 10 ^ (expVal f.2 - f.1.length)

/-- The rational number that a JSON number (RFC 8259, section 6) stands for. -/
def numberVal : Str → ℚ
  | '-' :: t => -absVal t
  | t => absVal t

/-- The number `x` is read as the finite `f`: `f` is nearest, and `x` is below the number that is
rounded to infinity, half a unit above the largest float. -/
structure ReadsAs (x : ℚ) (f : F32) : Prop where
  nearest : Nearest x f
  range : |x| < 2 ^ 128 - 2 ^ 103

/-- The number `d * 10^e` with a sign. -/
def decVal (neg : Bool) (d : Nat) (e : Int) : ℚ :=
  if neg then -((d : ℚ) * 10 ^ e) else (d : ℚ) * 10 ^ e

/-- The number of decimal digits. -/
def digitCount (d : Nat) : Nat := (Nat.toDigits 10 d).length

/-- `d * 10^e`, with the sign of `f`, is read as `f`, and so is no number with fewer digits. -/
structure Shortest (f : F32) (d : Nat) (e : Int) : Prop where
  reads : ReadsAs (decVal (fneg f) d e) f
  least : ∀ d' e', ReadsAs (decVal (fneg f) d' e') f → digitCount d ≤ digitCount d'

end Boxcars.Spec
