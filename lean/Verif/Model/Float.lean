import Verif.Model.Prim
/-!
# IEEE-754 binary32 operations used by the crate

`F32` values are bit patterns.  Arithmetic is defined exactly: decode to a dyadic
rational, compute exactly, round once to nearest-even.  Results that are NaN are
the canonical quiet NaN `0x7fc00000` (the sign and payload of a generated NaN are
not specified by Rust).
-/
namespace Boxcars.F32

/-- Sign bit. -/
def sign (f : F32) : Bool := f.msb
/-- Biased exponent field. -/
def expField (f : F32) : Nat := f.toNat / 2 ^ 23 % 2 ^ 8
/-- Fraction field. -/
def fracField (f : F32) : Nat := f.toNat % 2 ^ 23
/-- `is_nan`. -/
def isNaN (f : F32) : Bool := expField f == 255 && fracField f != 0
/-- `is_finite`. -/
def isFinite (f : F32) : Bool := expField f != 255

/-- Magnitude bits (everything but the sign). For non-NaN values, IEEE order of
magnitudes is the order of these naturals. -/
def mag (f : F32) : Nat := f.toNat % 2 ^ 31

/-- An integer that is order-isomorphic to the IEEE order on non-NaN values
(both zeros map to 0). -/
def key (f : F32) : Int := if sign f then - (mag f : Int) else (mag f : Int)

/-- `a < b`. -/
def lt (a b : F32) : Bool := !isNaN a && !isNaN b && decide (key a < key b)
/-- `a == b`. -/
def eq (a b : F32) : Bool := !isNaN a && !isNaN b && decide (key a = key b)

/-- `0.0`. -/
def zero : F32 := 0#32
/-- `1e-10_f32`: the nearest binary32 is `0x2edbe6ff`. -/
def tiny : F32 := 0x2edbe6ff#32
/-- Canonical quiet NaN. -/
def nan : F32 := 0x7fc00000#32

/-- Absolute value of a finite `f` is `num f * 2^(exp f)`. -/
def num (f : F32) : Nat := if expField f = 0 then fracField f else 2 ^ 23 + fracField f
/-- See `num`. -/
def exp (f : F32) : Int := if expField f = 0 then -149 else (expField f : Int) - 150

/-- An exact dyadic number `m * 2^e`. -/
structure Dy where
  m : Int
  e : Int

/-- Exact value of a finite `f`. -/
def toDy (f : F32) : Dy := ⟨if sign f then - (num f : Int) else num f, exp f⟩

/-- Exact sum. -/
def Dy.add (a b : Dy) : Dy :=
  let e := min a.e b.e
  ⟨a.m * 2 ^ (a.e - e).toNat + b.m * 2 ^ (b.e - e).toNat, e⟩
/-- Exact product. -/
def Dy.mul (a b : Dy) : Dy := ⟨a.m * b.m, a.e + b.e⟩
/-- Exact negation. -/
def Dy.neg (a : Dy) : Dy := ⟨-a.m, a.e⟩

/-- `⌊p/q⌋` rounded to nearest, ties to even. -/
def rneDiv (p q : Nat) : Nat :=
  let d := p / q
  let r := p % q
  if 2 * r < q then d
  else if q < 2 * r then d + 1
  else d + d % 2

/-- Exponent of the last place used for `p/q`: the least `e ≥ -149` with
`p/q < 2^24 * 2^e`. -/
def ulpExp (p q : Nat) : Int :=
  let k : Int := (p.log2 : Int) - (q.log2 : Int)
  -- 2^(k-1) < p/q < 2^(k+1)
  let e := k - 24
  let e := if p < q * 2 ^ 24 * 2 ^ e.toNat ∧ 0 ≤ e then e
           else if p * 2 ^ (-e).toNat < q * 2 ^ 24 ∧ e < 0 then e else e + 1
  max e (-149)

/-- Magnitude bits of the binary32 nearest to `p/q` (`q > 0`), ties to even. -/
def roundMag (p q : Nat) : Nat :=
  let e := ulpExp p q
  let s := if 0 ≤ e then rneDiv p (q * 2 ^ e.toNat) else rneDiv (p * 2 ^ (-e).toNat) q
  min ((e + 149).toNat * 2 ^ 23 + s) 0x7f800000

/-- The binary32 nearest to `±p/q`; a zero result from exact zero is `+0`. -/
def ofRat (neg : Bool) (p q : Nat) : F32 :=
  if p = 0 then 0#32
  else BitVec.ofNat 32 (roundMag p q + if neg then 2 ^ 31 else 0)

/-- Round an exact dyadic. -/
def Dy.round (a : Dy) : F32 :=
  if 0 ≤ a.e then ofRat (a.m < 0) (a.m.natAbs * 2 ^ a.e.toNat) 1
  else ofRat (a.m < 0) a.m.natAbs (2 ^ (-a.e).toNat)

/-- `x as f32` for an integer. -/
def ofInt (x : Int) : F32 := ofRat (x < 0) x.natAbs 1

/-- `a / b` for finite `a` and finite non-zero `b` (a zero result is `+0`; the
crate only divides by positive constants, so this differs from IEEE only for
`-0`, which is never an operand). -/
def div (a b : F32) : F32 :=
  let x := toDy a
  let y := toDy b
  -- x.m * 2^x.e / (y.m * 2^y.e)
  let d := x.e - y.e
  let p := x.m.natAbs * 2 ^ d.toNat
  let q := y.m.natAbs * 2 ^ (-d).toNat
  ofRat (xor (decide (x.m < 0)) (decide (y.m < 0))) p q

/-- `a * b` for finite operands (zero results as in `div`). -/
def mul (a b : F32) : F32 := (Dy.mul (toDy a) (toDy b)).round
/-- `a - b` for finite operands. -/
def sub (a b : F32) : F32 := (Dy.add (toDy a) (Dy.neg (toDy b))).round
/-- `a.mul_add(b, c)` = `a * b + c` rounded once, for finite operands. -/
def mulAdd (a b c : F32) : F32 := (Dy.add (Dy.mul (toDy a) (toDy b)) (toDy c)).round
/-- `-a`. -/
def neg (a : F32) : F32 := a ^^^ 0x80000000#32

/-- Integer square root, `⌊√n⌋`, by binary search on `fuel` bits. -/
def isqrtAux (n : Nat) : Nat → Nat → Nat
  | 0, acc => acc
  | b + 1, acc =>
    let cand := acc + 2 ^ b
    isqrtAux n b (if cand * cand ≤ n then cand else acc)

/-- `⌊√n⌋`. -/
def isqrt (n : Nat) : Nat := isqrtAux n (n.log2 / 2 + 1) 0

/-- `a.sqrt()` for finite `a`: NaN for negative arguments.  For positive
`a = m * 2^e`, scale to an even exponent with at least 64 bits, take the floor
of the root and add a sticky bit; rounding that value is rounding the exact
root because the root has more than 24 significant bits below. -/
def sqrt (a : F32) : F32 :=
  let x := toDy a
  if x.m < 0 then nan
  else if x.m = 0 then a
  else
    let m := x.m.toNat
    -- make exponent even: m' * 2^(2h)
    let sh : Nat := if (x.e - 64) % 2 = 0 then 64 else 65
    let m' := m * 2 ^ sh
    let e' := x.e - sh
    let r := isqrt m'
    let sticky := if r * r = m' then 0 else 1
    -- value ≈ (2r + sticky) * 2^(e'/2 - 1)
    Dy.round ⟨2 * r + sticky, e' / 2 - 1⟩

end Boxcars.F32
