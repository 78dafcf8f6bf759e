import Verif.Model.Types
import Verif.Model.Float
import Verif.Spec.Text
/-!
# The bit-level wire format

Numbers are written least significant bit first.  Only the result types of the model
and the reference rounding of `Model/Float.lean` are used, no decoding function.
-/
namespace Boxcars.Spec

abbrev Bits := List Bool

/-- `n` bits of a number, least significant first. -/
def bits : Nat → Nat → Bits
  | 0, _ => []
  | n + 1, x => x.testBit 0 :: bits n (x / 2)

/-- A fixed width field. -/
def field (w : Nat) (x : BitVec w) : Bits := bits w x.toNat

/-- A byte string. -/
def bytes (bs : List (BitVec 8)) : Bits := bs.flatMap (field 8)

/-- An optional field: one bit, then the field if the bit is set. -/
def opt {α : Type} (enc : α → Bits) : Option α → Bits
  | none => [false]
  | some x => true :: enc x

/-- A number below `max`: its `k = ⌊log2 max⌋` low bits, followed by bit `k` unless
the number would reach `max` with it. -/
def bounded (max v : Nat) : Bits :=
  bits max.log2 v ++
    if v % 2 ^ max.log2 + 2 ^ max.log2 < max then [decide (2 ^ max.log2 ≤ v)] else []

/-- Number of vector size classes. -/
def sizeClasses (net : I32) : Nat := if 7 ≤ net.toInt then 22 else 20

/-- Coordinates representable in size class `s`. -/
def InClass (s : Nat) (x : I32) : Prop := -(2 ^ (s + 1) : Int) ≤ x.toInt ∧ x.toInt < 2 ^ (s + 1)

/-- A coordinate in size class `s`: `s + 2` bits, offset by `2^(s+1)`. -/
def coord (s : Nat) (x : I32) : Bits := bits (s + 2) (x.toInt + 2 ^ (s + 1)).toNat

/-- An integer vector: size class and three coordinates. -/
def Vec3i (net : I32) (v : Vector3i) (bs : Bits) : Prop :=
  ∃ s, s < sizeClasses net ∧ InClass s v.x ∧ InClass s v.y ∧ InClass s v.z ∧
    bs = bounded (sizeClasses net) s ++ (coord s v.x ++ (coord s v.y ++ coord s v.z))

/-- The binary32 nearest to `x / 100`. -/
def centi (x : I32) : F32 := F32.ofRat (x.toInt < 0) x.toInt.natAbs 100

/-- A vector of hundredths. -/
def Vec3f (net : I32) (v : Vector3f) (bs : Bits) : Prop :=
  ∃ w : Vector3i, Vec3i net w bs ∧ v = ⟨centi w.x, centi w.y, centi w.z⟩

/-- A rotation: three optional signed bytes. -/
def rotation (r : Rotation) : Bits :=
  opt (field 8) r.yaw ++ (opt (field 8) r.pitch ++ opt (field 8) r.roll)

/-- A component of a quaternion from its 18 bits: `((n / 262143 - 0.5) * 2) / √2`,
each operation rounded to binary32. -/
def quatComp (n : Nat) : F32 :=
  F32.mul (F32.mul (F32.sub (F32.div (F32.ofInt n) 0x487fffc0#32) 0x3f000000#32) 0x40000000#32)
    0x3f3504f3#32

/-- The omitted component, `√(1 - a² - b² - c²)` with fused multiply-adds. -/
def quatLargest (a b c : F32) : F32 :=
  F32.sqrt (F32.mulAdd c (F32.neg c)
    (F32.mulAdd b (F32.neg b) (F32.mulAdd a (F32.neg a) 0x3f800000#32)))

/-- A quaternion: the index of the omitted component and the other three. -/
def QuatEnc (q : Quaternion) (bs : Bits) : Prop :=
  ∃ l a b c : Nat, a < 2 ^ 18 ∧ b < 2 ^ 18 ∧ c < 2 ^ 18 ∧
    bs = bits 2 l ++ (bits 18 a ++ (bits 18 b ++ bits 18 c)) ∧
    let x := quatComp a
    let y := quatComp b
    let z := quatComp c
    let w := quatLargest x y z
    ((l = 0 ∧ q = ⟨w, x, y, z⟩) ∨ (l = 1 ∧ q = ⟨x, w, y, z⟩) ∨ (l = 2 ∧ q = ⟨x, y, w, z⟩) ∨
      (l = 3 ∧ q = ⟨x, y, z, w⟩))

/-- A rotation component before net version 7: 16 bits, `(n - 32768) * (1 / 32767)`. -/
def oldQuatComp (n : Nat) : F32 :=
  F32.mul (F32.ofInt ((n : Int) - 32768)) (F32.div 0x3f800000#32 0x46fffe00#32)

/-- A rotation before net version 7. -/
def OldQuatEnc (q : Quaternion) (bs : Bits) : Prop :=
  ∃ a b c : Nat, a < 2 ^ 16 ∧ b < 2 ^ 16 ∧ c < 2 ^ 16 ∧
    bs = bits 16 a ++ (bits 16 b ++ bits 16 c) ∧
    q = ⟨oldQuatComp a, oldQuatComp b, oldQuatComp c, 0#32⟩

/-- Initial location and rotation of an actor, by the behaviour of its class. -/
def SpawnEnc (net : I32) (sp : SpawnTrajectory) (t : Trajectory) (bs : Bits) : Prop :=
  match sp with
  | .none => t = ⟨none, none⟩ ∧ bs = []
  | .location => ∃ v, Vec3i net v bs ∧ t = ⟨some v, none⟩
  | .locationAndRotation =>
    ∃ v r b, Vec3i net v b ∧ bs = b ++ rotation r ∧ t = ⟨some v, some r⟩

end Boxcars.Spec
