import Verif.Model.Bits
import Verif.Model.Float
/-!
# Model of the decoders in `src/network/models.rs`
-/
namespace Boxcars

/-- `a - b` on `i32`: panics on overflow with overflow checks, wraps without. -/
def subI32 {ε : Type} (a b : I32) : BM ε I32 := fun env r =>
  if env.checks && a.ssubOverflow b then .fault .overflow else .ok (a - b) r

/-- `a + b` on `i32`. -/
def addI32 {ε : Type} (a b : I32) : BM ε I32 := fun env r =>
  if env.checks && a.saddOverflow b then .fault .overflow else .ok (a + b) r

/-- `if net_version >= 7 { 22 } else { 20 }`, `src/network/models.rs:41,65`. -/
def vectorMax (netVersion : I32) : Nat := if netVersion.toInt ≥ 7 then 22 else 20

/-- `Vector3i::eof_decode`, `src/network/models.rs:59-85`. -/
def Vector3i.eofDecode (netVersion : I32) : BM Unit Vector3i := do
  refill
  let look ← lookaheadBits
  if look < 5 then BM.fail ()
  else
    let sizeBits ← peekBitsMaxComputed 4 (vectorMax netVersion)
    let bias : I32 := 1#32 <<< (sizeBits + 1)
    let bitLimit := sizeBits + 2
    let has ← hasBitsRemaining (3 * bitLimit)
    if !has then BM.fail ()
    else
      let dx ← peekAndConsume bitLimit
      refill
      let look ← lookaheadBits
      BM.debugAssert (decide (look ≥ bitLimit * 2))
      let dy ← peekAndConsume bitLimit
      let dz ← peekAndConsume bitLimit
      let x ← subI32 (BitVec.ofNat 32 dx) bias
      let y ← subI32 (BitVec.ofNat 32 dy) bias
      let z ← subI32 (BitVec.ofNat 32 dz) bias
      pure ⟨x, y, z⟩

/-- `Vector3i::decode`, `src/network/models.rs:33-56`. -/
def Vector3i.decode (netVersion : I32) : BM Unit Vector3i := do
  let unbuffered ← unbufferedBytes
  if unbuffered ≥ 16 then
    refill
    let sizeBits ← peekBitsMaxComputed 4 (vectorMax netVersion)
    let bias : I32 := 1#32 <<< (sizeBits + 1)
    let bitLimit := sizeBits + 2
    let dx ← peekAndConsume bitLimit
    refill
    let dy ← peekAndConsume bitLimit
    let dz ← peekAndConsume bitLimit
    let x ← subI32 (BitVec.ofNat 32 dx) bias
    let y ← subI32 (BitVec.ofNat 32 dy) bias
    let z ← subI32 (BitVec.ofNat 32 dz) bias
    pure ⟨x, y, z⟩
  else
    Vector3i.eofDecode netVersion

/-- `(v as f32) / 100.0`, `src/network/models.rs:16`.  `100.0` is `0x42c80000`. -/
def fixed100 (v : I32) : F32 := F32.div (F32.ofInt v.toInt) 0x42c80000#32

/-- The closure in `Vector3f::decode`. -/
def Vector3i.toF (v : Vector3i) : Vector3f := ⟨fixed100 v.x, fixed100 v.y, fixed100 v.z⟩

/-- `Vector3f::decode`, `src/network/models.rs:14-20`. -/
def Vector3f.decode (netVersion : I32) : BM Unit Vector3f := do
  let v ← Vector3i.decode netVersion
  pure v.toF

/-- `Quaternion::unpack`, `src/network/models.rs:98-103`.  Constants:
`262143.0 = 0x487fffc0`, `0.5 = 0x3f000000`, `2.0 = 0x40000000`,
`FRAC_1_SQRT_2 = 0x3f3504f3`. -/
def Quaternion.unpack (val : Nat) : F32 :=
  let posRange := F32.div (F32.ofInt val) 0x487fffc0#32
  let range := F32.mul (F32.sub posRange 0x3f000000#32) 0x40000000#32
  F32.mul range 0x3f3504f3#32

/-- The arithmetic of `Quaternion::compressed_f32`, `src/network/models.rs:121`:
`(res + i16::MIN) as f32 * (32767.0).recip()`. -/
def Quaternion.compressedVal (res : I32) : F32 :=
  F32.mul (F32.ofInt res.toInt) (F32.div 0x3f800000#32 0x46fffe00#32)

/-- `Quaternion::compressed_f32`, `src/network/models.rs:106-122`. -/
def Quaternion.compressedF32 : BM Unit F32 := do
  let res ← peekAndConsume 16
  let sum ← addI32 (BitVec.ofNat 32 res) (BitVec.ofInt 32 (-32768))
  pure (Quaternion.compressedVal sum)

/-- `Quaternion::decode_compressed`, `src/network/models.rs:124-134`. -/
def Quaternion.decodeCompressed : BM Unit Quaternion := do
  refill
  let look ← lookaheadBits
  if look ≥ 48 then
    let x ← Quaternion.compressedF32
    let y ← Quaternion.compressedF32
    let z ← Quaternion.compressedF32
    pure ⟨x, y, z, 0#32⟩
  else BM.fail ()

/-- `extra`, `src/network/models.rs:146`:
`c.mul_add(-c, b.mul_add(-b, a.mul_add(-a, 1.0))).sqrt()`. -/
def Quaternion.extra (a b c : F32) : F32 :=
  F32.sqrt (F32.mulAdd c (F32.neg c)
    (F32.mulAdd b (F32.neg b) (F32.mulAdd a (F32.neg a) 0x3f800000#32)))

/-- The `match largest`, `src/network/models.rs:147-173`. -/
def Quaternion.assemble (largest : Nat) (extra a b c : F32) : BM Unit Quaternion :=
  if largest = 0 then pure ⟨extra, a, b, c⟩
  else if largest = 1 then pure ⟨a, extra, b, c⟩
  else if largest = 2 then pure ⟨a, b, extra, c⟩
  else if largest = 3 then pure ⟨a, b, c, extra⟩
  else BM.faulty .unreachable

/-- `Quaternion::decode`, `src/network/models.rs:136-174`. -/
def Quaternion.decode : BM Unit Quaternion := do
  refill
  let look ← lookaheadBits
  if look < 56 then BM.fail ()
  else
    let largest ← peekAndConsume 2
    let a ← peekAndConsume 18
    let b ← peekAndConsume 18
    let c ← peekAndConsume 18
    let a := Quaternion.unpack a
    let b := Quaternion.unpack b
    let c := Quaternion.unpack c
    Quaternion.assemble largest (Quaternion.extra a b c) a b c

/-- `Rotation::decode`, `src/network/models.rs:186-206`. -/
def Rotation.decode : BM Unit Rotation := do
  refill
  let look ← lookaheadBits
  if look ≥ 27 then
    let hasYaw ← peekAndConsume 1
    let yaw ← peekAndConsume (hasYaw <<< 3)
    let hasPitch ← peekAndConsume 1
    let pitch ← peekAndConsume (hasPitch <<< 3)
    let hasRoll ← peekAndConsume 1
    let roll ← peekAndConsume (hasRoll <<< 3)
    pure ⟨if hasYaw ≠ 0 then some (BitVec.ofNat 8 yaw) else none,
      if hasPitch ≠ 0 then some (BitVec.ofNat 8 pitch) else none,
      if hasRoll ≠ 0 then some (BitVec.ofNat 8 roll) else none⟩
  else
    let yaw ← ifGet readU8
    let pitch ← ifGet readU8
    let roll ← ifGet readU8
    pure ⟨yaw, pitch, roll⟩

/-- `Trajectory::from_spawn`, `src/network/models.rs:351-376`. -/
def Trajectory.fromSpawn (sp : SpawnTrajectory) (netVersion : I32) : BM Unit Trajectory :=
  match sp with
  | .none => pure ⟨none, none⟩
  | .location => do
    let v ← Vector3i.decode netVersion
    pure ⟨some v, none⟩
  | .locationAndRotation => do
    let v ← Vector3i.decode netVersion
    let r ← Rotation.decode
    pure ⟨some v, some r⟩

/-! ## `normalize_object`, `src/network/models.rs:384-414` -/

/-- `str::strip_prefix`. -/
def stripPrefix : Str → Str → Option Str
  | [], s => some s
  | _ :: _, [] => none
  | p :: ps, c :: cs => if p = c then stripPrefix ps cs else none

/-- `str::split_once('.')`, second component. -/
def afterFirstDot : Str → Option Str
  | [] => none
  | c :: cs => if c = '.' then some cs else afterFirstDot cs

/-- `const PREFIX`, `src/network/models.rs:385`. -/
def worldPrefix : Str := "TheWorld:PersistentLevel.".toList

/-- The prefixes tested in order at `src/network/models.rs:399-410` and the
normalized name returned for each. -/
def normalizeRules : List (String × String) := [
  ("CrowdActor_TA", "TheWorld:PersistentLevel.CrowdActor_TA"),
  ("CrowdManager_TA", "TheWorld:PersistentLevel.CrowdManager_TA"),
  ("VehiclePickup_Boost_TA", "TheWorld:PersistentLevel.VehiclePickup_Boost_TA"),
  ("InMapScoreboard_TA", "TheWorld:PersistentLevel.InMapScoreboard_TA"),
  ("BreakOutActor_Platform_TA", "TheWorld:PersistentLevel.BreakOutActor_Platform_TA"),
  ("PlayerStart_Platform_TA", "TheWorld:PersistentLevel.PlayerStart_Platform_TA")]

/-- The `if`/`else if` chain of `normalize_object`. -/
def applyRules (name rest : Str) : List (String × String) → Str
  | [] => name
  | (p, n) :: rules =>
    if (stripPrefix p.toList rest).isSome then n.toList else applyRules name rest rules

/-- `normalize_object`, `src/network/models.rs:384-414`. -/
def normalizeObject (name : Str) : Str :=
  if Str.byteLen name ≤ 38 then name
  else
    match (stripPrefix worldPrefix name).orElse
        (fun _ => (afterFirstDot name).bind (stripPrefix worldPrefix)) with
    | none => name
    | some rest => applyRules name rest normalizeRules

end Boxcars
