import Verif.Spec.Frames
/-!
# New actors as the documentation of the format describes them

`src/parser.rs`, lines 104-138 and 199-204.
-/
namespace Boxcars.Spec

/-- "yaw: signed 8 bits, pitch: signed 8 bits, roll: signed 8 bits". -/
def docRotation (yaw pitch roll : Byte) : Bits := field 8 yaw ++ (field 8 pitch ++ field 8 roll)

/-- "size in bits: read five bits not exceeding 22", the way of bounded numbers; the bias is
`2^(size + 1)`, and each coordinate takes `size + 2` bits. -/
def docVector (s : Nat) (v : Vector3i) : Bits :=
  bounded 22 s ++ (bits (s + 2) (v.x.toInt + 2 ^ (s + 1)).toNat ++
    (bits (s + 2) (v.y.toInt + 2 ^ (s + 1)).toNat ++ bits (s + 2) (v.z.toInt + 2 ^ (s + 1)).toNat))

/-- A vector that is written with a size. -/
def DocFits (s : Nat) (v : Vector3i) : Prop := s < 22 ∧ InClass s v.x ∧ InClass s v.y ∧ InClass s v.z

/-- "Decode initial position if available", "initial rotation if available". -/
inductive DocPlace : SpawnTrajectory → Trajectory → Bits → Prop where
  | none : DocPlace .none ⟨none, none⟩ []
  | location {s v} : DocFits s v → DocPlace .location ⟨some v, none⟩ (docVector s v)
  | both {s v yaw pitch roll} : DocFits s v →
      DocPlace .locationAndRotation ⟨some v, some ⟨some yaw, some pitch, some roll⟩⟩
        (docVector s v ++ docRotation yaw pitch roll)

/-- "32bit integer representing the index in the `names` list", "unused bit", "32bit integer
representing the ObjectId", and the place. -/
def DocNew (n : Net) (a : NewActor) (i o : Bits) : Prop :=
  ∃ nm b sp t, a.nameId = some nm ∧ n.spawn a.objectId = some sp ∧
    DocPlace sp a.initialTrajectory t ∧
    i = field 32 nm ++ ([b] ++ (field 32 a.objectId ++ (t ++ o)))

end Boxcars.Spec
