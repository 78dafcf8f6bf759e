import Verif.Spec.Quat
import Verif.Spec.Frames
import Verif.Spec.HeaderSer
/-!
# When two replays compare equal

A replay consists of its floats, in the order of the fields, and of all the rest: the replay with
its floats set to zero.
-/
namespace Boxcars.Spec

/-- Two floats that compare equal: neither is a NaN, and they are the same or both zero. -/
def SameFloat (a b : F32) : Prop :=
  ¬ IsNaN a ∧ ¬ IsNaN b ∧ (a = b ∨ IsZero a ∧ IsZero b)

/-! ## Floats -/

def vecFloats (v : Vector3f) : List F32 := [v.x, v.y, v.z]

/-- The floats of an attribute. -/
def attrFloats : Attribute → List F32
  | .appliedDamage v => vecFloats v.position
  | .damageState v => vecFloats v.ballPosition
  | .camSettings v =>
    [v.fov, v.height, v.angle, v.distance, v.stiffness, v.swivel] ++ v.transition.toList
  | .demolish v => vecFloats v.attackVelocity ++ vecFloats v.victimVelocity
  | .demolishExtended v => vecFloats v.attackerVelocity ++ vecFloats v.victimVelocity
  | .demolishFx v => vecFloats v.attackVelocity ++ vecFloats v.victimVelocity
  | .explosion v => vecFloats v.location
  | .extendedExplosion v => vecFloats v.explosion.location
  | .float f => [f]
  | .location v => vecFloats v
  | .welded v => vecFloats v.offset ++ [v.mass]
  | .rigidBody v =>
    vecFloats v.location ++ [v.rotation.x, v.rotation.y, v.rotation.z, v.rotation.w] ++
      v.linearVelocity.toList.flatMap vecFloats ++ v.angularVelocity.toList.flatMap vecFloats
  | .impulse v => [v.speed]
  | _ => []

/-- The floats of a frame. -/
def frameFloats (f : Frame) : List F32 :=
  f.time :: f.delta :: f.updatedActors.flatMap fun u => attrFloats u.attr

/-- The floats of a replay. -/
def replayFloats (r : Replay) : List F32 :=
  propsFloats r.properties ++ (r.networkFrames.toList.flatMap fun n => n.frames.flatMap frameFloats) ++
    r.keyframes.map fun k => k.time

/-- The floats of the context of a frame error. -/
def contextFloats (c : FrameContext) : List F32 :=
  c.frames.flatMap frameFloats ++ c.updatedActors.flatMap fun u => attrFloats u.attr

/-- The floats of an error. -/
def errorFloats : ParseError → List F32
  | .parseError _ _ e => errorFloats e
  | .corruptReplay _ e => errorFloats e
  | .networkError (.frameError (.timeOutOfRange t) c) => t :: contextFloats c
  | .networkError (.frameError (.deltaOutOfRange t) c) => t :: contextFloats c
  | .networkError (.frameError _ c) => contextFloats c
  | _ => []

/-! ## The rest -/

def vecRest (_ : Vector3f) : Vector3f := ⟨0, 0, 0⟩

/-- An attribute with its floats set to zero. -/
def attrRest : Attribute → Attribute
  | .appliedDamage v => .appliedDamage { v with position := vecRest v.position }
  | .damageState v => .damageState { v with ballPosition := vecRest v.ballPosition }
  | .camSettings v => .camSettings ⟨0, 0, 0, 0, 0, 0, v.transition.map fun _ => 0⟩
  | .demolish v =>
    .demolish { v with
      attackVelocity := vecRest v.attackVelocity, victimVelocity := vecRest v.victimVelocity }
  | .demolishExtended v =>
    .demolishExtended { v with
      attackerVelocity := vecRest v.attackerVelocity, victimVelocity := vecRest v.victimVelocity }
  | .demolishFx v =>
    .demolishFx { v with
      attackVelocity := vecRest v.attackVelocity, victimVelocity := vecRest v.victimVelocity }
  | .explosion v => .explosion { v with location := vecRest v.location }
  | .extendedExplosion v =>
    .extendedExplosion { v with
      explosion := { v.explosion with location := vecRest v.explosion.location } }
  | .float _ => .float 0
  | .location v => .location (vecRest v)
  | .welded v => .welded { v with offset := vecRest v.offset, mass := 0 }
  | .rigidBody v =>
    .rigidBody { v with
      location := vecRest v.location, rotation := ⟨0, 0, 0, 0⟩
      linearVelocity := v.linearVelocity.map vecRest
      angularVelocity := v.angularVelocity.map vecRest }
  | .impulse v => .impulse { v with speed := 0 }
  | a => a

/-- A frame with its floats set to zero. -/
def frameRest (f : Frame) : Frame :=
  { f with time := 0, delta := 0
           updatedActors := f.updatedActors.map fun u => { u with attr := attrRest u.attr } }

mutual
/-- A header value with its floats set to zero. -/
def propRest : HeaderProp → HeaderProp
  | .float _ => .float 0
  | .array elems => .array (elemsRest elems)
  | .struct name fields => .struct name (propsRest fields)
  | .bool b => .bool b
  | .byte k v => .byte k v
  | .int i => .int i
  | .name s => .name s
  | .qword q => .qword q
  | .str s => .str s
/-- The same for a list of properties. -/
def propsRest : List (Str × HeaderProp) → List (Str × HeaderProp)
  | [] => []
  | (k, v) :: rest => (k, propRest v) :: propsRest rest
/-- The same for the elements of an array. -/
def elemsRest : List (List (Str × HeaderProp)) → List (List (Str × HeaderProp))
  | [] => []
  | e :: rest => propsRest e :: elemsRest rest
end

/-- A replay with its floats set to zero. -/
def replayRest (r : Replay) : Replay :=
  { r with
    properties := propsRest r.properties
    networkFrames := r.networkFrames.map fun n => ⟨n.frames.map frameRest⟩
    keyframes := r.keyframes.map fun k => { k with time := 0 } }

/-- A frame context with its floats set to zero. -/
def contextRest (c : FrameContext) : FrameContext :=
  { c with
    frames := c.frames.map frameRest
    updatedActors := c.updatedActors.map fun u => { u with attr := attrRest u.attr } }

/-- An error with its floats set to zero. -/
def errorRest : ParseError → ParseError
  | .parseError s o e => .parseError s o (errorRest e)
  | .corruptReplay s e => .corruptReplay s (errorRest e)
  | .networkError (.frameError (.timeOutOfRange _) c) =>
    .networkError (.frameError (.timeOutOfRange 0) (contextRest c))
  | .networkError (.frameError (.deltaOutOfRange _) c) =>
    .networkError (.frameError (.deltaOutOfRange 0) (contextRest c))
  | .networkError (.frameError e c) => .networkError (.frameError e (contextRest c))
  | e => e

end Boxcars.Spec
