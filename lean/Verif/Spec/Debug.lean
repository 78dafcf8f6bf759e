import Verif.Spec.Quat
import Verif.Model.Debug
/-!
# What the `Debug` text of a value tells
-/
namespace Boxcars.Spec
open Boxcars

/-- Characters of numbers and names. -/
def AtomChar (c : Char) : Prop :=
  c.isAlphanum = true ∨ c = '.' ∨ c = '-' ∨ c = '+' ∨ c = '_'

/-- What is assumed of the text of floats: it consists of letters, digits, points and signs, is not
longer than `n`, and all floats have different texts, except that all NaN have the same. -/
structure FloatDebug (n : Nat) (g : F32 → Str) : Prop where
  same : ∀ x y, g x = g y ↔ x = y ∨ (IsNaN x ∧ IsNaN y)
  chars : ∀ x, g x ≠ [] ∧ ∀ c ∈ g x, AtomChar c
  short : ∀ x, (g x).length ≤ n

instance (x : F32) : Decidable (IsNaN x) := inferInstanceAs (Decidable (_ ∧ _))

/-! ### Values with one NaN -/

def quietF32 (x : F32) : F32 := if IsNaN x then 0x7fc00000 else x

def quietVec (v : Vector3f) : Vector3f := ⟨quietF32 v.x, quietF32 v.y, quietF32 v.z⟩

def quietExplosion (v : Explosion) : Explosion := { v with location := quietVec v.location }

/-- The value with every NaN replaced by the usual one. -/
def quiet : Attribute → Attribute
  | .appliedDamage v => .appliedDamage { v with position := quietVec v.position }
  | .damageState v => .damageState { v with ballPosition := quietVec v.ballPosition }
  | .camSettings v => .camSettings ⟨quietF32 v.fov, quietF32 v.height, quietF32 v.angle,
      quietF32 v.distance, quietF32 v.stiffness, quietF32 v.swivel, v.transition.map quietF32⟩
  | .demolish v => .demolish { v with
      attackVelocity := quietVec v.attackVelocity, victimVelocity := quietVec v.victimVelocity }
  | .demolishExtended v => .demolishExtended { v with
      attackerVelocity := quietVec v.attackerVelocity, victimVelocity := quietVec v.victimVelocity }
  | .demolishFx v => .demolishFx { v with
      attackVelocity := quietVec v.attackVelocity, victimVelocity := quietVec v.victimVelocity }
  | .explosion v => .explosion (quietExplosion v)
  | .extendedExplosion v => .extendedExplosion { v with explosion := quietExplosion v.explosion }
  | .float x => .float (quietF32 x)
  | .location v => .location (quietVec v)
  | .welded v => .welded { v with offset := quietVec v.offset, mass := quietF32 v.mass }
  | .rigidBody v => .rigidBody { v with
      location := quietVec v.location
      rotation := ⟨quietF32 v.rotation.x, quietF32 v.rotation.y, quietF32 v.rotation.z,
        quietF32 v.rotation.w⟩
      linearVelocity := v.linearVelocity.map quietVec
      angularVelocity := v.angularVelocity.map quietVec }
  | .impulse v => .impulse { v with speed := quietF32 v.speed }
  | a => a

/-! ### The last record a message shows -/

/-- A value, or where an actor was created. -/
inductive LastRecord where
  | value (a : Attribute)
  | place (l : Option Vector3i) (r : Option Rotation)

def LastRecord.quiet : LastRecord → LastRecord
  | .value a => .value (Spec.quiet a)
  | p => p

/-- The last record of the last frame with records: its last update, or if it has none its last
new actor. -/
def lastRecord : List (List UpdatedAttribute × List NewActor) → Option LastRecord
  | [] => none
  | (us, as) :: rest =>
    match us.getLast?, as.getLast? with
    | some u, _ => some (.value u.attr)
    | none, some a => some (.place a.initialTrajectory.location a.initialTrajectory.rotation)
    | none, none => lastRecord rest

/-- The last record before the failure. -/
def lastSeen (ctx : FrameContext) : Option LastRecord :=
  lastRecord ((ctx.updatedActors, ctx.newActors) ::
    ctx.frames.reverse.map fun f => (f.updatedActors, f.newActors))

end Boxcars.Spec
