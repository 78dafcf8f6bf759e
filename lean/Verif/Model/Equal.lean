import Verif.Model.Types
import Verif.Model.Float
/-!
# Derived equality

Model of the derived `PartialEq` of the data types: field by field, with `f32` compared as
IEEE-754 prescribes.  Types without a float are compared by `=`, which is what the derived
equality is for them (their fields are integers, booleans, strings and vectors of these; hash maps are equal as
maps, `PartialEq for RawSegmentedArray`, `src/network/frame_decoder.rs:64-68`).
-/
namespace Boxcars

/-- `PartialEq for Vec<T>`. -/
def eqList {α : Type} (eq : α → α → Bool) : List α → List α → Bool
  | [], [] => true
  | x :: xs, y :: ys => eq x y && eqList eq xs ys
  | _, _ => false

/-- `PartialEq for Option<T>`. -/
def eqOption {α : Type} (eq : α → α → Bool) : Option α → Option α → Bool
  | none, none => true
  | some x, some y => eq x y
  | _, _ => false

/-- `src/network/models.rs:5`. -/
def Vector3f.peq (a b : Vector3f) : Bool :=
  F32.eq a.x b.x && F32.eq a.y b.y && F32.eq a.z b.z

/-- `src/network/models.rs:88`. -/
def Quaternion.peq (a b : Quaternion) : Bool :=
  F32.eq a.x b.x && F32.eq a.y b.y && F32.eq a.z b.z && F32.eq a.w b.w

/-- `src/network/attributes.rs:128`. -/
def CamSettings.peq (a b : CamSettings) : Bool :=
  F32.eq a.fov b.fov && F32.eq a.height b.height && F32.eq a.angle b.angle &&
    F32.eq a.distance b.distance && F32.eq a.stiffness b.stiffness && F32.eq a.swivel b.swivel &&
    eqOption F32.eq a.transition b.transition

/-- `src/network/attributes.rs:147`. -/
def AppliedDamage.peq (a b : AppliedDamage) : Bool :=
  a.id == b.id && a.position.peq b.position && a.damageIndex == b.damageIndex &&
    a.totalDamage == b.totalDamage

/-- `src/network/attributes.rs:155`. -/
def DamageState.peq (a b : DamageState) : Bool :=
  a.tileState == b.tileState && a.damaged == b.damaged && a.offender == b.offender &&
    a.ballPosition.peq b.ballPosition && a.directHit == b.directHit && a.unknown1 == b.unknown1

/-- `src/network/attributes.rs:174`. -/
def Demolish.peq (a b : Demolish) : Bool :=
  a.attackerFlag == b.attackerFlag && a.attacker == b.attacker && a.victimFlag == b.victimFlag &&
    a.victim == b.victim && a.attackVelocity.peq b.attackVelocity &&
    a.victimVelocity.peq b.victimVelocity

/-- `src/network/attributes.rs:184`. -/
def DemolishExtended.peq (a b : DemolishExtended) : Bool :=
  a.attackerPri == b.attackerPri && a.selfDemo == b.selfDemo && a.selfDemolish == b.selfDemolish &&
    a.goalExplosionOwner == b.goalExplosionOwner && a.attacker == b.attacker &&
    a.victim == b.victim && a.attackerVelocity.peq b.attackerVelocity &&
    a.victimVelocity.peq b.victimVelocity

/-- `src/network/attributes.rs:196`. -/
def DemolishFx.peq (a b : DemolishFx) : Bool :=
  a.customDemoFlag == b.customDemoFlag && a.customDemoId == b.customDemoId &&
    a.attackerFlag == b.attackerFlag && a.attacker == b.attacker &&
    a.victimFlag == b.victimFlag && a.victim == b.victim &&
    a.attackVelocity.peq b.attackVelocity && a.victimVelocity.peq b.victimVelocity

/-- `src/network/attributes.rs:208`. -/
def Explosion.peq (a b : Explosion) : Bool :=
  a.flag == b.flag && a.actor == b.actor && a.location.peq b.location

/-- `src/network/attributes.rs:215`. -/
def ExtendedExplosion.peq (a b : ExtendedExplosion) : Bool :=
  a.explosion.peq b.explosion && a.unknown1 == b.unknown1 && a.secondaryActor == b.secondaryActor

/-- `src/network/attributes.rs:271`. -/
def Welded.peq (a b : Welded) : Bool :=
  a.active == b.active && a.actor == b.actor && a.offset.peq b.offset && F32.eq a.mass b.mass &&
    a.rotation == b.rotation

/-- `src/network/attributes.rs:289`. -/
def RigidBody.peq (a b : RigidBody) : Bool :=
  a.sleeping == b.sleeping && a.location.peq b.location && a.rotation.peq b.rotation &&
    eqOption Vector3f.peq a.linearVelocity b.linearVelocity &&
    eqOption Vector3f.peq a.angularVelocity b.angularVelocity

/-- `src/network/attributes.rs:427`. -/
def Impulse.peq (a b : Impulse) : Bool :=
  a.compressedRotation == b.compressedRotation && F32.eq a.speed b.speed

/-- `src/network/attributes.rs:64`.  Different variants are different. -/
def Attribute.peq : Attribute → Attribute → Bool
  | .appliedDamage a, .appliedDamage b => a.peq b
  | .damageState a, .damageState b => a.peq b
  | .camSettings a, .camSettings b => a.peq b
  | .demolish a, .demolish b => a.peq b
  | .demolishExtended a, .demolishExtended b => a.peq b
  | .demolishFx a, .demolishFx b => a.peq b
  | .explosion a, .explosion b => a.peq b
  | .extendedExplosion a, .extendedExplosion b => a.peq b
  | .float a, .float b => F32.eq a b
  | .location a, .location b => a.peq b
  | .welded a, .welded b => a.peq b
  | .rigidBody a, .rigidBody b => a.peq b
  | .impulse a, .impulse b => a.peq b
  | a, b => decide (a = b)

/-- `src/network/models.rs:220`. -/
def UpdatedAttribute.peq (a b : UpdatedAttribute) : Bool :=
  a.actorId == b.actorId && a.streamId == b.streamId && a.objectId == b.objectId &&
    a.attr.peq b.attr

/-- `src/network/models.rs:236`. -/
def Frame.peq (a b : Frame) : Bool :=
  F32.eq a.time b.time && F32.eq a.delta b.delta && a.newActors == b.newActors &&
    a.deletedActors == b.deletedActors && eqList UpdatedAttribute.peq a.updatedActors b.updatedActors

mutual
/-- `src/models.rs:81`. -/
def HeaderProp.peq : HeaderProp → HeaderProp → Bool
  | .array a, .array b => eqElems a b
  | .bool a, .bool b => a == b
  | .byte k v, .byte k' v' => k == k' && v == v'
  | .float a, .float b => F32.eq a b
  | .int a, .int b => a == b
  | .name a, .name b => a == b
  | .qword a, .qword b => a == b
  | .str a, .str b => a == b
  | .struct n f, .struct n' f' => n == n' && eqProps f f'
  | _, _ => false
/-- `PartialEq for Vec<(String, HeaderProp)>`. -/
def eqProps : List (Str × HeaderProp) → List (Str × HeaderProp) → Bool
  | [], [] => true
  | (k, v) :: xs, (k', v') :: ys => k == k' && v.peq v' && eqProps xs ys
  | _, _ => false
/-- `PartialEq for Vec<Vec<(String, HeaderProp)>>`. -/
def eqElems : List (List (Str × HeaderProp)) → List (List (Str × HeaderProp)) → Bool
  | [], [] => true
  | x :: xs, y :: ys => eqProps x y && eqElems xs ys
  | _, _ => false
end

/-- `src/models.rs:66`. -/
def KeyFrame.peq (a b : KeyFrame) : Bool :=
  F32.eq a.time b.time && a.frame == b.frame && a.position == b.position

/-- `src/models.rs:46`. -/
def NetworkFrames.peq (a b : NetworkFrames) : Bool := eqList Frame.peq a.frames b.frames

/-- `src/models.rs:18`. -/
def Replay.peq (a b : Replay) : Bool :=
  a.headerSize == b.headerSize && a.headerCrc == b.headerCrc &&
    a.majorVersion == b.majorVersion && a.minorVersion == b.minorVersion &&
    a.netVersion == b.netVersion && a.gameType == b.gameType &&
    eqProps a.properties b.properties && a.contentSize == b.contentSize &&
    a.contentCrc == b.contentCrc && eqOption NetworkFrames.peq a.networkFrames b.networkFrames &&
    a.levels == b.levels && eqList KeyFrame.peq a.keyframes b.keyframes &&
    a.debugInfo == b.debugInfo && a.tickMarks == b.tickMarks && a.packages == b.packages &&
    a.objects == b.objects && a.names == b.names && a.classIndices == b.classIndices &&
    a.netCache == b.netCache

/-- `src/errors.rs:107`. -/
def FrameContext.peq (a b : FrameContext) : Bool :=
  a.objects == b.objects && a.objectAttributes == b.objectAttributes &&
    eqList Frame.peq a.frames b.frames && a.actors == b.actors && a.newActors == b.newActors &&
    eqList UpdatedAttribute.peq a.updatedActors b.updatedActors

/-- `src/errors.rs:219`. -/
def FrameError.peq : FrameError → FrameError → Bool
  | .timeOutOfRange a, .timeOutOfRange b => F32.eq a b
  | .deltaOutOfRange a, .deltaOutOfRange b => F32.eq a b
  | a, b => decide (a = b)

/-- `src/errors.rs:389`. -/
def NetworkError.peq : NetworkError → NetworkError → Bool
  | .frameError a c, .frameError b d => a.peq b && c.peq d
  | a, b => decide (a = b)

/-- `src/errors.rs:11`. -/
def ParseError.peq : ParseError → ParseError → Bool
  | .parseError s o a, .parseError s' o' b => s == s' && o == o' && a.peq b
  | .corruptReplay s a, .corruptReplay s' b => s == s' && a.peq b
  | .networkError a, .networkError b => a.peq b
  | a, b => decide (a = b)

/-- `PartialEq for Result<Replay, ParseError>`; nothing is compared after a fault. -/
def eqOutcome : Res ParseError Replay → Res ParseError Replay → Bool
  | .ok a, .ok b => a.peq b
  | .err a, .err b => a.peq b
  | _, _ => false

end Boxcars
