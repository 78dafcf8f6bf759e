import Verif.Model.Types
/-!
# Serialization: `derive(Serialize, Deserialize)` types and `src/serde_utils.rs`

The codecs from "Generated codecs" on are generated by `tools/gen_serde.py` from
the struct and enum definitions in `/repo`, following serde's documented
externally tagged representation: a struct is a map from field names, a newtype
struct is its content, a newtype or tuple variant is tagged with the variant name.

Simplifications: deserializers accept exactly one representation per type (serde
also accepts structs as sequences and fields in any order with unknown fields
ignored; the order does not matter here either, because fields are looked up by
name).
-/
namespace Boxcars

/-- Values of the serde data model that occur. -/
inductive SVal where
  | null
  | bool (b : Bool)
  | int (i : Int)
  | f32 (x : F32)
  | str (s : Str)
  | seq (xs : List SVal)
  | map (kvs : List (String × SVal))
  | unitVariant (name : String)
  | variant (name : String) (x : SVal)

/-- A pair of `Serialize` and `Deserialize` implementations. -/
structure Codec (α : Type) where
  ser : α → SVal
  de : SVal → Option α

/-! ## `Display` and `FromStr` of 64-bit integers (`src/serde_utils.rs:12-47`) -/

/-- `u64::fmt`: decimal digits without leading zeros. -/
def displayNat (n : Nat) : Str := (Nat.toDigits 10 n)

/-- `i64::fmt`. -/
def displayInt (i : Int) : Str :=
  if i < 0 then '-' :: displayNat i.natAbs else displayNat i.natAbs

/-- A run of decimal digits, as in `u64::from_str` after the optional sign; no
digits is an error. -/
def parseDigits (s : Str) : Option Nat :=
  if s.isEmpty then none
  else s.foldl (fun acc c => acc.bind (fun a =>
    if '0' ≤ c ∧ c ≤ '9' then some (a * 10 + (c.toNat - 48)) else none)) (some 0)

/-- `u64::from_str`: an optional `+`, digits, overflow is an error. -/
def parseU64 (s : Str) : Option (BitVec 64) :=
  let digits := match s with
    | '+' :: rest => rest
    | _ => s
  (parseDigits digits).bind (fun n => if n < 2 ^ 64 then some (BitVec.ofNat 64 n) else none)

/-- `i64::from_str`. -/
def parseI64 (s : Str) : Option (BitVec 64) :=
  match s with
  | '-' :: rest =>
    (parseDigits rest).bind (fun n => if n ≤ 2 ^ 63 then some (BitVec.ofInt 64 (-n)) else none)
  | '+' :: rest =>
    (parseDigits rest).bind (fun n => if n < 2 ^ 63 then some (BitVec.ofNat 64 n) else none)
  | _ => (parseDigits s).bind (fun n => if n < 2 ^ 63 then some (BitVec.ofNat 64 n) else none)

/-! ## Primitive codecs -/

/-- `bool`. -/
def cBool : Codec Bool where
  ser b := .bool b
  de
    | .bool b => some b
    | _ => none

/-- An unsigned integer of `w` bits; values out of range are rejected. -/
def cUnsigned (w : Nat) : Codec (BitVec w) where
  ser x := .int x.toNat
  de
    | .int i => if 0 ≤ i ∧ i < 2 ^ w then some (BitVec.ofInt w i) else none
    | _ => none

/-- A signed integer of `w` bits; values out of range are rejected. -/
def cSigned (w : Nat) : Codec (BitVec w) where
  ser x := .int x.toInt
  de
    | .int i =>
      if -(2 ^ (w - 1) : Int) ≤ i ∧ i < 2 ^ (w - 1) then some (BitVec.ofInt w i) else none
    | _ => none

/-- `u8`. -/
def cU8 : Codec Byte := cUnsigned 8
/-- `i8`. -/
def cI8 : Codec Byte := cSigned 8
/-- `u16`. -/
def cU16 : Codec (BitVec 16) := cUnsigned 16
/-- `u32`. -/
def cU32 : Codec U32 := cUnsigned 32
/-- `i32` and the newtypes `ActorId`, `ObjectId`, `StreamId`. -/
def cI32 : Codec I32 := cSigned 32

/-- `f32`. -/
def cF32 : Codec F32 where
  ser x := .f32 x
  de
    | .f32 x => some x
    | _ => none

/-- `String`. -/
def cStr : Codec Str where
  ser s := .str s
  de
    | .str s => some s
    | _ => none

/-- `u64` through `display_it` / `parse_it`, `src/serde_utils.rs:12-47`. -/
def cU64Str : Codec (BitVec 64) where
  ser x := .str (displayNat x.toNat)
  de
    | .str s => parseU64 s
    | _ => none

/-- `i64` through `display_it` / `parse_it`, `src/serde_utils.rs:12-47`. -/
def cI64Str : Codec (BitVec 64) where
  ser x := .str (displayInt x.toInt)
  de
    | .str s => parseI64 s
    | _ => none

/-- `Option<T>`: `null` is `None`. -/
def cOption {α : Type} (c : Codec α) : Codec (Option α) where
  ser
    | none => .null
    | some x => c.ser x
  de
    | .null => some none
    | j => (c.de j).map some

/-- Deserialize every element. -/
def deAll {α : Type} (de : SVal → Option α) : List SVal → Option (List α)
  | [] => some []
  | x :: xs => do
    let y ← de x
    let ys ← deAll de xs
    some (y :: ys)

/-- `Vec<T>`. -/
def cList {α : Type} (c : Codec α) : Codec (List α) where
  ser xs := .seq (xs.map c.ser)
  de
    | .seq xs => deAll c.de xs
    | _ => none

/-- `[T; 3]`. -/
def cArray3 {α : Type} (c : Codec α) : Codec (α × α × α) where
  ser x := .seq [c.ser x.1, c.ser x.2.1, c.ser x.2.2]
  de
    | .seq [a, b, d] => do
      let a ← c.de a
      let b ← c.de b
      let d ← c.de d
      some (a, b, d)
    | _ => none

/-- Look a field up by name and deserialize it. -/
def field {α : Type} (name : String) (c : Codec α) (j : SVal) : Option α :=
  match j with
  | .map kvs => (kvs.lookup name).bind c.de
  | _ => none

/-- Element `i` of a tuple variant with `n` elements. -/
def element {α : Type} (i n : Nat) (c : Codec α) (j : SVal) : Option α :=
  match j with
  | .seq xs => if xs.length = n then (xs[i]?).bind c.de else none
  | _ => none

/-! ## Generated codecs -/

/-- `Vector3f`, `src/network/models.rs:6-10`. -/
def cVector3f : Codec Vector3f where
  ser v := .map [("x", cF32.ser v.x),
    ("y", cF32.ser v.y),
    ("z", cF32.ser v.z)]
  de j := do
    let x ← field "x" cF32 j
    let y ← field "y" cF32 j
    let z ← field "z" cF32 j
    some ⟨x, y, z⟩

/-- `Vector3i`, `src/network/models.rs:25-29`. -/
def cVector3i : Codec Vector3i where
  ser v := .map [("x", cI32.ser v.x),
    ("y", cI32.ser v.y),
    ("z", cI32.ser v.z)]
  de j := do
    let x ← field "x" cI32 j
    let y ← field "y" cI32 j
    let z ← field "z" cI32 j
    some ⟨x, y, z⟩

/-- `Quaternion`, `src/network/models.rs:89-94`. -/
def cQuaternion : Codec Quaternion where
  ser v := .map [("x", cF32.ser v.x),
    ("y", cF32.ser v.y),
    ("z", cF32.ser v.z),
    ("w", cF32.ser v.w)]
  de j := do
    let x ← field "x" cF32 j
    let y ← field "y" cF32 j
    let z ← field "z" cF32 j
    let w ← field "w" cF32 j
    some ⟨x, y, z, w⟩

/-- `Rotation`, `src/network/models.rs:179-183`. -/
def cRotation : Codec Rotation where
  ser v := .map [("yaw", (cOption cI8).ser v.yaw),
    ("pitch", (cOption cI8).ser v.pitch),
    ("roll", (cOption cI8).ser v.roll)]
  de j := do
    let yaw ← field "yaw" (cOption cI8) j
    let pitch ← field "pitch" (cOption cI8) j
    let roll ← field "roll" (cOption cI8) j
    some ⟨yaw, pitch, roll⟩

/-- `Trajectory`, `src/network/models.rs:345-348`. -/
def cTrajectory : Codec Trajectory where
  ser v := .map [("location", (cOption cVector3i).ser v.location),
    ("rotation", (cOption cRotation).ser v.rotation)]
  de j := do
    let location ← field "location" (cOption cVector3i) j
    let rotation ← field "rotation" (cOption cRotation) j
    some ⟨location, rotation⟩

/-- `NewActor`, `src/network/models.rs:329-341`. -/
def cNewActor : Codec NewActor where
  ser v := .map [("actor_id", cI32.ser v.actorId),
    ("name_id", (cOption cI32).ser v.nameId),
    ("object_id", cI32.ser v.objectId),
    ("initial_trajectory", cTrajectory.ser v.initialTrajectory)]
  de j := do
    let actorId ← field "actor_id" cI32 j
    let nameId ← field "name_id" (cOption cI32) j
    let objectId ← field "object_id" cI32 j
    let initialTrajectory ← field "initial_trajectory" cTrajectory j
    some ⟨actorId, nameId, objectId, initialTrajectory⟩

/-- `ActiveActor`, `src/network/attributes.rs:123-126`. -/
def cActiveActor : Codec ActiveActor where
  ser v := .map [("active", cBool.ser v.active),
    ("actor", cI32.ser v.actor)]
  de j := do
    let active ← field "active" cBool j
    let actor ← field "actor" cI32 j
    some ⟨active, actor⟩

/-- `CamSettings`, `src/network/attributes.rs:129-137`. -/
def cCamSettings : Codec CamSettings where
  ser v := .map [("fov", cF32.ser v.fov),
    ("height", cF32.ser v.height),
    ("angle", cF32.ser v.angle),
    ("distance", cF32.ser v.distance),
    ("stiffness", cF32.ser v.stiffness),
    ("swivel", cF32.ser v.swivel),
    ("transition", (cOption cF32).ser v.transition)]
  de j := do
    let fov ← field "fov" cF32 j
    let height ← field "height" cF32 j
    let angle ← field "angle" cF32 j
    let distance ← field "distance" cF32 j
    let stiffness ← field "stiffness" cF32 j
    let swivel ← field "swivel" cF32 j
    let transition ← field "transition" (cOption cF32) j
    some ⟨fov, height, angle, distance, stiffness, swivel, transition⟩

/-- `ClubColors`, `src/network/attributes.rs:140-145`. -/
def cClubColors : Codec ClubColors where
  ser v := .map [("blue_flag", cBool.ser v.blueFlag),
    ("blue_color", cU8.ser v.blueColor),
    ("orange_flag", cBool.ser v.orangeFlag),
    ("orange_color", cU8.ser v.orangeColor)]
  de j := do
    let blueFlag ← field "blue_flag" cBool j
    let blueColor ← field "blue_color" cU8 j
    let orangeFlag ← field "orange_flag" cBool j
    let orangeColor ← field "orange_color" cU8 j
    some ⟨blueFlag, blueColor, orangeFlag, orangeColor⟩

/-- `AppliedDamage`, `src/network/attributes.rs:148-153`. -/
def cAppliedDamage : Codec AppliedDamage where
  ser v := .map [("id", cU8.ser v.id),
    ("position", cVector3f.ser v.position),
    ("damage_index", cI32.ser v.damageIndex),
    ("total_damage", cI32.ser v.totalDamage)]
  de j := do
    let id ← field "id" cU8 j
    let position ← field "position" cVector3f j
    let damageIndex ← field "damage_index" cI32 j
    let totalDamage ← field "total_damage" cI32 j
    some ⟨id, position, damageIndex, totalDamage⟩

/-- `DamageState`, `src/network/attributes.rs:156-172`. -/
def cDamageState : Codec DamageState where
  ser v := .map [("tile_state", cU8.ser v.tileState),
    ("damaged", cBool.ser v.damaged),
    ("offender", cI32.ser v.offender),
    ("ball_position", cVector3f.ser v.ballPosition),
    ("direct_hit", cBool.ser v.directHit),
    ("unknown1", cBool.ser v.unknown1)]
  de j := do
    let tileState ← field "tile_state" cU8 j
    let damaged ← field "damaged" cBool j
    let offender ← field "offender" cI32 j
    let ballPosition ← field "ball_position" cVector3f j
    let directHit ← field "direct_hit" cBool j
    let unknown1 ← field "unknown1" cBool j
    some ⟨tileState, damaged, offender, ballPosition, directHit, unknown1⟩

/-- `Demolish`, `src/network/attributes.rs:175-182`. -/
def cDemolish : Codec Demolish where
  ser v := .map [("attacker_flag", cBool.ser v.attackerFlag),
    ("attacker", cI32.ser v.attacker),
    ("victim_flag", cBool.ser v.victimFlag),
    ("victim", cI32.ser v.victim),
    ("attack_velocity", cVector3f.ser v.attackVelocity),
    ("victim_velocity", cVector3f.ser v.victimVelocity)]
  de j := do
    let attackerFlag ← field "attacker_flag" cBool j
    let attacker ← field "attacker" cI32 j
    let victimFlag ← field "victim_flag" cBool j
    let victim ← field "victim" cI32 j
    let attackVelocity ← field "attack_velocity" cVector3f j
    let victimVelocity ← field "victim_velocity" cVector3f j
    some ⟨attackerFlag, attacker, victimFlag, victim, attackVelocity, victimVelocity⟩

/-- `DemolishExtended`, `src/network/attributes.rs:185-194`. -/
def cDemolishExtended : Codec DemolishExtended where
  ser v := .map [("attacker_pri", cActiveActor.ser v.attackerPri),
    ("self_demo", cActiveActor.ser v.selfDemo),
    ("self_demolish", cBool.ser v.selfDemolish),
    ("goal_explosion_owner", cActiveActor.ser v.goalExplosionOwner),
    ("attacker", cActiveActor.ser v.attacker),
    ("victim", cActiveActor.ser v.victim),
    ("attacker_velocity", cVector3f.ser v.attackerVelocity),
    ("victim_velocity", cVector3f.ser v.victimVelocity)]
  de j := do
    let attackerPri ← field "attacker_pri" cActiveActor j
    let selfDemo ← field "self_demo" cActiveActor j
    let selfDemolish ← field "self_demolish" cBool j
    let goalExplosionOwner ← field "goal_explosion_owner" cActiveActor j
    let attacker ← field "attacker" cActiveActor j
    let victim ← field "victim" cActiveActor j
    let attackerVelocity ← field "attacker_velocity" cVector3f j
    let victimVelocity ← field "victim_velocity" cVector3f j
    some ⟨attackerPri, selfDemo, selfDemolish, goalExplosionOwner, attacker, victim, attackerVelocity, victimVelocity⟩

/-- `DemolishFx`, `src/network/attributes.rs:197-206`. -/
def cDemolishFx : Codec DemolishFx where
  ser v := .map [("custom_demo_flag", cBool.ser v.customDemoFlag),
    ("custom_demo_id", cI32.ser v.customDemoId),
    ("attacker_flag", cBool.ser v.attackerFlag),
    ("attacker", cI32.ser v.attacker),
    ("victim_flag", cBool.ser v.victimFlag),
    ("victim", cI32.ser v.victim),
    ("attack_velocity", cVector3f.ser v.attackVelocity),
    ("victim_velocity", cVector3f.ser v.victimVelocity)]
  de j := do
    let customDemoFlag ← field "custom_demo_flag" cBool j
    let customDemoId ← field "custom_demo_id" cI32 j
    let attackerFlag ← field "attacker_flag" cBool j
    let attacker ← field "attacker" cI32 j
    let victimFlag ← field "victim_flag" cBool j
    let victim ← field "victim" cI32 j
    let attackVelocity ← field "attack_velocity" cVector3f j
    let victimVelocity ← field "victim_velocity" cVector3f j
    some ⟨customDemoFlag, customDemoId, attackerFlag, attacker, victimFlag, victim, attackVelocity, victimVelocity⟩

/-- `Explosion`, `src/network/attributes.rs:209-213`. -/
def cExplosion : Codec Explosion where
  ser v := .map [("flag", cBool.ser v.flag),
    ("actor", cI32.ser v.actor),
    ("location", cVector3f.ser v.location)]
  de j := do
    let flag ← field "flag" cBool j
    let actor ← field "actor" cI32 j
    let location ← field "location" cVector3f j
    some ⟨flag, actor, location⟩

/-- `ExtendedExplosion`, `src/network/attributes.rs:216-220`. -/
def cExtendedExplosion : Codec ExtendedExplosion where
  ser v := .map [("explosion", cExplosion.ser v.explosion),
    ("unknown1", cBool.ser v.unknown1),
    ("secondary_actor", cI32.ser v.secondaryActor)]
  de j := do
    let explosion ← field "explosion" cExplosion j
    let unknown1 ← field "unknown1" cBool j
    let secondaryActor ← field "secondary_actor" cI32 j
    some ⟨explosion, unknown1, secondaryActor⟩

/-- `Loadout`, `src/network/attributes.rs:223-238`. -/
def cLoadout : Codec Loadout where
  ser v := .map [("version", cU8.ser v.version),
    ("body", cU32.ser v.body),
    ("decal", cU32.ser v.decal),
    ("wheels", cU32.ser v.wheels),
    ("rocket_trail", cU32.ser v.rocketTrail),
    ("antenna", cU32.ser v.antenna),
    ("topper", cU32.ser v.topper),
    ("unknown1", cU32.ser v.unknown1),
    ("unknown2", (cOption cU32).ser v.unknown2),
    ("engine_audio", (cOption cU32).ser v.engineAudio),
    ("trail", (cOption cU32).ser v.trail),
    ("goal_explosion", (cOption cU32).ser v.goalExplosion),
    ("banner", (cOption cU32).ser v.banner),
    ("product_id", (cOption cU32).ser v.productId)]
  de j := do
    let version ← field "version" cU8 j
    let body ← field "body" cU32 j
    let decal ← field "decal" cU32 j
    let wheels ← field "wheels" cU32 j
    let rocketTrail ← field "rocket_trail" cU32 j
    let antenna ← field "antenna" cU32 j
    let topper ← field "topper" cU32 j
    let unknown1 ← field "unknown1" cU32 j
    let unknown2 ← field "unknown2" (cOption cU32) j
    let engineAudio ← field "engine_audio" (cOption cU32) j
    let trail ← field "trail" (cOption cU32) j
    let goalExplosion ← field "goal_explosion" (cOption cU32) j
    let banner ← field "banner" (cOption cU32) j
    let productId ← field "product_id" (cOption cU32) j
    some ⟨version, body, decal, wheels, rocketTrail, antenna, topper, unknown1, unknown2, engineAudio, trail, goalExplosion, banner, productId⟩

/-- `TeamLoadout`, `src/network/attributes.rs:241-244`. -/
def cTeamLoadout : Codec TeamLoadout where
  ser v := .map [("blue", cLoadout.ser v.blue),
    ("orange", cLoadout.ser v.orange)]
  de j := do
    let blue ← field "blue" cLoadout j
    let orange ← field "orange" cLoadout j
    some ⟨blue, orange⟩

/-- `StatEvent`, `src/network/attributes.rs:247-250`. -/
def cStatEvent : Codec StatEvent where
  ser v := .map [("unknown1", cBool.ser v.unknown1),
    ("object_id", cI32.ser v.objectId)]
  de j := do
    let unknown1 ← field "unknown1" cBool j
    let objectId ← field "object_id" cI32 j
    some ⟨unknown1, objectId⟩

/-- `MusicStinger`, `src/network/attributes.rs:253-257`. -/
def cMusicStinger : Codec MusicStinger where
  ser v := .map [("flag", cBool.ser v.flag),
    ("cue", cU32.ser v.cue),
    ("trigger", cU8.ser v.trigger)]
  de j := do
    let flag ← field "flag" cBool j
    let cue ← field "cue" cU32 j
    let trigger ← field "trigger" cU8 j
    some ⟨flag, cue, trigger⟩

/-- `Pickup`, `src/network/attributes.rs:260-263`. -/
def cPickup : Codec Pickup where
  ser v := .map [("instigator", (cOption cI32).ser v.instigator),
    ("picked_up", cBool.ser v.pickedUp)]
  de j := do
    let instigator ← field "instigator" (cOption cI32) j
    let pickedUp ← field "picked_up" cBool j
    some ⟨instigator, pickedUp⟩

/-- `PickupNew`, `src/network/attributes.rs:266-269`. -/
def cPickupNew : Codec PickupNew where
  ser v := .map [("instigator", (cOption cI32).ser v.instigator),
    ("picked_up", cU8.ser v.pickedUp)]
  de j := do
    let instigator ← field "instigator" (cOption cI32) j
    let pickedUp ← field "picked_up" cU8 j
    some ⟨instigator, pickedUp⟩

/-- `Welded`, `src/network/attributes.rs:272-278`. -/
def cWelded : Codec Welded where
  ser v := .map [("active", cBool.ser v.active),
    ("actor", cI32.ser v.actor),
    ("offset", cVector3f.ser v.offset),
    ("mass", cF32.ser v.mass),
    ("rotation", cRotation.ser v.rotation)]
  de j := do
    let active ← field "active" cBool j
    let actor ← field "actor" cI32 j
    let offset ← field "offset" cVector3f j
    let mass ← field "mass" cF32 j
    let rotation ← field "rotation" cRotation j
    some ⟨active, actor, offset, mass, rotation⟩

/-- `TeamPaint`, `src/network/attributes.rs:281-287`. -/
def cTeamPaint : Codec TeamPaint where
  ser v := .map [("team", cU8.ser v.team),
    ("primary_color", cU8.ser v.primaryColor),
    ("accent_color", cU8.ser v.accentColor),
    ("primary_finish", cU32.ser v.primaryFinish),
    ("accent_finish", cU32.ser v.accentFinish)]
  de j := do
    let team ← field "team" cU8 j
    let primaryColor ← field "primary_color" cU8 j
    let accentColor ← field "accent_color" cU8 j
    let primaryFinish ← field "primary_finish" cU32 j
    let accentFinish ← field "accent_finish" cU32 j
    some ⟨team, primaryColor, accentColor, primaryFinish, accentFinish⟩

/-- `RigidBody`, `src/network/attributes.rs:290-296`. -/
def cRigidBody : Codec RigidBody where
  ser v := .map [("sleeping", cBool.ser v.sleeping),
    ("location", cVector3f.ser v.location),
    ("rotation", cQuaternion.ser v.rotation),
    ("linear_velocity", (cOption cVector3f).ser v.linearVelocity),
    ("angular_velocity", (cOption cVector3f).ser v.angularVelocity)]
  de j := do
    let sleeping ← field "sleeping" cBool j
    let location ← field "location" cVector3f j
    let rotation ← field "rotation" cQuaternion j
    let linearVelocity ← field "linear_velocity" (cOption cVector3f) j
    let angularVelocity ← field "angular_velocity" (cOption cVector3f) j
    some ⟨sleeping, location, rotation, linearVelocity, angularVelocity⟩

/-- `RemoteId`, `src/network/attributes.rs:337-361`. -/
def cRemoteId : Codec RemoteId where
  ser
    | .playStation onlineId name unknown1 => .variant "PlayStation" (.map [("online_id", cU64Str.ser onlineId), ("name", cStr.ser name), ("unknown1", (cList cU8).ser unknown1)])
    | .psyNet onlineId unknown1 => .variant "PsyNet" (.map [("online_id", cU64Str.ser onlineId), ("unknown1", (cList cU8).ser unknown1)])
    | .splitScreen x => .variant "SplitScreen" (cU32.ser x)
    | .steam x => .variant "Steam" (cU64Str.ser x)
    | .switch onlineId unknown1 => .variant "Switch" (.map [("online_id", cU64Str.ser onlineId), ("unknown1", (cList cU8).ser unknown1)])
    | .xbox x => .variant "Xbox" (cU64Str.ser x)
    | .qq x => .variant "QQ" (cU64Str.ser x)
    | .epic x => .variant "Epic" (cStr.ser x)
  de
    | .variant n j =>
      if n = "PlayStation" then do
        let onlineId ← field "online_id" cU64Str j
        let name ← field "name" cStr j
        let unknown1 ← field "unknown1" (cList cU8) j
        some (.playStation onlineId name unknown1)
      else if n = "PsyNet" then do
        let onlineId ← field "online_id" cU64Str j
        let unknown1 ← field "unknown1" (cList cU8) j
        some (.psyNet onlineId unknown1)
      else if n = "SplitScreen" then (cU32.de j).map .splitScreen
      else if n = "Steam" then (cU64Str.de j).map .steam
      else if n = "Switch" then do
        let onlineId ← field "online_id" cU64Str j
        let unknown1 ← field "unknown1" (cList cU8) j
        some (.switch onlineId unknown1)
      else if n = "Xbox" then (cU64Str.de j).map .xbox
      else if n = "QQ" then (cU64Str.de j).map .qq
      else if n = "Epic" then (cStr.de j).map .epic
      else none
    | _ => none

/-- `UniqueId`, `src/network/attributes.rs:299-303`. -/
def cUniqueId : Codec UniqueId where
  ser v := .map [("system_id", cU8.ser v.systemId),
    ("remote_id", cRemoteId.ser v.remoteId),
    ("local_id", cU8.ser v.localId)]
  de j := do
    let systemId ← field "system_id" cU8 j
    let remoteId ← field "remote_id" cRemoteId j
    let localId ← field "local_id" cU8 j
    some ⟨systemId, remoteId, localId⟩

/-- `Reservation`, `src/network/attributes.rs:364-371`. -/
def cReservation : Codec Reservation where
  ser v := .map [("number", cU32.ser v.number),
    ("unique_id", cUniqueId.ser v.uniqueId),
    ("name", (cOption cStr).ser v.name),
    ("unknown1", cBool.ser v.unknown1),
    ("unknown2", cBool.ser v.unknown2),
    ("unknown3", (cOption cU8).ser v.unknown3)]
  de j := do
    let number ← field "number" cU32 j
    let uniqueId ← field "unique_id" cUniqueId j
    let name ← field "name" (cOption cStr) j
    let unknown1 ← field "unknown1" cBool j
    let unknown2 ← field "unknown2" cBool j
    let unknown3 ← field "unknown3" (cOption cU8) j
    some ⟨number, uniqueId, name, unknown1, unknown2, unknown3⟩

/-- `PrivateMatchSettings`, `src/network/attributes.rs:374-381`. -/
def cPrivateMatchSettings : Codec PrivateMatchSettings where
  ser v := .map [("mutators", cStr.ser v.mutators),
    ("joinable_by", cU32.ser v.joinableBy),
    ("max_players", cU32.ser v.maxPlayers),
    ("game_name", cStr.ser v.gameName),
    ("password", cStr.ser v.password),
    ("flag", cBool.ser v.flag)]
  de j := do
    let mutators ← field "mutators" cStr j
    let joinableBy ← field "joinable_by" cU32 j
    let maxPlayers ← field "max_players" cU32 j
    let gameName ← field "game_name" cStr j
    let password ← field "password" cStr j
    let flag ← field "flag" cBool j
    some ⟨mutators, joinableBy, maxPlayers, gameName, password, flag⟩

/-- `ProductValue`, `src/network/attributes.rs:399-410`. -/
def cProductValue : Codec ProductValue where
  ser
    | .noColor => .unitVariant "NoColor"
    | .absent => .unitVariant "Absent"
    | .oldColor x => .variant "OldColor" (cU32.ser x)
    | .newColor x => .variant "NewColor" (cU32.ser x)
    | .oldPaint x => .variant "OldPaint" (cU32.ser x)
    | .newPaint x => .variant "NewPaint" (cU32.ser x)
    | .title x => .variant "Title" (cStr.ser x)
    | .specialEdition x => .variant "SpecialEdition" (cU32.ser x)
    | .oldTeamEdition x => .variant "OldTeamEdition" (cU32.ser x)
    | .newTeamEdition x => .variant "NewTeamEdition" (cU32.ser x)
  de
    | .unitVariant n =>
      if n = "NoColor" then some .noColor
      else if n = "Absent" then some .absent
      else none
    | .variant n j =>
      if n = "OldColor" then (cU32.de j).map .oldColor
      else if n = "NewColor" then (cU32.de j).map .newColor
      else if n = "OldPaint" then (cU32.de j).map .oldPaint
      else if n = "NewPaint" then (cU32.de j).map .newPaint
      else if n = "Title" then (cStr.de j).map .title
      else if n = "SpecialEdition" then (cU32.de j).map .specialEdition
      else if n = "OldTeamEdition" then (cU32.de j).map .oldTeamEdition
      else if n = "NewTeamEdition" then (cU32.de j).map .newTeamEdition
      else none
    | _ => none

/-- `Product`, `src/network/attributes.rs:384-388`. -/
def cProduct : Codec Product where
  ser v := .map [("unknown", cBool.ser v.unknown),
    ("object_ind", cI32.ser v.objectInd),
    ("value", cProductValue.ser v.value)]
  de j := do
    let unknown ← field "unknown" cBool j
    let objectInd ← field "object_ind" cI32 j
    let value ← field "value" cProductValue j
    some ⟨unknown, objectInd, value⟩

/-- `LoadoutsOnline`, `src/network/attributes.rs:391-396`. -/
def cLoadoutsOnline : Codec LoadoutsOnline where
  ser v := .map [("blue", (cList (cList cProduct)).ser v.blue),
    ("orange", (cList (cList cProduct)).ser v.orange),
    ("unknown1", cBool.ser v.unknown1),
    ("unknown2", cBool.ser v.unknown2)]
  de j := do
    let blue ← field "blue" (cList (cList cProduct)) j
    let orange ← field "orange" (cList (cList cProduct)) j
    let unknown1 ← field "unknown1" cBool j
    let unknown2 ← field "unknown2" cBool j
    some ⟨blue, orange, unknown1, unknown2⟩

/-- `RepStatTitle`, `src/network/attributes.rs:413-419`. -/
def cRepStatTitle : Codec RepStatTitle where
  ser v := .map [("unknown", cBool.ser v.unknown),
    ("name", cStr.ser v.name),
    ("unknown2", cBool.ser v.unknown2),
    ("index", cU32.ser v.index),
    ("value", cU32.ser v.value)]
  de j := do
    let unknown ← field "unknown" cBool j
    let name ← field "name" cStr j
    let unknown2 ← field "unknown2" cBool j
    let index ← field "index" cU32 j
    let value ← field "value" cU32 j
    some ⟨unknown, name, unknown2, index, value⟩

/-- `PickupInfo`, `src/network/attributes.rs:422-425`. -/
def cPickupInfo : Codec PickupInfo where
  ser v := .map [("available_pickups", (cArray3 cActiveActor).ser v.availablePickups),
    ("items_are_preview", cBool.ser v.itemsArePreview)]
  de j := do
    let availablePickups ← field "available_pickups" (cArray3 cActiveActor) j
    let itemsArePreview ← field "items_are_preview" cBool j
    some ⟨availablePickups, itemsArePreview⟩

/-- `Impulse`, `src/network/attributes.rs:428-431`. -/
def cImpulse : Codec Impulse where
  ser v := .map [("compressed_rotation", cI32.ser v.compressedRotation),
    ("speed", cF32.ser v.speed)]
  de j := do
    let compressedRotation ← field "compressed_rotation" cI32 j
    let speed ← field "speed" cF32 j
    some ⟨compressedRotation, speed⟩

/-- `ReplicatedBoost`, `src/network/attributes.rs:434-439`. -/
def cReplicatedBoost : Codec ReplicatedBoost where
  ser v := .map [("grant_count", cU8.ser v.grantCount),
    ("boost_amount", cU8.ser v.boostAmount),
    ("unused1", cU8.ser v.unused1),
    ("unused2", cU8.ser v.unused2)]
  de j := do
    let grantCount ← field "grant_count" cU8 j
    let boostAmount ← field "boost_amount" cU8 j
    let unused1 ← field "unused1" cU8 j
    let unused2 ← field "unused2" cU8 j
    some ⟨grantCount, boostAmount, unused1, unused2⟩

/-- `LogoData`, `src/network/attributes.rs:442-445`. -/
def cLogoData : Codec LogoData where
  ser v := .map [("logo_id", cU32.ser v.logoId),
    ("swap_colors", cBool.ser v.swapColors)]
  de j := do
    let logoId ← field "logo_id" cU32 j
    let swapColors ← field "swap_colors" cBool j
    some ⟨logoId, swapColors⟩

/-- `Attribute`, `src/network/attributes.rs:65-120`. -/
def cAttribute : Codec Attribute where
  ser
    | .boolean x => .variant "Boolean" (cBool.ser x)
    | .byte x => .variant "Byte" (cU8.ser x)
    | .appliedDamage x => .variant "AppliedDamage" (cAppliedDamage.ser x)
    | .damageState x => .variant "DamageState" (cDamageState.ser x)
    | .camSettings x => .variant "CamSettings" (cCamSettings.ser x)
    | .clubColors x => .variant "ClubColors" (cClubColors.ser x)
    | .demolish x => .variant "Demolish" (cDemolish.ser x)
    | .demolishExtended x => .variant "DemolishExtended" (cDemolishExtended.ser x)
    | .demolishFx x => .variant "DemolishFx" (cDemolishFx.ser x)
    | .enum x => .variant "Enum" (cU16.ser x)
    | .explosion x => .variant "Explosion" (cExplosion.ser x)
    | .extendedExplosion x => .variant "ExtendedExplosion" (cExtendedExplosion.ser x)
    | .flaggedByte x0 x1 => .variant "FlaggedByte" (.seq [cBool.ser x0, cU8.ser x1])
    | .activeActor x => .variant "ActiveActor" (cActiveActor.ser x)
    | .float x => .variant "Float" (cF32.ser x)
    | .gameMode x0 x1 => .variant "GameMode" (.seq [cU8.ser x0, cU8.ser x1])
    | .int x => .variant "Int" (cI32.ser x)
    | .int64 x => .variant "Int64" (cI64Str.ser x)
    | .loadout x => .variant "Loadout" (cLoadout.ser x)
    | .teamLoadout x => .variant "TeamLoadout" (cTeamLoadout.ser x)
    | .location x => .variant "Location" (cVector3f.ser x)
    | .musicStinger x => .variant "MusicStinger" (cMusicStinger.ser x)
    | .playerHistoryKey x => .variant "PlayerHistoryKey" (cU16.ser x)
    | .pickup x => .variant "Pickup" (cPickup.ser x)
    | .pickupNew x => .variant "PickupNew" (cPickupNew.ser x)
    | .qWord x => .variant "QWord" (cU64Str.ser x)
    | .welded x => .variant "Welded" (cWelded.ser x)
    | .title x0 x1 x2 x3 x4 x5 x6 x7 => .variant "Title" (.seq [cBool.ser x0, cBool.ser x1, cU32.ser x2, cU32.ser x3, cU32.ser x4, cU32.ser x5, cU32.ser x6, cBool.ser x7])
    | .teamPaint x => .variant "TeamPaint" (cTeamPaint.ser x)
    | .rigidBody x => .variant "RigidBody" (cRigidBody.ser x)
    | .string x => .variant "String" (cStr.ser x)
    | .uniqueId x => .variant "UniqueId" (cUniqueId.ser x)
    | .reservation x => .variant "Reservation" (cReservation.ser x)
    | .partyLeader x => .variant "PartyLeader" ((cOption cUniqueId).ser x)
    | .privateMatch x => .variant "PrivateMatch" (cPrivateMatchSettings.ser x)
    | .loadoutOnline x => .variant "LoadoutOnline" ((cList (cList cProduct)).ser x)
    | .loadoutsOnline x => .variant "LoadoutsOnline" (cLoadoutsOnline.ser x)
    | .statEvent x => .variant "StatEvent" (cStatEvent.ser x)
    | .rotation x => .variant "Rotation" (cRotation.ser x)
    | .repStatTitle x => .variant "RepStatTitle" (cRepStatTitle.ser x)
    | .pickupInfo x => .variant "PickupInfo" (cPickupInfo.ser x)
    | .impulse x => .variant "Impulse" (cImpulse.ser x)
    | .replicatedBoost x => .variant "ReplicatedBoost" (cReplicatedBoost.ser x)
    | .logoData x => .variant "LogoData" (cLogoData.ser x)
  de
    | .variant n j =>
      if n = "Boolean" then (cBool.de j).map .boolean
      else if n = "Byte" then (cU8.de j).map .byte
      else if n = "AppliedDamage" then (cAppliedDamage.de j).map .appliedDamage
      else if n = "DamageState" then (cDamageState.de j).map .damageState
      else if n = "CamSettings" then (cCamSettings.de j).map .camSettings
      else if n = "ClubColors" then (cClubColors.de j).map .clubColors
      else if n = "Demolish" then (cDemolish.de j).map .demolish
      else if n = "DemolishExtended" then (cDemolishExtended.de j).map .demolishExtended
      else if n = "DemolishFx" then (cDemolishFx.de j).map .demolishFx
      else if n = "Enum" then (cU16.de j).map .enum
      else if n = "Explosion" then (cExplosion.de j).map .explosion
      else if n = "ExtendedExplosion" then (cExtendedExplosion.de j).map .extendedExplosion
      else if n = "FlaggedByte" then do
        let x0 ← element 0 2 cBool j
        let x1 ← element 1 2 cU8 j
        some (.flaggedByte x0 x1)
      else if n = "ActiveActor" then (cActiveActor.de j).map .activeActor
      else if n = "Float" then (cF32.de j).map .float
      else if n = "GameMode" then do
        let x0 ← element 0 2 cU8 j
        let x1 ← element 1 2 cU8 j
        some (.gameMode x0 x1)
      else if n = "Int" then (cI32.de j).map .int
      else if n = "Int64" then (cI64Str.de j).map .int64
      else if n = "Loadout" then (cLoadout.de j).map .loadout
      else if n = "TeamLoadout" then (cTeamLoadout.de j).map .teamLoadout
      else if n = "Location" then (cVector3f.de j).map .location
      else if n = "MusicStinger" then (cMusicStinger.de j).map .musicStinger
      else if n = "PlayerHistoryKey" then (cU16.de j).map .playerHistoryKey
      else if n = "Pickup" then (cPickup.de j).map .pickup
      else if n = "PickupNew" then (cPickupNew.de j).map .pickupNew
      else if n = "QWord" then (cU64Str.de j).map .qWord
      else if n = "Welded" then (cWelded.de j).map .welded
      else if n = "Title" then do
        let x0 ← element 0 8 cBool j
        let x1 ← element 1 8 cBool j
        let x2 ← element 2 8 cU32 j
        let x3 ← element 3 8 cU32 j
        let x4 ← element 4 8 cU32 j
        let x5 ← element 5 8 cU32 j
        let x6 ← element 6 8 cU32 j
        let x7 ← element 7 8 cBool j
        some (.title x0 x1 x2 x3 x4 x5 x6 x7)
      else if n = "TeamPaint" then (cTeamPaint.de j).map .teamPaint
      else if n = "RigidBody" then (cRigidBody.de j).map .rigidBody
      else if n = "String" then (cStr.de j).map .string
      else if n = "UniqueId" then (cUniqueId.de j).map .uniqueId
      else if n = "Reservation" then (cReservation.de j).map .reservation
      else if n = "PartyLeader" then ((cOption cUniqueId).de j).map .partyLeader
      else if n = "PrivateMatch" then (cPrivateMatchSettings.de j).map .privateMatch
      else if n = "LoadoutOnline" then ((cList (cList cProduct)).de j).map .loadoutOnline
      else if n = "LoadoutsOnline" then (cLoadoutsOnline.de j).map .loadoutsOnline
      else if n = "StatEvent" then (cStatEvent.de j).map .statEvent
      else if n = "Rotation" then (cRotation.de j).map .rotation
      else if n = "RepStatTitle" then (cRepStatTitle.de j).map .repStatTitle
      else if n = "PickupInfo" then (cPickupInfo.de j).map .pickupInfo
      else if n = "Impulse" then (cImpulse.de j).map .impulse
      else if n = "ReplicatedBoost" then (cReplicatedBoost.de j).map .replicatedBoost
      else if n = "LogoData" then (cLogoData.de j).map .logoData
      else none
    | _ => none

/-- `UpdatedAttribute`, `src/network/models.rs:221-233`. -/
def cUpdatedAttribute : Codec UpdatedAttribute where
  ser v := .map [("actor_id", cI32.ser v.actorId),
    ("stream_id", cI32.ser v.streamId),
    ("object_id", cI32.ser v.objectId),
    ("attribute", cAttribute.ser v.attr)]
  de j := do
    let actorId ← field "actor_id" cI32 j
    let streamId ← field "stream_id" cI32 j
    let objectId ← field "object_id" cI32 j
    let attr ← field "attribute" cAttribute j
    some ⟨actorId, streamId, objectId, attr⟩

/-- `Frame`, `src/network/models.rs:237-252`. -/
def cFrame : Codec Frame where
  ser v := .map [("time", cF32.ser v.time),
    ("delta", cF32.ser v.delta),
    ("new_actors", (cList cNewActor).ser v.newActors),
    ("deleted_actors", (cList cI32).ser v.deletedActors),
    ("updated_actors", (cList cUpdatedAttribute).ser v.updatedActors)]
  de j := do
    let time ← field "time" cF32 j
    let delta ← field "delta" cF32 j
    let newActors ← field "new_actors" (cList cNewActor) j
    let deletedActors ← field "deleted_actors" (cList cI32) j
    let updatedActors ← field "updated_actors" (cList cUpdatedAttribute) j
    some ⟨time, delta, newActors, deletedActors, updatedActors⟩

/-! ## Serialize-only types, `src/models.rs` -/

mutual
/-- `pair_vec`, `src/models.rs:275-287` on the property list. -/
def serProps : List (Str × HeaderProp) → List (Str × SVal)
  | [] => []
  | (k, v) :: rest => (k, serProp v) :: serProps rest

/-- `Serialize for HeaderProp`, `src/models.rs:293-336`. -/
def serProp : HeaderProp → SVal
  | .array elems => .seq (serElems elems)
  | .struct name fields =>
    .map [("name", .str name), ("fields", .map (stringKeys (serProps fields)))]
  | .bool b => .bool b
  | .byte kind value => .map [("kind", .str kind), ("value", (cOption cStr).ser value)]
  | .float f => .f32 f
  | .int i => .int i.toInt
  | .qword q => .str (displayNat q.toNat)
  | .name s => .str s
  | .str s => .str s

/-- The elements of an array property. -/
def serElems : List (List (Str × HeaderProp)) → List SVal
  | [] => []
  | e :: rest => .map (stringKeys (serProps e)) :: serElems rest

/-- Keys of a map are strings. -/
def stringKeys : List (Str × SVal) → List (String × SVal)
  | [] => []
  | (k, v) :: rest => (String.ofList k, v) :: stringKeys rest
end

/-- `TickMark`, `src/models.rs:55-59`. -/
def serTickMark (t : TickMark) : SVal :=
  .map [("description", .str t.description), ("frame", .int t.frame.toInt)]
/-- `KeyFrame`, `src/models.rs:66-71`. -/
def serKeyFrame (k : KeyFrame) : SVal :=
  .map [("time", .f32 k.time), ("frame", .int k.frame.toInt), ("position", .int k.position.toInt)]
/-- `DebugInfo`, `src/models.rs:224-229`. -/
def serDebugInfo (d : DebugInfo) : SVal :=
  .map [("frame", .int d.frame.toInt), ("user", .str d.user), ("text", .str d.text)]
/-- `ClassIndex`, `src/models.rs:232-239`. -/
def serClassIndex (c : ClassIndex) : SVal :=
  .map [("class", .str c.cls), ("index", .int c.index.toInt)]
/-- `CacheProp`, `src/models.rs:243-251`. -/
def serCacheProp (c : CacheProp) : SVal :=
  .map [("object_ind", .int c.objectInd.toInt), ("stream_id", .int c.streamId.toInt)]
/-- `ClassNetCache`, `src/models.rs:254-267`. -/
def serClassNetCache (c : ClassNetCache) : SVal :=
  .map [("object_ind", .int c.objectInd.toInt), ("parent_id", .int c.parentId.toInt),
    ("cache_id", .int c.cacheId.toInt), ("properties", .seq (c.properties.map serCacheProp))]
/-- `NetworkFrames`, `src/models.rs:46-49`. -/
def serNetworkFrames (n : NetworkFrames) : SVal :=
  .map [("frames", (cList cFrame).ser n.frames)]

/-- `Replay`, `src/models.rs:18-43`. -/
def serReplay (r : Replay) : SVal :=
  .map [("header_size", .int r.headerSize.toInt),
    ("header_crc", .int r.headerCrc.toNat),
    ("major_version", .int r.majorVersion.toInt),
    ("minor_version", .int r.minorVersion.toInt),
    ("net_version", (cOption cI32).ser r.netVersion),
    ("game_type", .str r.gameType),
    ("properties", .map (stringKeys (serProps r.properties))),
    ("content_size", .int r.contentSize.toInt),
    ("content_crc", .int r.contentCrc.toNat),
    ("network_frames", match r.networkFrames with
      | none => .null
      | some n => serNetworkFrames n),
    ("levels", (cList cStr).ser r.levels),
    ("keyframes", .seq (r.keyframes.map serKeyFrame)),
    ("debug_info", .seq (r.debugInfo.map serDebugInfo)),
    ("tick_marks", .seq (r.tickMarks.map serTickMark)),
    ("packages", (cList cStr).ser r.packages),
    ("objects", (cList cStr).ser r.objects),
    ("names", (cList cStr).ser r.names),
    ("class_indices", .seq (r.classIndices.map serClassIndex)),
    ("net_cache", .seq (r.netCache.map serClassNetCache))]

end Boxcars
