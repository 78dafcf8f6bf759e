import Verif.Model.Display
/-!
# Derived `Debug` text: `{:?}` of locations, rotations, tags and attributes

What `#[derive(Debug)]` prints is documented by the standard library: a struct is
`Name { field: value, .. }`, a tuple struct or variant `Name(value, ..)`, a variant without
fields its name, a list `[value, ..]`, a text is in quotes and escaped.  The functions from
"Generated" on are generated by `tools/gen_debug.py` from the definitions in `/repo`.

Not modelled: the text of floats, and which characters Unicode considers printable (`Std`).
-/
namespace Boxcars.Debug

/-- Brackets. -/
inductive Kind where
  /-- `Name(a, b)` -/
  | call
  /-- `Name { x: a, y: b }` -/
  | record
  /-- `[a, b]` -/
  | list
  deriving DecidableEq

mutual
/-- What is printed, before it is text. -/
inductive DVal where
  /-- a number, a truth value, or the name of a variant -/
  | atom (s : Str)
  | float (x : F32)
  | text (s : Str)
  | node (k : Kind) (name : String) (items : DItems)
/-- Fields with their names (empty unless in a record). -/
inductive DItems where
  | nil
  | cons (label : String) (v : DVal) (rest : DItems)
end

/-- Text made by the standard library. -/
structure Std where
  /-- `{:?}` of an `f32` -/
  debug : F32 → Str
  /-- `{}` of an `f32` -/
  display : F32 → Str
  /-- printable and not extending a grapheme -/
  plain : Char → Bool

/-- `char::escape_debug_ext` as `str` uses it: quotes and backslashes, the four control
characters with a letter of their own, and what is not plain. -/
def escape (plain : Char → Bool) (c : Char) : Str :=
  if c = '\x00' then ['\\', '0']
  else if c = '\t' then ['\\', 't']
  else if c = '\r' then ['\\', 'r']
  else if c = '\n' then ['\\', 'n']
  else if c = '\\' then ['\\', '\\']
  else if c = '"' then ['\\', '"']
  else if plain c then [c]
  else ['\\', 'u', '{'] ++ Nat.toDigits 16 c.toNat ++ ['}']

/-- What precedes and follows the fields. -/
def Kind.opening : Kind → Str
  | .call => ['(']
  | .record => [' ', '{', ' ']
  | .list => ['[']
def Kind.closing : Kind → Str
  | .call => [')']
  | .record => [' ', '}']
  | .list => [']']

/-- The name of a field. -/
def Kind.label (k : Kind) (l : String) : Str :=
  if k = .record then l.toList ++ [':', ' '] else []

mutual
/-- `{:?}`. -/
def DVal.show (s : Std) : DVal → Str
  | .atom a => a
  | .float x => s.debug x
  | .text t => '"' :: (t.flatMap (escape s.plain) ++ ['"'])
  | .node k name items => name.toList ++ (k.opening ++ (items.show s k true ++ k.closing))
/-- The fields; `first` if none precedes. -/
def DItems.show (s : Std) (k : Kind) : Bool → DItems → Str
  | _, .nil => []
  | first, .cons l v rest =>
    (if first then [] else [',', ' ']) ++ (k.label l ++ (v.show s ++ rest.show s k false))
end

/-! ## Building blocks -/

def items : List (String × DVal) → DItems
  | [] => .nil
  | (l, v) :: rest => .cons l v (items rest)

/-- Fields without names. -/
def unnamed : List DVal → DItems
  | [] => .nil
  | v :: rest => .cons "" v (unnamed rest)

def record (name : String) (fields : List (String × DVal)) : DVal := .node .record name (items fields)
def call (name : String) (args : List DVal) : DVal := .node .call name (unnamed args)

/-- The name of a variant. -/
def dUnit (name : String) : DVal := .atom name.toList
def dBool (b : Bool) : DVal := .atom (if b then "true".toList else "false".toList)
/-- `u8`, `u16`, `u32`, `u64` -/
def dUnsigned {w : Nat} (x : BitVec w) : DVal := .atom (displayNat x.toNat)
/-- `i8`, `i32`, `i64` -/
def dSigned {w : Nat} (x : BitVec w) : DVal := .atom (displayInt x.toInt)
def dF32 (x : F32) : DVal := .float x
def dStr (s : Str) : DVal := .text s
/-- `ActorId(pub i32)`, `src/network/models.rs:307`. -/
def dActorId (x : ActorId) : DVal := call "ActorId" [dSigned x]
/-- `ObjectId(pub i32)`, `src/network/models.rs:260`. -/
def dObjectId (x : ObjectId) : DVal := call "ObjectId" [dSigned x]
def dOption {α : Type} (d : α → DVal) : Option α → DVal
  | none => dUnit "None"
  | some x => call "Some" [d x]
def dList {α : Type} (d : α → DVal) (xs : List α) : DVal := .node .list "" (unnamed (xs.map d))
/-- `[T; 3]` -/
def dArray3 {α : Type} (d : α → DVal) (x : α × α × α) : DVal :=
  .node .list "" (unnamed [d x.1, d x.2.1, d x.2.2])

/-! ## Generated -/

/-- `Vector3f`, `src/network/models.rs:6-10`. -/
def dVector3f (v : Vector3f) : DVal :=
  record "Vector3f" [("x", dF32 v.x), ("y", dF32 v.y), ("z", dF32 v.z)]

/-- `Vector3i`, `src/network/models.rs:25-29`. -/
def dVector3i (v : Vector3i) : DVal :=
  record "Vector3i" [("x", dSigned v.x), ("y", dSigned v.y), ("z", dSigned v.z)]

/-- `Quaternion`, `src/network/models.rs:89-94`. -/
def dQuaternion (v : Quaternion) : DVal :=
  record "Quaternion" [("x", dF32 v.x), ("y", dF32 v.y), ("z", dF32 v.z), ("w", dF32 v.w)]

/-- `Rotation`, `src/network/models.rs:179-183`. -/
def dRotation (v : Rotation) : DVal :=
  record "Rotation" [("yaw", (dOption dSigned) v.yaw), ("pitch", (dOption dSigned) v.pitch),
    ("roll", (dOption dSigned) v.roll)]

/-- `ActiveActor`, `src/network/attributes.rs:123-126`. -/
def dActiveActor (v : ActiveActor) : DVal :=
  record "ActiveActor" [("active", dBool v.active), ("actor", dActorId v.actor)]

/-- `CamSettings`, `src/network/attributes.rs:129-137`. -/
def dCamSettings (v : CamSettings) : DVal :=
  record "CamSettings" [("fov", dF32 v.fov), ("height", dF32 v.height), ("angle", dF32 v.angle),
    ("distance", dF32 v.distance), ("stiffness", dF32 v.stiffness), ("swivel", dF32 v.swivel),
    ("transition", (dOption dF32) v.transition)]

/-- `ClubColors`, `src/network/attributes.rs:140-145`. -/
def dClubColors (v : ClubColors) : DVal :=
  record "ClubColors" [("blue_flag", dBool v.blueFlag), ("blue_color", dUnsigned v.blueColor),
    ("orange_flag", dBool v.orangeFlag), ("orange_color", dUnsigned v.orangeColor)]

/-- `AppliedDamage`, `src/network/attributes.rs:148-153`. -/
def dAppliedDamage (v : AppliedDamage) : DVal :=
  record "AppliedDamage" [("id", dUnsigned v.id), ("position", dVector3f v.position),
    ("damage_index", dSigned v.damageIndex), ("total_damage", dSigned v.totalDamage)]

/-- `DamageState`, `src/network/attributes.rs:156-172`. -/
def dDamageState (v : DamageState) : DVal :=
  record "DamageState" [("tile_state", dUnsigned v.tileState), ("damaged", dBool v.damaged),
    ("offender", dActorId v.offender), ("ball_position", dVector3f v.ballPosition),
    ("direct_hit", dBool v.directHit), ("unknown1", dBool v.unknown1)]

/-- `Demolish`, `src/network/attributes.rs:175-182`. -/
def dDemolish (v : Demolish) : DVal :=
  record "Demolish" [("attacker_flag", dBool v.attackerFlag), ("attacker", dActorId v.attacker),
    ("victim_flag", dBool v.victimFlag), ("victim", dActorId v.victim),
    ("attack_velocity", dVector3f v.attackVelocity),
    ("victim_velocity", dVector3f v.victimVelocity)]

/-- `DemolishExtended`, `src/network/attributes.rs:185-194`. -/
def dDemolishExtended (v : DemolishExtended) : DVal :=
  record "DemolishExtended" [("attacker_pri", dActiveActor v.attackerPri),
    ("self_demo", dActiveActor v.selfDemo), ("self_demolish", dBool v.selfDemolish),
    ("goal_explosion_owner", dActiveActor v.goalExplosionOwner),
    ("attacker", dActiveActor v.attacker), ("victim", dActiveActor v.victim),
    ("attacker_velocity", dVector3f v.attackerVelocity),
    ("victim_velocity", dVector3f v.victimVelocity)]

/-- `DemolishFx`, `src/network/attributes.rs:197-206`. -/
def dDemolishFx (v : DemolishFx) : DVal :=
  record "DemolishFx" [("custom_demo_flag", dBool v.customDemoFlag),
    ("custom_demo_id", dSigned v.customDemoId), ("attacker_flag", dBool v.attackerFlag),
    ("attacker", dActorId v.attacker), ("victim_flag", dBool v.victimFlag),
    ("victim", dActorId v.victim), ("attack_velocity", dVector3f v.attackVelocity),
    ("victim_velocity", dVector3f v.victimVelocity)]

/-- `Explosion`, `src/network/attributes.rs:209-213`. -/
def dExplosion (v : Explosion) : DVal :=
  record "Explosion" [("flag", dBool v.flag), ("actor", dActorId v.actor),
    ("location", dVector3f v.location)]

/-- `ExtendedExplosion`, `src/network/attributes.rs:216-220`. -/
def dExtendedExplosion (v : ExtendedExplosion) : DVal :=
  record "ExtendedExplosion" [("explosion", dExplosion v.explosion),
    ("unknown1", dBool v.unknown1), ("secondary_actor", dActorId v.secondaryActor)]

/-- `Loadout`, `src/network/attributes.rs:223-238`. -/
def dLoadout (v : Loadout) : DVal :=
  record "Loadout" [("version", dUnsigned v.version), ("body", dUnsigned v.body),
    ("decal", dUnsigned v.decal), ("wheels", dUnsigned v.wheels),
    ("rocket_trail", dUnsigned v.rocketTrail), ("antenna", dUnsigned v.antenna),
    ("topper", dUnsigned v.topper), ("unknown1", dUnsigned v.unknown1),
    ("unknown2", (dOption dUnsigned) v.unknown2),
    ("engine_audio", (dOption dUnsigned) v.engineAudio), ("trail", (dOption dUnsigned) v.trail),
    ("goal_explosion", (dOption dUnsigned) v.goalExplosion),
    ("banner", (dOption dUnsigned) v.banner), ("product_id", (dOption dUnsigned) v.productId)]

/-- `TeamLoadout`, `src/network/attributes.rs:241-244`. -/
def dTeamLoadout (v : TeamLoadout) : DVal :=
  record "TeamLoadout" [("blue", dLoadout v.blue), ("orange", dLoadout v.orange)]

/-- `StatEvent`, `src/network/attributes.rs:247-250`. -/
def dStatEvent (v : StatEvent) : DVal :=
  record "StatEvent" [("unknown1", dBool v.unknown1), ("object_id", dSigned v.objectId)]

/-- `MusicStinger`, `src/network/attributes.rs:253-257`. -/
def dMusicStinger (v : MusicStinger) : DVal :=
  record "MusicStinger" [("flag", dBool v.flag), ("cue", dUnsigned v.cue),
    ("trigger", dUnsigned v.trigger)]

/-- `Pickup`, `src/network/attributes.rs:260-263`. -/
def dPickup (v : Pickup) : DVal :=
  record "Pickup" [("instigator", (dOption dActorId) v.instigator),
    ("picked_up", dBool v.pickedUp)]

/-- `PickupNew`, `src/network/attributes.rs:266-269`. -/
def dPickupNew (v : PickupNew) : DVal :=
  record "PickupNew" [("instigator", (dOption dActorId) v.instigator),
    ("picked_up", dUnsigned v.pickedUp)]

/-- `Welded`, `src/network/attributes.rs:272-278`. -/
def dWelded (v : Welded) : DVal :=
  record "Welded" [("active", dBool v.active), ("actor", dActorId v.actor),
    ("offset", dVector3f v.offset), ("mass", dF32 v.mass), ("rotation", dRotation v.rotation)]

/-- `TeamPaint`, `src/network/attributes.rs:281-287`. -/
def dTeamPaint (v : TeamPaint) : DVal :=
  record "TeamPaint" [("team", dUnsigned v.team), ("primary_color", dUnsigned v.primaryColor),
    ("accent_color", dUnsigned v.accentColor), ("primary_finish", dUnsigned v.primaryFinish),
    ("accent_finish", dUnsigned v.accentFinish)]

/-- `RigidBody`, `src/network/attributes.rs:290-296`. -/
def dRigidBody (v : RigidBody) : DVal :=
  record "RigidBody" [("sleeping", dBool v.sleeping), ("location", dVector3f v.location),
    ("rotation", dQuaternion v.rotation),
    ("linear_velocity", (dOption dVector3f) v.linearVelocity),
    ("angular_velocity", (dOption dVector3f) v.angularVelocity)]

/-- `RemoteId`, `src/network/attributes.rs:337-361`. -/
def dRemoteId : RemoteId → DVal
  | .playStation onlineId name unknown1 => call "PlayStation" [record "Ps4Id" [
    ("online_id", dUnsigned onlineId), ("name", dStr name),
    ("unknown1", (dList dUnsigned) unknown1)]]
  | .psyNet onlineId unknown1 => call "PsyNet" [record "PsyNetId" [
    ("online_id", dUnsigned onlineId), ("unknown1", (dList dUnsigned) unknown1)]]
  | .splitScreen x => call "SplitScreen" [dUnsigned x]
  | .steam x => call "Steam" [dUnsigned x]
  | .switch onlineId unknown1 => call "Switch" [record "SwitchId" [
    ("online_id", dUnsigned onlineId), ("unknown1", (dList dUnsigned) unknown1)]]
  | .xbox x => call "Xbox" [dUnsigned x]
  | .qq x => call "QQ" [dUnsigned x]
  | .epic x => call "Epic" [dStr x]

/-- `UniqueId`, `src/network/attributes.rs:299-303`. -/
def dUniqueId (v : UniqueId) : DVal :=
  record "UniqueId" [("system_id", dUnsigned v.systemId), ("remote_id", dRemoteId v.remoteId),
    ("local_id", dUnsigned v.localId)]

/-- `Reservation`, `src/network/attributes.rs:364-371`. -/
def dReservation (v : Reservation) : DVal :=
  record "Reservation" [("number", dUnsigned v.number), ("unique_id", dUniqueId v.uniqueId),
    ("name", (dOption dStr) v.name), ("unknown1", dBool v.unknown1),
    ("unknown2", dBool v.unknown2), ("unknown3", (dOption dUnsigned) v.unknown3)]

/-- `PrivateMatchSettings`, `src/network/attributes.rs:374-381`. -/
def dPrivateMatchSettings (v : PrivateMatchSettings) : DVal :=
  record "PrivateMatchSettings" [("mutators", dStr v.mutators),
    ("joinable_by", dUnsigned v.joinableBy), ("max_players", dUnsigned v.maxPlayers),
    ("game_name", dStr v.gameName), ("password", dStr v.password), ("flag", dBool v.flag)]

/-- `ProductValue`, `src/network/attributes.rs:399-410`. -/
def dProductValue : ProductValue → DVal
  | .noColor => dUnit "NoColor"
  | .absent => dUnit "Absent"
  | .oldColor x => call "OldColor" [dUnsigned x]
  | .newColor x => call "NewColor" [dUnsigned x]
  | .oldPaint x => call "OldPaint" [dUnsigned x]
  | .newPaint x => call "NewPaint" [dUnsigned x]
  | .title x => call "Title" [dStr x]
  | .specialEdition x => call "SpecialEdition" [dUnsigned x]
  | .oldTeamEdition x => call "OldTeamEdition" [dUnsigned x]
  | .newTeamEdition x => call "NewTeamEdition" [dUnsigned x]

/-- `Product`, `src/network/attributes.rs:384-388`. -/
def dProduct (v : Product) : DVal :=
  record "Product" [("unknown", dBool v.unknown), ("object_ind", dObjectId v.objectInd),
    ("value", dProductValue v.value)]

/-- `LoadoutsOnline`, `src/network/attributes.rs:391-396`. -/
def dLoadoutsOnline (v : LoadoutsOnline) : DVal :=
  record "LoadoutsOnline" [("blue", (dList (dList dProduct)) v.blue),
    ("orange", (dList (dList dProduct)) v.orange), ("unknown1", dBool v.unknown1),
    ("unknown2", dBool v.unknown2)]

/-- `RepStatTitle`, `src/network/attributes.rs:413-419`. -/
def dRepStatTitle (v : RepStatTitle) : DVal :=
  record "RepStatTitle" [("unknown", dBool v.unknown), ("name", dStr v.name),
    ("unknown2", dBool v.unknown2), ("index", dUnsigned v.index), ("value", dUnsigned v.value)]

/-- `PickupInfo`, `src/network/attributes.rs:422-425`. -/
def dPickupInfo (v : PickupInfo) : DVal :=
  record "PickupInfo" [("available_pickups", (dArray3 dActiveActor) v.availablePickups),
    ("items_are_preview", dBool v.itemsArePreview)]

/-- `Impulse`, `src/network/attributes.rs:428-431`. -/
def dImpulse (v : Impulse) : DVal :=
  record "Impulse" [("compressed_rotation", dSigned v.compressedRotation),
    ("speed", dF32 v.speed)]

/-- `ReplicatedBoost`, `src/network/attributes.rs:434-439`. -/
def dReplicatedBoost (v : ReplicatedBoost) : DVal :=
  record "ReplicatedBoost" [("grant_count", dUnsigned v.grantCount),
    ("boost_amount", dUnsigned v.boostAmount), ("unused1", dUnsigned v.unused1),
    ("unused2", dUnsigned v.unused2)]

/-- `LogoData`, `src/network/attributes.rs:442-445`. -/
def dLogoData (v : LogoData) : DVal :=
  record "LogoData" [("logo_id", dUnsigned v.logoId), ("swap_colors", dBool v.swapColors)]

/-- `Attribute`, `src/network/attributes.rs:65-120`. -/
def dAttribute : Attribute → DVal
  | .boolean x => call "Boolean" [dBool x]
  | .byte x => call "Byte" [dUnsigned x]
  | .appliedDamage x => call "AppliedDamage" [dAppliedDamage x]
  | .damageState x => call "DamageState" [dDamageState x]
  | .camSettings x => call "CamSettings" [dCamSettings x]
  | .clubColors x => call "ClubColors" [dClubColors x]
  | .demolish x => call "Demolish" [dDemolish x]
  | .demolishExtended x => call "DemolishExtended" [dDemolishExtended x]
  | .demolishFx x => call "DemolishFx" [dDemolishFx x]
  | .enum x => call "Enum" [dUnsigned x]
  | .explosion x => call "Explosion" [dExplosion x]
  | .extendedExplosion x => call "ExtendedExplosion" [dExtendedExplosion x]
  | .flaggedByte x0 x1 => call "FlaggedByte" [dBool x0, dUnsigned x1]
  | .activeActor x => call "ActiveActor" [dActiveActor x]
  | .float x => call "Float" [dF32 x]
  | .gameMode x0 x1 => call "GameMode" [dUnsigned x0, dUnsigned x1]
  | .int x => call "Int" [dSigned x]
  | .int64 x => call "Int64" [dSigned x]
  | .loadout x => call "Loadout" [dLoadout x]
  | .teamLoadout x => call "TeamLoadout" [dTeamLoadout x]
  | .location x => call "Location" [dVector3f x]
  | .musicStinger x => call "MusicStinger" [dMusicStinger x]
  | .playerHistoryKey x => call "PlayerHistoryKey" [dUnsigned x]
  | .pickup x => call "Pickup" [dPickup x]
  | .pickupNew x => call "PickupNew" [dPickupNew x]
  | .qWord x => call "QWord" [dUnsigned x]
  | .welded x => call "Welded" [dWelded x]
  | .title x0 x1 x2 x3 x4 x5 x6 x7 => call "Title" [dBool x0, dBool x1, dUnsigned x2,
    dUnsigned x3, dUnsigned x4, dUnsigned x5, dUnsigned x6, dBool x7]
  | .teamPaint x => call "TeamPaint" [dTeamPaint x]
  | .rigidBody x => call "RigidBody" [dRigidBody x]
  | .string x => call "String" [dStr x]
  | .uniqueId x => call "UniqueId" [dUniqueId x]
  | .reservation x => call "Reservation" [dReservation x]
  | .partyLeader x => call "PartyLeader" [(dOption dUniqueId) x]
  | .privateMatch x => call "PrivateMatch" [dPrivateMatchSettings x]
  | .loadoutOnline x => call "LoadoutOnline" [(dList (dList dProduct)) x]
  | .loadoutsOnline x => call "LoadoutsOnline" [dLoadoutsOnline x]
  | .statEvent x => call "StatEvent" [dStatEvent x]
  | .rotation x => call "Rotation" [dRotation x]
  | .repStatTitle x => call "RepStatTitle" [dRepStatTitle x]
  | .pickupInfo x => call "PickupInfo" [dPickupInfo x]
  | .impulse x => call "Impulse" [dImpulse x]
  | .replicatedBoost x => call "ReplicatedBoost" [dReplicatedBoost x]
  | .logoData x => call "LogoData" [dLogoData x]

/-- `AttributeTag`, `src/network/attributes.rs:11-57`. -/
def dAttributeTag : AttributeTag → DVal
  | .boolean => dUnit "Boolean"
  | .byte => dUnit "Byte"
  | .appliedDamage => dUnit "AppliedDamage"
  | .damageState => dUnit "DamageState"
  | .camSettings => dUnit "CamSettings"
  | .clubColors => dUnit "ClubColors"
  | .demolish => dUnit "Demolish"
  | .demolishFx => dUnit "DemolishFx"
  | .demolishExtended => dUnit "DemolishExtended"
  | .enum => dUnit "Enum"
  | .explosion => dUnit "Explosion"
  | .extendedExplosion => dUnit "ExtendedExplosion"
  | .flaggedByte => dUnit "FlaggedByte"
  | .activeActor => dUnit "ActiveActor"
  | .float => dUnit "Float"
  | .gameMode => dUnit "GameMode"
  | .int => dUnit "Int"
  | .int64 => dUnit "Int64"
  | .loadout => dUnit "Loadout"
  | .teamLoadout => dUnit "TeamLoadout"
  | .location => dUnit "Location"
  | .musicStinger => dUnit "MusicStinger"
  | .pickup => dUnit "Pickup"
  | .pickupNew => dUnit "PickupNew"
  | .playerHistoryKey => dUnit "PlayerHistoryKey"
  | .qWordString => dUnit "QWordString"
  | .welded => dUnit "Welded"
  | .rigidBody => dUnit "RigidBody"
  | .title => dUnit "Title"
  | .teamPaint => dUnit "TeamPaint"
  | .notImplemented => dUnit "NotImplemented"
  | .string => dUnit "String"
  | .uniqueId => dUnit "UniqueId"
  | .reservation => dUnit "Reservation"
  | .partyLeader => dUnit "PartyLeader"
  | .privateMatchSettings => dUnit "PrivateMatchSettings"
  | .loadoutOnline => dUnit "LoadoutOnline"
  | .loadoutsOnline => dUnit "LoadoutsOnline"
  | .statEvent => dUnit "StatEvent"
  | .rotationTag => dUnit "RotationTag"
  | .repStatTitle => dUnit "RepStatTitle"
  | .pickupInfo => dUnit "PickupInfo"
  | .impulse => dUnit "Impulse"
  | .replicatedBoost => dUnit "ReplicatedBoost"
  | .logoData => dUnit "LogoData"

/-- The texts that messages contain. -/
def fmt (s : Std) : Display.Fmt where
  f32 := s.display
  tag x := (dAttributeTag x).show s
  attr x := (dAttribute x).show s
  location x := (dOption dVector3i x).show s
  rotation x := (dOption dRotation x).show s

end Boxcars.Debug
