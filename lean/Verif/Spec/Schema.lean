import Verif.Model.Serde
/-!
# The format of serialized replays

The shapes of what serde writes for each type, and when a value has a shape.  The
schemas are transcribed from the struct and enum definitions by `tools/gen_schema.py`,
following serde's documented representation.  No serializer of the model is used.
-/
namespace Boxcars.Spec
open Boxcars

/-- The shapes that occur. -/
inductive Shape where
  | bool
  | unsigned (bits : Nat)
  | signed (bits : Nat)
  | f32
  | text
  /-- A 64-bit number as a decimal text. -/
  | u64
  | i64
  | opt (s : Shape)
  | list (s : Shape)
  | tuple (ss : List Shape)
  /-- Fields with their names, in this order. -/
  | struct (fields : List (String × Shape))
  /-- Variants with their names, some without content. -/
  | enum (variants : List (String × Option Shape))
  /-- A header value. -/
  | prop
  /-- Header values under arbitrary names. -/
  | props

/-- What a header value may look like, `src/models.rs:294-336`. -/
def propShapes : List Shape :=
  [.list .props, .bool, .struct [("kind", .text), ("value", .opt .text)], .f32, .signed 32, .u64, .text,
    .struct [("name", .text), ("fields", .props)]]

mutual
/-- A value has a shape. -/
inductive Has : Shape → SVal → Prop where
  | bool {b : Bool} : Has .bool (.bool b)
  | unsigned {w n : Nat} : n < 2 ^ w → Has (.unsigned w) (.int n)
  | signed {w : Nat} {i : Int} : -2 ^ (w - 1) ≤ i → i < 2 ^ (w - 1) → Has (.signed w) (.int i)
  | f32 {x : F32} : Has .f32 (.f32 x)
  | text {s : Str} : Has .text (.str s)
  | u64 {n : Nat} : n < 2 ^ 64 → Has .u64 (.str (Nat.toDigits 10 n))
  | i64 {n : Nat} : n < 2 ^ 63 → Has .i64 (.str (Nat.toDigits 10 n))
  | negative {n : Nat} : 0 < n → n ≤ 2 ^ 63 → Has .i64 (.str ('-' :: Nat.toDigits 10 n))
  | absent {s : Shape} : Has (.opt s) .null
  | present {s : Shape} {j : SVal} : Has s j → Has (.opt s) j
  | list {s : Shape} {js : List SVal} : (∀ j ∈ js, Has s j) → Has (.list s) (.seq js)
  | tuple {ss : List Shape} {js : List SVal} : HasAll ss js → Has (.tuple ss) (.seq js)
  | struct {fs : List (String × Shape)} {kvs : List (String × SVal)} :
    HasFields fs kvs → Has (.struct fs) (.map kvs)
  | unitVariant {vs : List (String × Option Shape)} {name : String} :
    (name, none) ∈ vs → Has (.enum vs) (.unitVariant name)
  | variant {vs : List (String × Option Shape)} {name : String} {s : Shape} {j : SVal} :
    (name, some s) ∈ vs → Has s j → Has (.enum vs) (.variant name j)
  | prop {s : Shape} {j : SVal} : s ∈ propShapes → Has s j → Has .prop j
  | props {kvs : List (String × SVal)} : (∀ kv ∈ kvs, Has .prop kv.2) → Has .props (.map kvs)
/-- The elements of a tuple have their shapes. -/
inductive HasAll : List Shape → List SVal → Prop where
  | nil : HasAll [] []
  | cons {s : Shape} {ss : List Shape} {j : SVal} {js : List SVal} :
    Has s j → HasAll ss js → HasAll (s :: ss) (j :: js)
/-- The fields of a struct are those named, in order, with their shapes. -/
inductive HasFields : List (String × Shape) → List (String × SVal) → Prop where
  | nil : HasFields [] []
  | cons {k : String} {s : Shape} {fs : List (String × Shape)} {j : SVal} {kvs : List (String × SVal)} :
    Has s j → HasFields fs kvs → HasFields ((k, s) :: fs) ((k, j) :: kvs)
end

/-- `Vector3f`, `src/network/models.rs:6-10`. -/
def vector3fShape : Shape := .struct [("x", .f32),
  ("y", .f32),
  ("z", .f32)]

/-- `Vector3i`, `src/network/models.rs:25-29`. -/
def vector3iShape : Shape := .struct [("x", (.signed 32)),
  ("y", (.signed 32)),
  ("z", (.signed 32))]

/-- `Quaternion`, `src/network/models.rs:89-94`. -/
def quaternionShape : Shape := .struct [("x", .f32),
  ("y", .f32),
  ("z", .f32),
  ("w", .f32)]

/-- `Rotation`, `src/network/models.rs:179-183`. -/
def rotationShape : Shape := .struct [("yaw", (.opt (.signed 8))),
  ("pitch", (.opt (.signed 8))),
  ("roll", (.opt (.signed 8)))]

/-- `Trajectory`, `src/network/models.rs:345-348`. -/
def trajectoryShape : Shape := .struct [("location", (.opt vector3iShape)),
  ("rotation", (.opt rotationShape))]

/-- `NewActor`, `src/network/models.rs:329-341`. -/
def newActorShape : Shape := .struct [("actor_id", (.signed 32)),
  ("name_id", (.opt (.signed 32))),
  ("object_id", (.signed 32)),
  ("initial_trajectory", trajectoryShape)]

/-- `ActiveActor`, `src/network/attributes.rs:123-126`. -/
def activeActorShape : Shape := .struct [("active", .bool),
  ("actor", (.signed 32))]

/-- `CamSettings`, `src/network/attributes.rs:129-137`. -/
def camSettingsShape : Shape := .struct [("fov", .f32),
  ("height", .f32),
  ("angle", .f32),
  ("distance", .f32),
  ("stiffness", .f32),
  ("swivel", .f32),
  ("transition", (.opt .f32))]

/-- `ClubColors`, `src/network/attributes.rs:140-145`. -/
def clubColorsShape : Shape := .struct [("blue_flag", .bool),
  ("blue_color", (.unsigned 8)),
  ("orange_flag", .bool),
  ("orange_color", (.unsigned 8))]

/-- `AppliedDamage`, `src/network/attributes.rs:148-153`. -/
def appliedDamageShape : Shape := .struct [("id", (.unsigned 8)),
  ("position", vector3fShape),
  ("damage_index", (.signed 32)),
  ("total_damage", (.signed 32))]

/-- `DamageState`, `src/network/attributes.rs:156-172`. -/
def damageStateShape : Shape := .struct [("tile_state", (.unsigned 8)),
  ("damaged", .bool),
  ("offender", (.signed 32)),
  ("ball_position", vector3fShape),
  ("direct_hit", .bool),
  ("unknown1", .bool)]

/-- `Demolish`, `src/network/attributes.rs:175-182`. -/
def demolishShape : Shape := .struct [("attacker_flag", .bool),
  ("attacker", (.signed 32)),
  ("victim_flag", .bool),
  ("victim", (.signed 32)),
  ("attack_velocity", vector3fShape),
  ("victim_velocity", vector3fShape)]

/-- `DemolishExtended`, `src/network/attributes.rs:185-194`. -/
def demolishExtendedShape : Shape := .struct [("attacker_pri", activeActorShape),
  ("self_demo", activeActorShape),
  ("self_demolish", .bool),
  ("goal_explosion_owner", activeActorShape),
  ("attacker", activeActorShape),
  ("victim", activeActorShape),
  ("attacker_velocity", vector3fShape),
  ("victim_velocity", vector3fShape)]

/-- `DemolishFx`, `src/network/attributes.rs:197-206`. -/
def demolishFxShape : Shape := .struct [("custom_demo_flag", .bool),
  ("custom_demo_id", (.signed 32)),
  ("attacker_flag", .bool),
  ("attacker", (.signed 32)),
  ("victim_flag", .bool),
  ("victim", (.signed 32)),
  ("attack_velocity", vector3fShape),
  ("victim_velocity", vector3fShape)]

/-- `Explosion`, `src/network/attributes.rs:209-213`. -/
def explosionShape : Shape := .struct [("flag", .bool),
  ("actor", (.signed 32)),
  ("location", vector3fShape)]

/-- `ExtendedExplosion`, `src/network/attributes.rs:216-220`. -/
def extendedExplosionShape : Shape := .struct [("explosion", explosionShape),
  ("unknown1", .bool),
  ("secondary_actor", (.signed 32))]

/-- `Loadout`, `src/network/attributes.rs:223-238`. -/
def loadoutShape : Shape := .struct [("version", (.unsigned 8)),
  ("body", (.unsigned 32)),
  ("decal", (.unsigned 32)),
  ("wheels", (.unsigned 32)),
  ("rocket_trail", (.unsigned 32)),
  ("antenna", (.unsigned 32)),
  ("topper", (.unsigned 32)),
  ("unknown1", (.unsigned 32)),
  ("unknown2", (.opt (.unsigned 32))),
  ("engine_audio", (.opt (.unsigned 32))),
  ("trail", (.opt (.unsigned 32))),
  ("goal_explosion", (.opt (.unsigned 32))),
  ("banner", (.opt (.unsigned 32))),
  ("product_id", (.opt (.unsigned 32)))]

/-- `TeamLoadout`, `src/network/attributes.rs:241-244`. -/
def teamLoadoutShape : Shape := .struct [("blue", loadoutShape),
  ("orange", loadoutShape)]

/-- `StatEvent`, `src/network/attributes.rs:247-250`. -/
def statEventShape : Shape := .struct [("unknown1", .bool),
  ("object_id", (.signed 32))]

/-- `MusicStinger`, `src/network/attributes.rs:253-257`. -/
def musicStingerShape : Shape := .struct [("flag", .bool),
  ("cue", (.unsigned 32)),
  ("trigger", (.unsigned 8))]

/-- `Pickup`, `src/network/attributes.rs:260-263`. -/
def pickupShape : Shape := .struct [("instigator", (.opt (.signed 32))),
  ("picked_up", .bool)]

/-- `PickupNew`, `src/network/attributes.rs:266-269`. -/
def pickupNewShape : Shape := .struct [("instigator", (.opt (.signed 32))),
  ("picked_up", (.unsigned 8))]

/-- `Welded`, `src/network/attributes.rs:272-278`. -/
def weldedShape : Shape := .struct [("active", .bool),
  ("actor", (.signed 32)),
  ("offset", vector3fShape),
  ("mass", .f32),
  ("rotation", rotationShape)]

/-- `TeamPaint`, `src/network/attributes.rs:281-287`. -/
def teamPaintShape : Shape := .struct [("team", (.unsigned 8)),
  ("primary_color", (.unsigned 8)),
  ("accent_color", (.unsigned 8)),
  ("primary_finish", (.unsigned 32)),
  ("accent_finish", (.unsigned 32))]

/-- `RigidBody`, `src/network/attributes.rs:290-296`. -/
def rigidBodyShape : Shape := .struct [("sleeping", .bool),
  ("location", vector3fShape),
  ("rotation", quaternionShape),
  ("linear_velocity", (.opt vector3fShape)),
  ("angular_velocity", (.opt vector3fShape))]

/-- `PsyNetId`, `src/network/attributes.rs:306-313`. -/
def psyNetIdShape : Shape := .struct [("online_id", .u64),
  ("unknown1", (.list (.unsigned 8)))]

/-- `SwitchId`, `src/network/attributes.rs:316-323`. -/
def switchIdShape : Shape := .struct [("online_id", .u64),
  ("unknown1", (.list (.unsigned 8)))]

/-- `Ps4Id`, `src/network/attributes.rs:326-334`. -/
def ps4IdShape : Shape := .struct [("online_id", .u64),
  ("name", .text),
  ("unknown1", (.list (.unsigned 8)))]

/-- `RemoteId`, `src/network/attributes.rs:337-361`. -/
def remoteIdShape : Shape := .enum [("PlayStation", some ps4IdShape),
  ("PsyNet", some psyNetIdShape),
  ("SplitScreen", some (.unsigned 32)),
  ("Steam", some .u64),
  ("Switch", some switchIdShape),
  ("Xbox", some .u64),
  ("QQ", some .u64),
  ("Epic", some .text)]

/-- `UniqueId`, `src/network/attributes.rs:299-303`. -/
def uniqueIdShape : Shape := .struct [("system_id", (.unsigned 8)),
  ("remote_id", remoteIdShape),
  ("local_id", (.unsigned 8))]

/-- `Reservation`, `src/network/attributes.rs:364-371`. -/
def reservationShape : Shape := .struct [("number", (.unsigned 32)),
  ("unique_id", uniqueIdShape),
  ("name", (.opt .text)),
  ("unknown1", .bool),
  ("unknown2", .bool),
  ("unknown3", (.opt (.unsigned 8)))]

/-- `PrivateMatchSettings`, `src/network/attributes.rs:374-381`. -/
def privateMatchSettingsShape : Shape := .struct [("mutators", .text),
  ("joinable_by", (.unsigned 32)),
  ("max_players", (.unsigned 32)),
  ("game_name", .text),
  ("password", .text),
  ("flag", .bool)]

/-- `ProductValue`, `src/network/attributes.rs:399-410`. -/
def productValueShape : Shape := .enum [("NoColor", none),
  ("Absent", none),
  ("OldColor", some (.unsigned 32)),
  ("NewColor", some (.unsigned 32)),
  ("OldPaint", some (.unsigned 32)),
  ("NewPaint", some (.unsigned 32)),
  ("Title", some .text),
  ("SpecialEdition", some (.unsigned 32)),
  ("OldTeamEdition", some (.unsigned 32)),
  ("NewTeamEdition", some (.unsigned 32))]

/-- `Product`, `src/network/attributes.rs:384-388`. -/
def productShape : Shape := .struct [("unknown", .bool),
  ("object_ind", (.signed 32)),
  ("value", productValueShape)]

/-- `LoadoutsOnline`, `src/network/attributes.rs:391-396`. -/
def loadoutsOnlineShape : Shape := .struct [("blue", (.list (.list productShape))),
  ("orange", (.list (.list productShape))),
  ("unknown1", .bool),
  ("unknown2", .bool)]

/-- `RepStatTitle`, `src/network/attributes.rs:413-419`. -/
def repStatTitleShape : Shape := .struct [("unknown", .bool),
  ("name", .text),
  ("unknown2", .bool),
  ("index", (.unsigned 32)),
  ("value", (.unsigned 32))]

/-- `PickupInfo`, `src/network/attributes.rs:422-425`. -/
def pickupInfoShape : Shape := .struct [("available_pickups", (.tuple [activeActorShape, activeActorShape, activeActorShape])),
  ("items_are_preview", .bool)]

/-- `Impulse`, `src/network/attributes.rs:428-431`. -/
def impulseShape : Shape := .struct [("compressed_rotation", (.signed 32)),
  ("speed", .f32)]

/-- `ReplicatedBoost`, `src/network/attributes.rs:434-439`. -/
def replicatedBoostShape : Shape := .struct [("grant_count", (.unsigned 8)),
  ("boost_amount", (.unsigned 8)),
  ("unused1", (.unsigned 8)),
  ("unused2", (.unsigned 8))]

/-- `LogoData`, `src/network/attributes.rs:442-445`. -/
def logoDataShape : Shape := .struct [("logo_id", (.unsigned 32)),
  ("swap_colors", .bool)]

/-- `Attribute`, `src/network/attributes.rs:65-120`. -/
def attributeShape : Shape := .enum [("Boolean", some .bool),
  ("Byte", some (.unsigned 8)),
  ("AppliedDamage", some appliedDamageShape),
  ("DamageState", some damageStateShape),
  ("CamSettings", some camSettingsShape),
  ("ClubColors", some clubColorsShape),
  ("Demolish", some demolishShape),
  ("DemolishExtended", some demolishExtendedShape),
  ("DemolishFx", some demolishFxShape),
  ("Enum", some (.unsigned 16)),
  ("Explosion", some explosionShape),
  ("ExtendedExplosion", some extendedExplosionShape),
  ("FlaggedByte", some (.tuple [.bool, (.unsigned 8)])),
  ("ActiveActor", some activeActorShape),
  ("Float", some .f32),
  ("GameMode", some (.tuple [(.unsigned 8), (.unsigned 8)])),
  ("Int", some (.signed 32)),
  ("Int64", some .i64),
  ("Loadout", some loadoutShape),
  ("TeamLoadout", some teamLoadoutShape),
  ("Location", some vector3fShape),
  ("MusicStinger", some musicStingerShape),
  ("PlayerHistoryKey", some (.unsigned 16)),
  ("Pickup", some pickupShape),
  ("PickupNew", some pickupNewShape),
  ("QWord", some .u64),
  ("Welded", some weldedShape),
  ("Title", some (.tuple [.bool, .bool, (.unsigned 32), (.unsigned 32), (.unsigned 32), (.unsigned 32), (.unsigned 32), .bool])),
  ("TeamPaint", some teamPaintShape),
  ("RigidBody", some rigidBodyShape),
  ("String", some .text),
  ("UniqueId", some uniqueIdShape),
  ("Reservation", some reservationShape),
  ("PartyLeader", some (.opt uniqueIdShape)),
  ("PrivateMatch", some privateMatchSettingsShape),
  ("LoadoutOnline", some (.list (.list productShape))),
  ("LoadoutsOnline", some loadoutsOnlineShape),
  ("StatEvent", some statEventShape),
  ("Rotation", some rotationShape),
  ("RepStatTitle", some repStatTitleShape),
  ("PickupInfo", some pickupInfoShape),
  ("Impulse", some impulseShape),
  ("ReplicatedBoost", some replicatedBoostShape),
  ("LogoData", some logoDataShape)]

/-- `UpdatedAttribute`, `src/network/models.rs:221-233`. -/
def updatedAttributeShape : Shape := .struct [("actor_id", (.signed 32)),
  ("stream_id", (.signed 32)),
  ("object_id", (.signed 32)),
  ("attribute", attributeShape)]

/-- `Frame`, `src/network/models.rs:237-252`. -/
def frameShape : Shape := .struct [("time", .f32),
  ("delta", .f32),
  ("new_actors", (.list newActorShape)),
  ("deleted_actors", (.list (.signed 32))),
  ("updated_actors", (.list updatedAttributeShape))]

/-- `NetworkFrames`, `src/models.rs:47-49`. -/
def networkFramesShape : Shape := .struct [("frames", (.list frameShape))]

/-- `TickMark`, `src/models.rs:56-59`. -/
def tickMarkShape : Shape := .struct [("description", .text),
  ("frame", (.signed 32))]

/-- `KeyFrame`, `src/models.rs:67-71`. -/
def keyFrameShape : Shape := .struct [("time", .f32),
  ("frame", (.signed 32)),
  ("position", (.signed 32))]

/-- `DebugInfo`, `src/models.rs:225-229`. -/
def debugInfoShape : Shape := .struct [("frame", (.signed 32)),
  ("user", .text),
  ("text", .text)]

/-- `ClassIndex`, `src/models.rs:233-239`. -/
def classIndexShape : Shape := .struct [("class", .text),
  ("index", (.signed 32))]

/-- `CacheProp`, `src/models.rs:244-251`. -/
def cachePropShape : Shape := .struct [("object_ind", (.signed 32)),
  ("stream_id", (.signed 32))]

/-- `ClassNetCache`, `src/models.rs:255-267`. -/
def classNetCacheShape : Shape := .struct [("object_ind", (.signed 32)),
  ("parent_id", (.signed 32)),
  ("cache_id", (.signed 32)),
  ("properties", (.list cachePropShape))]

/-- `Replay`, `src/models.rs:19-43`. -/
def replayShape : Shape := .struct [("header_size", (.signed 32)),
  ("header_crc", (.unsigned 32)),
  ("major_version", (.signed 32)),
  ("minor_version", (.signed 32)),
  ("net_version", (.opt (.signed 32))),
  ("game_type", .text),
  ("properties", .props),
  ("content_size", (.signed 32)),
  ("content_crc", (.unsigned 32)),
  ("network_frames", (.opt networkFramesShape)),
  ("levels", (.list .text)),
  ("keyframes", (.list keyFrameShape)),
  ("debug_info", (.list debugInfoShape)),
  ("tick_marks", (.list tickMarkShape)),
  ("packages", (.list .text)),
  ("objects", (.list .text)),
  ("names", (.list .text)),
  ("class_indices", (.list classIndexShape)),
  ("net_cache", (.list classNetCacheShape))]

end Boxcars.Spec
