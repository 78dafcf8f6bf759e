import Verif.Model.Text
/-!
# Data types

Model of the data types in `src/models.rs`, `src/network/models.rs`,
`src/network/attributes.rs` and `src/errors.rs`.  `Box<T>` is `T`,
`Vec<T>` is `List T`, `[T; 3]` is a triple.
-/
namespace Boxcars

/-! ## `src/network/models.rs` -/

/-- `ActorId(pub i32)`, `src/network/models.rs:307`. -/
abbrev ActorId := I32
/-- `ObjectId(pub i32)`, `src/network/models.rs:260`. -/
abbrev ObjectId := I32
/-- `StreamId(pub i32)`, `src/network/models.rs:284`. -/
abbrev StreamId := I32

/-- `src/network/models.rs:6-10`. -/
structure Vector3f where
  x : F32
  y : F32
  z : F32
  deriving DecidableEq, Repr

/-- `src/network/models.rs:25-29`. -/
structure Vector3i where
  x : I32
  y : I32
  z : I32
  deriving DecidableEq, Repr

/-- `src/network/models.rs:89-94`. -/
structure Quaternion where
  x : F32
  y : F32
  z : F32
  w : F32
  deriving DecidableEq, Repr

/-- `src/network/models.rs:179-183` (`i8` as `BitVec 8`). -/
structure Rotation where
  yaw : Option Byte
  pitch : Option Byte
  roll : Option Byte
  deriving DecidableEq, Repr

/-- `src/network/models.rs:212-216`. -/
inductive SpawnTrajectory where
  | none
  | location
  | locationAndRotation
  deriving DecidableEq, Repr

/-- `src/network/models.rs:345-348`. -/
structure Trajectory where
  location : Option Vector3i
  rotation : Option Rotation
  deriving DecidableEq, Repr

/-- `src/network/models.rs:329-341`. -/
structure NewActor where
  actorId : ActorId
  nameId : Option I32
  objectId : ObjectId
  initialTrajectory : Trajectory
  deriving DecidableEq, Repr

/-! ## `src/network/attributes.rs` -/

/-- `AttributeTag`, `src/network/attributes.rs:11-57`. -/
inductive AttributeTag where
  | boolean | byte | appliedDamage | damageState | camSettings | clubColors
  | demolish | demolishFx | demolishExtended | enum | explosion
  | extendedExplosion | flaggedByte | activeActor | float | gameMode | int
  | int64 | loadout | teamLoadout | location | musicStinger | pickup
  | pickupNew | playerHistoryKey | qWordString | welded | rigidBody | title
  | teamPaint | notImplemented | string | uniqueId | reservation | partyLeader
  | privateMatchSettings | loadoutOnline | loadoutsOnline | statEvent
  | rotationTag | repStatTitle | pickupInfo | impulse | replicatedBoost
  | logoData
  deriving DecidableEq, Repr

/-- `src/network/attributes.rs:123-126`. -/
structure ActiveActor where
  active : Bool
  actor : ActorId
  deriving DecidableEq, Repr

/-- `src/network/attributes.rs:129-137`. -/
structure CamSettings where
  fov : F32
  height : F32
  angle : F32
  distance : F32
  stiffness : F32
  swivel : F32
  transition : Option F32
  deriving DecidableEq, Repr

/-- `src/network/attributes.rs:140-145`. -/
structure ClubColors where
  blueFlag : Bool
  blueColor : Byte
  orangeFlag : Bool
  orangeColor : Byte
  deriving DecidableEq, Repr

/-- `src/network/attributes.rs:148-153`. -/
structure AppliedDamage where
  id : Byte
  position : Vector3f
  damageIndex : I32
  totalDamage : I32
  deriving DecidableEq, Repr

/-- `src/network/attributes.rs:156-172`. -/
structure DamageState where
  tileState : Byte
  damaged : Bool
  offender : ActorId
  ballPosition : Vector3f
  directHit : Bool
  unknown1 : Bool
  deriving DecidableEq, Repr

/-- `src/network/attributes.rs:175-182`. -/
structure Demolish where
  attackerFlag : Bool
  attacker : ActorId
  victimFlag : Bool
  victim : ActorId
  attackVelocity : Vector3f
  victimVelocity : Vector3f
  deriving DecidableEq, Repr

/-- `src/network/attributes.rs:185-194`. -/
structure DemolishExtended where
  attackerPri : ActiveActor
  selfDemo : ActiveActor
  selfDemolish : Bool
  goalExplosionOwner : ActiveActor
  attacker : ActiveActor
  victim : ActiveActor
  attackerVelocity : Vector3f
  victimVelocity : Vector3f
  deriving DecidableEq, Repr

/-- `src/network/attributes.rs:197-206`. -/
structure DemolishFx where
  customDemoFlag : Bool
  customDemoId : I32
  attackerFlag : Bool
  attacker : ActorId
  victimFlag : Bool
  victim : ActorId
  attackVelocity : Vector3f
  victimVelocity : Vector3f
  deriving DecidableEq, Repr

/-- `src/network/attributes.rs:209-213`. -/
structure Explosion where
  flag : Bool
  actor : ActorId
  location : Vector3f
  deriving DecidableEq, Repr

/-- `src/network/attributes.rs:216-220`. -/
structure ExtendedExplosion where
  explosion : Explosion
  unknown1 : Bool
  secondaryActor : ActorId
  deriving DecidableEq, Repr

/-- `src/network/attributes.rs:223-238`. -/
structure Loadout where
  version : Byte
  body : U32
  decal : U32
  wheels : U32
  rocketTrail : U32
  antenna : U32
  topper : U32
  unknown1 : U32
  unknown2 : Option U32
  engineAudio : Option U32
  trail : Option U32
  goalExplosion : Option U32
  banner : Option U32
  productId : Option U32
  deriving DecidableEq, Repr

/-- `src/network/attributes.rs:241-244`. -/
structure TeamLoadout where
  blue : Loadout
  orange : Loadout
  deriving DecidableEq, Repr

/-- `src/network/attributes.rs:247-250`. -/
structure StatEvent where
  unknown1 : Bool
  objectId : I32
  deriving DecidableEq, Repr

/-- `src/network/attributes.rs:253-257`. -/
structure MusicStinger where
  flag : Bool
  cue : U32
  trigger : Byte
  deriving DecidableEq, Repr

/-- `src/network/attributes.rs:260-263`. -/
structure Pickup where
  instigator : Option ActorId
  pickedUp : Bool
  deriving DecidableEq, Repr

/-- `src/network/attributes.rs:266-269`. -/
structure PickupNew where
  instigator : Option ActorId
  pickedUp : Byte
  deriving DecidableEq, Repr

/-- `src/network/attributes.rs:272-278`. -/
structure Welded where
  active : Bool
  actor : ActorId
  offset : Vector3f
  mass : F32
  rotation : Rotation
  deriving DecidableEq, Repr

/-- `src/network/attributes.rs:281-287`. -/
structure TeamPaint where
  team : Byte
  primaryColor : Byte
  accentColor : Byte
  primaryFinish : U32
  accentFinish : U32
  deriving DecidableEq, Repr

/-- `src/network/attributes.rs:290-296`. -/
structure RigidBody where
  sleeping : Bool
  location : Vector3f
  rotation : Quaternion
  linearVelocity : Option Vector3f
  angularVelocity : Option Vector3f
  deriving DecidableEq, Repr

/-- `Ps4Id`, `PsyNetId`, `SwitchId` and `RemoteId`,
`src/network/attributes.rs:306-361`. -/
inductive RemoteId where
  | playStation (onlineId : U64) (name : Str) (unknown1 : List Byte)
  | psyNet (onlineId : U64) (unknown1 : List Byte)
  | splitScreen (id : U32)
  | steam (id : U64)
  | switch (onlineId : U64) (unknown1 : List Byte)
  | xbox (id : U64)
  | qq (id : U64)
  | epic (id : Str)
  deriving DecidableEq, Repr

/-- `src/network/attributes.rs:299-303`. -/
structure UniqueId where
  systemId : Byte
  remoteId : RemoteId
  localId : Byte
  deriving DecidableEq, Repr

/-- `src/network/attributes.rs:364-371`. -/
structure Reservation where
  number : U32
  uniqueId : UniqueId
  name : Option Str
  unknown1 : Bool
  unknown2 : Bool
  unknown3 : Option Byte
  deriving DecidableEq, Repr

/-- `src/network/attributes.rs:374-381`. -/
structure PrivateMatchSettings where
  mutators : Str
  joinableBy : U32
  maxPlayers : U32
  gameName : Str
  password : Str
  flag : Bool
  deriving DecidableEq, Repr

/-- `src/network/attributes.rs:399-410`. -/
inductive ProductValue where
  | noColor
  | absent
  | oldColor (v : U32)
  | newColor (v : U32)
  | oldPaint (v : U32)
  | newPaint (v : U32)
  | title (s : Str)
  | specialEdition (v : U32)
  | oldTeamEdition (v : U32)
  | newTeamEdition (v : U32)
  deriving DecidableEq, Repr

/-- `src/network/attributes.rs:384-388`. -/
structure Product where
  unknown : Bool
  objectInd : ObjectId
  value : ProductValue
  deriving DecidableEq, Repr

/-- `src/network/attributes.rs:391-396`. -/
structure LoadoutsOnline where
  blue : List (List Product)
  orange : List (List Product)
  unknown1 : Bool
  unknown2 : Bool
  deriving DecidableEq, Repr

/-- `src/network/attributes.rs:413-419`. -/
structure RepStatTitle where
  unknown : Bool
  name : Str
  unknown2 : Bool
  index : U32
  value : U32
  deriving DecidableEq, Repr

/-- `src/network/attributes.rs:422-425`. -/
structure PickupInfo where
  availablePickups : ActiveActor × ActiveActor × ActiveActor
  itemsArePreview : Bool
  deriving DecidableEq, Repr

/-- `src/network/attributes.rs:428-431`. -/
structure Impulse where
  compressedRotation : I32
  speed : F32
  deriving DecidableEq, Repr

/-- `src/network/attributes.rs:434-439`. -/
structure ReplicatedBoost where
  grantCount : Byte
  boostAmount : Byte
  unused1 : Byte
  unused2 : Byte
  deriving DecidableEq, Repr

/-- `src/network/attributes.rs:442-445`. -/
structure LogoData where
  logoId : U32
  swapColors : Bool
  deriving DecidableEq, Repr

/-- `Attribute`, `src/network/attributes.rs:65-120`. -/
inductive Attribute where
  | boolean (v : Bool)
  | byte (v : Byte)
  | appliedDamage (v : AppliedDamage)
  | damageState (v : DamageState)
  | camSettings (v : CamSettings)
  | clubColors (v : ClubColors)
  | demolish (v : Demolish)
  | demolishExtended (v : DemolishExtended)
  | demolishFx (v : DemolishFx)
  | enum (v : BitVec 16)
  | explosion (v : Explosion)
  | extendedExplosion (v : ExtendedExplosion)
  | flaggedByte (b : Bool) (v : Byte)
  | activeActor (v : ActiveActor)
  | float (v : F32)
  | gameMode (bits : Byte) (v : Byte)
  | int (v : I32)
  | int64 (v : BitVec 64)
  | loadout (v : Loadout)
  | teamLoadout (v : TeamLoadout)
  | location (v : Vector3f)
  | musicStinger (v : MusicStinger)
  | playerHistoryKey (v : BitVec 16)
  | pickup (v : Pickup)
  | pickupNew (v : PickupNew)
  | qWord (v : U64)
  | welded (v : Welded)
  | title (u1 u2 : Bool) (u3 u4 u5 u6 u7 : U32) (u8 : Bool)
  | teamPaint (v : TeamPaint)
  | rigidBody (v : RigidBody)
  | string (v : Str)
  | uniqueId (v : UniqueId)
  | reservation (v : Reservation)
  | partyLeader (v : Option UniqueId)
  | privateMatch (v : PrivateMatchSettings)
  | loadoutOnline (v : List (List Product))
  | loadoutsOnline (v : LoadoutsOnline)
  | statEvent (v : StatEvent)
  | rotation (v : Rotation)
  | repStatTitle (v : RepStatTitle)
  | pickupInfo (v : PickupInfo)
  | impulse (v : Impulse)
  | replicatedBoost (v : ReplicatedBoost)
  | logoData (v : LogoData)
  deriving DecidableEq, Repr

/-- `src/network/models.rs:221-233`. -/
structure UpdatedAttribute where
  actorId : ActorId
  streamId : StreamId
  objectId : ObjectId
  attr : Attribute
  deriving DecidableEq, Repr

/-- `src/network/models.rs:237-252`. -/
structure Frame where
  time : F32
  delta : F32
  newActors : List NewActor
  deletedActors : List ActorId
  updatedActors : List UpdatedAttribute
  deriving DecidableEq, Repr

/-! ## `src/network/mod.rs` -/

/-- `ObjectAttribute`, `src/network/mod.rs:28-31`. -/
structure ObjectAttribute where
  attr : AttributeTag
  objectId : ObjectId
  deriving DecidableEq, Repr

/-- A hash map with `i32` (or newtype of `i32`) keys, as the association list
sorted by key.  Equality of `HMap`s is equality of hash maps; iteration order is
chosen by `Env.perm`. -/
abbrev HMap (ν : Type) := List (I32 × ν)

/-- `HashMap::get`. -/
def HMap.get {ν : Type} (m : HMap ν) (k : I32) : Option ν :=
  m.lookup k

/-- `HashMap::insert`: overwrite or add. -/
def HMap.insert {ν : Type} (m : HMap ν) (k : I32) (v : ν) : HMap ν :=
  match m with
  | [] => [(k, v)]
  | (k', v') :: m' =>
    if k.toNat < k'.toNat then (k, v) :: (k', v') :: m'
    else if k = k' then (k, v) :: m'
    else (k', v') :: HMap.insert m' k v

/-- `HashMap::remove`. -/
def HMap.remove {ν : Type} (m : HMap ν) (k : I32) : HMap ν :=
  m.filter (fun p => p.1 != k)

/-- `HashMap::extend` from key-value pairs in iteration order. -/
def HMap.extend {ν : Type} (m : HMap ν) (kvs : List (I32 × ν)) : HMap ν :=
  kvs.foldl (fun m kv => m.insert kv.1 kv.2) m

/-- `RawSegmentedArray<T>`, `src/network/frame_decoder.rs:14-17`.  Keys are `usize`
values converted from `i32`; the conversion is injective, so the model keys the
map by the `i32` itself (`Props/SegArray.lean: usize_key_faithful`). -/
structure SegArray (ν : Type) where
  array : List (Option ν)
  map : HMap ν
  deriving DecidableEq, Repr

/-- `CacheInfo`, `src/network/mod.rs:21-25`. -/
structure CacheInfo where
  maxPropId : U32
  propIdBits : Nat
  attributes : SegArray ObjectAttribute
  deriving DecidableEq, Repr

/-! ## `src/errors.rs` -/

/-- `AttributeError`, `src/errors.rs:79-84`. -/
inductive AttributeError where
  | notEnoughDataFor (what : String)
  | unrecognizedRemoteId (id : Byte)
  | unimplemented
  | tooBigString (size : I32)
  deriving DecidableEq, Repr

/-- `FrameContext`, `src/errors.rs:108-115`. -/
structure FrameContext where
  objects : List Str
  objectAttributes : List (Option CacheInfo)
  frames : List Frame
  actors : HMap ObjectId
  newActors : List NewActor
  updatedActors : List UpdatedAttribute
  deriving DecidableEq, Repr

/-- `FrameError`, `src/errors.rs:220-249`. -/
inductive FrameError where
  | notEnoughDataFor (what : String)
  | timeOutOfRange (time : F32)
  | deltaOutOfRange (delta : F32)
  | objectIdOutOfRange (obj : ObjectId)
  | missingActor (actor : ActorId)
  | missingCache (actor : ActorId) (actorObject : ObjectId)
  | missingAttribute (actor : ActorId) (actorObject : ObjectId) (stream : StreamId)
  | attributeError (actor : ActorId) (actorObject : ObjectId) (stream : StreamId)
      (error : AttributeError)
  deriving DecidableEq, Repr

/-- `NetworkError`, `src/errors.rs:390-398`.  The variants `NotEnoughDataFor`,
`ObjectIdOutOfRange`, `MissingParentClass` and `ParentHasNoAttributes` are never
constructed by the crate and are omitted. -/
inductive NetworkError where
  | streamTooLargeIndex (stream : I32) (objectInd : I32)
  | frameError (e : FrameError) (ctx : FrameContext)
  | tooManyFrames (n : I32)
  deriving DecidableEq, Repr

/-- `ParseError`, `src/errors.rs:12-22`.  `ListTooLarge` carries a `usize`. -/
inductive ParseError where
  | parseError (section_ : String) (offset : I32) (e : ParseError)
  | utf8Error (e : Utf8Error)
  | textTooLarge (n : I32)
  | insufficientData (expected left : I32)
  | unexpectedProperty (kind : Str)
  | crcMismatch (expected found : U32)
  | corruptReplay (section_ : String) (e : ParseError)
  | listTooLarge (n : Nat)
  | networkError (e : NetworkError)
  deriving DecidableEq, Repr

/-! ## `src/models.rs` -/

/-- `HeaderProp`, `src/models.rs:82-98`. -/
inductive HeaderProp where
  | array (elems : List (List (Str × HeaderProp)))
  | bool (b : Bool)
  | byte (kind : Str) (value : Option Str)
  | float (f : F32)
  | int (i : I32)
  | name (s : Str)
  | qword (q : U64)
  | str (s : Str)
  | struct (name : Str) (fields : List (Str × HeaderProp))

/-- `TickMark`, `src/models.rs:56-59`. -/
structure TickMark where
  description : Str
  frame : I32
  deriving DecidableEq, Repr

/-- `KeyFrame`, `src/models.rs:67-71`. -/
structure KeyFrame where
  time : F32
  frame : I32
  position : I32
  deriving DecidableEq, Repr

/-- `DebugInfo`, `src/models.rs:225-229`. -/
structure DebugInfo where
  frame : I32
  user : Str
  text : Str
  deriving DecidableEq, Repr

/-- `ClassIndex`, `src/models.rs:233-239`. -/
structure ClassIndex where
  cls : Str
  index : I32
  deriving DecidableEq, Repr

/-- `CacheProp`, `src/models.rs:244-251`. -/
structure CacheProp where
  objectInd : I32
  streamId : I32
  deriving DecidableEq, Repr

/-- `ClassNetCache`, `src/models.rs:255-267`. -/
structure ClassNetCache where
  objectInd : I32
  parentId : I32
  cacheId : I32
  properties : List CacheProp
  deriving DecidableEq, Repr

/-- `NetworkFrames`, `src/models.rs:47-49`. -/
structure NetworkFrames where
  frames : List Frame
  deriving DecidableEq, Repr

/-- `Replay`, `src/models.rs:19-43`. -/
structure Replay where
  headerSize : I32
  headerCrc : U32
  majorVersion : I32
  minorVersion : I32
  netVersion : Option I32
  gameType : Str
  properties : List (Str × HeaderProp)
  contentSize : I32
  contentCrc : U32
  networkFrames : Option NetworkFrames
  levels : List Str
  keyframes : List KeyFrame
  debugInfo : List DebugInfo
  tickMarks : List TickMark
  packages : List Str
  objects : List Str
  names : List Str
  classIndices : List ClassIndex
  netCache : List ClassNetCache

/-- `Header`, `src/header.rs:7-13`. -/
structure Header where
  majorVersion : I32
  minorVersion : I32
  netVersion : Option I32
  gameType : Str
  properties : List (Str × HeaderProp)

/-- `ReplayBody`, `src/parser.rs:331-342`. -/
structure ReplayBody where
  levels : List Str
  keyframes : List KeyFrame
  debugInfo : List DebugInfo
  tickMarks : List TickMark
  packages : List Str
  objects : List Str
  names : List Str
  classIndices : List ClassIndex
  netCache : List ClassNetCache
  networkData : List Byte
  deriving DecidableEq, Repr

end Boxcars
