import Verif.Model.NetModels
/-!
# Model of the decoders in `src/network/attributes.rs`

Line numbers refer to that file.  `Box::new` is the identity.  The scratch buffer
`buf` is overwritten before every use and only its length (1024,
`src/network/frame_decoder.rs:359`) matters; `buf[..16]`, `buf[..to_read]` and
`buf[..24]` are within it.
-/
namespace Boxcars

/-- `VersionTriplet`, `src/network/mod.rs:34`. -/
structure VersionTriplet where
  major : I32
  minor : I32
  net : I32
  deriving DecidableEq, Repr

namespace VersionTriplet

/-- Derived `PartialOrd` on the tuple struct: `v >= VersionTriplet(a, b, c)`.
Comparison is field by field, first difference decides. -/
def ge (v : VersionTriplet) (a b c : Int) : Bool :=
  if v.major.toInt ≠ a then decide (v.major.toInt > a)
  else if v.minor.toInt ≠ b then decide (v.minor.toInt > b)
  else decide (v.net.toInt ≥ c)

/-- `net_version`, `src/network/mod.rs:37-39`. -/
def netVersion (v : VersionTriplet) : I32 := v.net

end VersionTriplet

/-- `ProductValueDecoder`, lines 448-455. -/
structure ProductDecoder where
  version : VersionTriplet
  colorInd : ObjectId
  paintedInd : ObjectId
  specialEditionInd : ObjectId
  teamEditionInd : ObjectId
  titleInd : ObjectId
  deriving DecidableEq, Repr

/-- `AttributeDecoder`, lines 535-539. -/
structure AttrDecoder where
  version : VersionTriplet
  product : ProductDecoder
  isRl223 : Bool
  deriving DecidableEq, Repr

/-- Length of the scratch buffer `buf`, `src/network/frame_decoder.rs:359`. -/
def bufLen : Nat := 1024

/-- `AttributeError::NotEnoughDataFor(what)` for a missing value. -/
def need {α : Type} (what : String) (m : BM Unit α) : BM AttributeError α :=
  BM.okOr (.notEnoughDataFor what) m

/-- `decode_text`, lines 1513-1550.  `size as usize` and `bytes as usize` are
non-negative here. -/
def decodeText : BM AttributeError Str := do
  let size ← need "text string" readU32
  if size.toInt = 0 then
    pure []
  else if size.toInt < 0 then
    -- `checked_mul(-2)`
    if size.toInt * -2 > 2147483647 then BM.fail (.tooBigString size)
    else
      let bytes := (size.toInt * -2).toNat
      if bytes > bufLen then BM.fail (.tooBigString size)
      else
        let b ← BM.okOr (.tooBigString size) (readBytes bytes)
        pure (decodeUtf16 b)
  else
    let bytes := size.toInt.toNat
    if bytes > bufLen then BM.fail (.tooBigString size)
    else
      let b ← BM.okOr (.tooBigString size) (readBytes bytes)
      pure (decodeWindows1252 b)

/-- `read_bits(31).map(|x| x as u32)`. -/
def read31 : BM Unit U32 := do
  let x ← readBits 31
  pure (BitVec.ofNat 32 x)

/-- `read_bits_max_computed(3, 14).map(|x| x as u32)`. -/
def readMax14 : BM Unit U32 := do
  let x ← readBitsMaxComputed 3 14
  pure (BitVec.ofNat 32 x)

/-- `ProductValueDecoder::decode`, lines 485-531. -/
def ProductDecoder.decode (d : ProductDecoder) (obj : ObjectId) : BM Unit ProductValue := do
  if obj = d.colorInd then
    if d.version.ge 868 23 8 then
      let x ← readU32
      pure (.newColor x)
    else
      let x ← ifGet read31
      match x with
      | some x => pure (.oldColor x)
      | none => pure .noColor
  else if obj = d.paintedInd then
    if d.version.ge 868 18 0 then
      let x ← read31
      pure (.newPaint x)
    else
      let x ← readMax14
      pure (.oldPaint x)
  else if obj = d.titleInd then
    let s ← BM.toOption decodeText
    pure (.title s)
  else if obj = d.specialEditionInd then
    let x ← read31
    pure (.specialEdition x)
  else if obj = d.teamEditionInd then
    if d.version.ge 868 18 0 then
      let x ← read31
      pure (.newTeamEdition x)
    else
      let x ← readMax14
      pure (.oldTeamEdition x)
  else
    pure .absent

/-- `decode_explosion` (free function), lines 1502-1511. -/
def decodeExplosion (net : I32) : BM Unit Explosion := do
  let flag ← readBit
  let actor ← readU32
  let location ← Vector3f.decode net
  pure ⟨flag, actor, location⟩

/-- `if c { Some(f()?) } else { None }`. -/
def optWhen {α : Type} (c : Bool) (f : BM Unit α) : BM Unit (Option α) :=
  if c then do
    let x ← f
    pure (some x)
  else pure none

/-- `decode_loadout_specials`, lines 1552-1559. -/
def decodeLoadoutSpecials : BM Unit (U32 × U32 × U32) := do
  let engineAudio ← readU32
  let trail ← readU32
  let goalExplosion ← readU32
  pure (engineAudio, trail, goalExplosion)

/-- `decode_loadout` (free function), lines 1561-1616.  For `version >= 22` three
words are read and dropped. -/
def decodeLoadout : BM Unit Loadout := do
  let version ← readU8
  let body ← readU32
  let decal ← readU32
  let wheels ← readU32
  let rocketTrail ← readU32
  let antenna ← readU32
  let topper ← readU32
  let unknown1 ← readU32
  let unknown2 ← optWhen (decide (version.toNat > 10)) readU32
  let specials ← optWhen (decide (version.toNat ≥ 16)) decodeLoadoutSpecials
  let banner ← optWhen (decide (version.toNat ≥ 17)) readU32
  let productId ← optWhen (decide (version.toNat ≥ 19)) readU32
  let _ ← optWhen (decide (version.toNat ≥ 22)) (do
    let _ ← readU32
    let _ ← readU32
    readU32)
  pure {
    version, body, decal, wheels, rocketTrail, antenna, topper, unknown1, unknown2,
    engineAudio := specials.map (fun s => s.1)
    trail := specials.map (fun s => s.2.1)
    goalExplosion := specials.map (fun s => s.2.2)
    banner, productId }

/-- The `match system_id` of `decode_unique_id_with_system_id`, lines 1635-1722. -/
def decodeRemoteId (net : I32) (systemId : Byte) : BM AttributeError RemoteId :=
  if systemId = 0#8 then do
    let x ← need "SplitScreen" (readBits 24)
    pure (.splitScreen (BitVec.ofNat 32 x))
  else if systemId = 1#8 then do
    let x ← need "Steam" readU64
    pure (.steam x)
  else if systemId = 2#8 then do
    let nameBytes ← need "PS4 Name" (readBytes 16)
    let name := (nameBytes.takeWhile (fun x => x != 0#8)).map cp1252Char
    let toRead := if net.toInt ≥ 1 then 16 else 8
    let unknown1 ← need "PS4 Unknown" (readBytes toRead)
    let onlineId ← need "PS4 ID" readU64
    pure (.playStation onlineId name unknown1)
  else if systemId = 4#8 then do
    let x ← need "Xbox" readU64
    pure (.xbox x)
  else if systemId = 5#8 then do
    let x ← need "QQ ID" readU64
    pure (.qq x)
  else if systemId = 6#8 then do
    let onlineId ← need "Switch ID" readU64
    let unknown1 ← need "Switch ID Unknown" (readBytes 24)
    pure (.switch onlineId unknown1)
  else if systemId = 7#8 then do
    let onlineId ← need "PsyNet ID" readU64
    if net.toInt < 10 then
      let unknown1 ← need "PsyNet ID Unknown" (readBytes 24)
      pure (.psyNet onlineId unknown1)
    else
      pure (.psyNet onlineId [])
  else if systemId = 11#8 then do
    let s ← decodeText
    pure (.epic s)
  else
    BM.fail (.unrecognizedRemoteId systemId)

/-- `decode_unique_id_with_system_id`, lines 1629-1734. -/
def decodeUniqueIdWith (net : I32) (systemId : Byte) : BM AttributeError UniqueId := do
  let remoteId ← decodeRemoteId net systemId
  let localId ← need "UniqueId local_id" readU8
  pure ⟨systemId, remoteId, localId⟩

/-- `decode_unique_id` (free function), lines 1618-1627. -/
def decodeUniqueId (net : I32) : BM AttributeError UniqueId := do
  let systemId ← need "System id" readU8
  decodeUniqueIdWith net systemId

/-- The `while result.len() < 255` loop of `decode_reservation`, lines 1332-1337.
`acc` is the string built so far (pushing a Latin-1 character adds one or two
bytes to its length).  At most 255 iterations, so the fuel of the caller, 256,
is never exhausted. -/
def reservationName : Nat → Str → BM AttributeError Str
  | 0, _ => BM.faulty .fuel
  | fuel + 1, acc =>
    if Str.byteLen acc < 255 then do
      let c ← need "Reservation" readU8
      if c = 0#8 then pure acc
      else reservationName fuel (acc ++ [Char.ofNat c.toNat])
    else pure acc

namespace AttrDecoder

/-- `_decode_active_actor`, lines 1012-1021. -/
def activeActor : BM Unit ActiveActor := do
  refill
  let look ← lookaheadBits
  if look < 33 then BM.fail ()
  else
    let active ← peekAndConsume 1
    let actor ← peekAndConsume 32
    pure ⟨active == 1, BitVec.ofNat 32 actor⟩

/-- `_decode_applied_damage`, lines 655-669. -/
def appliedDamage (d : AttrDecoder) : BM Unit AppliedDamage := do
  let id ← readU8
  let position ← Vector3f.decode d.version.netVersion
  let damageIndex ← readU32
  let totalDamage ← readU32
  pure ⟨id, position, damageIndex, totalDamage⟩

/-- `_decode_damage_state`, lines 680-695. -/
def damageState (d : AttrDecoder) : BM Unit DamageState := do
  let tileState ← readU8
  let damaged ← readBit
  let offender ← readU32
  let ballPosition ← Vector3f.decode d.version.netVersion
  let directHit ← readBit
  let unknown1 ← readBit
  pure ⟨tileState, damaged, offender, ballPosition, directHit, unknown1⟩

/-- `_decode_cam_settings`, lines 706-728. -/
def camSettings (d : AttrDecoder) : BM Unit CamSettings := do
  let fov ← readU32
  let height ← readU32
  let angle ← readU32
  let distance ← readU32
  let stiffness ← readU32
  let swivel ← readU32
  let transition ← optWhen (d.version.ge 868 20 0) readU32
  pure ⟨fov, height, angle, distance, stiffness, swivel, transition⟩

/-- `_decode_club_colors`, lines 740-751. -/
def clubColors : BM Unit ClubColors := do
  let blueFlag ← readBit
  let blueColor ← readU8
  let orangeFlag ← readBit
  let orangeColor ← readU8
  pure ⟨blueFlag, blueColor, orangeFlag, orangeColor⟩

/-- `_decode_demolish`, lines 762-777. -/
def demolish (d : AttrDecoder) : BM Unit Demolish := do
  let attackerFlag ← readBit
  let attacker ← readU32
  let victimFlag ← readBit
  let victim ← readU32
  let attackVelocity ← Vector3f.decode d.version.netVersion
  let victimVelocity ← Vector3f.decode d.version.netVersion
  pure ⟨attackerFlag, attacker, victimFlag, victim, attackVelocity, victimVelocity⟩

/-- `_decode_demolish_fx`, lines 789-809. -/
def demolishFx (d : AttrDecoder) : BM Unit DemolishFx := do
  let customDemoFlag ← readBit
  let customDemoId ← readU32
  let attackerFlag ← readBit
  let attacker ← readU32
  let victimFlag ← readBit
  let victim ← readU32
  let attackVelocity ← Vector3f.decode d.version.netVersion
  let victimVelocity ← Vector3f.decode d.version.netVersion
  pure ⟨customDemoFlag, customDemoId, attackerFlag, attacker, victimFlag, victim,
    attackVelocity, victimVelocity⟩

/-- `_decode_demolish_extended`, lines 821-844. -/
def demolishExtended (d : AttrDecoder) : BM Unit DemolishExtended := do
  let attackerPri ← activeActor
  let selfDemo ← activeActor
  let selfDemolish ← readBit
  let goalExplosionOwner ← activeActor
  let attacker ← activeActor
  let victim ← activeActor
  let attackerVelocity ← Vector3f.decode d.version.netVersion
  let victimVelocity ← Vector3f.decode d.version.netVersion
  pure ⟨attackerPri, selfDemo, selfDemolish, goalExplosionOwner, attacker, victim,
    attackerVelocity, victimVelocity⟩

/-- `_decode_stat_event`, lines 875-882. -/
def statEvent : BM Unit StatEvent := do
  let unknown1 ← readBit
  let objectId ← readU32
  pure ⟨unknown1, objectId⟩

/-- `decode_rep_stat_title`, lines 893-918. -/
def repStatTitle : BM AttributeError RepStatTitle := do
  let unknown ← need "RepStatTitle" readBit
  let name ← decodeText
  let unknown2 ← need "RepStatTitle" readBit
  let index ← need "RepStatTitle" readU32
  let value ← need "RepStatTitle" readU32
  pure ⟨unknown, name, unknown2, index, value⟩

/-- `_decode_pickup_info`, lines 920-932. -/
def pickupInfo : BM Unit PickupInfo := do
  let a ← activeActor
  let b ← activeActor
  let c ← activeActor
  let itemsArePreview ← readBit
  pure ⟨(a, b, c), itemsArePreview⟩

/-- `decode_impulse`, lines 943-959. -/
def impulse : BM Unit Impulse := do
  let compressedRotation ← readU32
  let speed ← readU32
  pure ⟨compressedRotation, speed⟩

/-- `decode_replicated_boost`, lines 961-987. -/
def replicatedBoost : BM Unit ReplicatedBoost := do
  let grantCount ← readU8
  let boostAmount ← readU8
  let unused1 ← readU8
  let unused2 ← readU8
  pure ⟨grantCount, boostAmount, unused1, unused2⟩

/-- `_decode_extended_explosion`, lines 989-1001. -/
def extendedExplosion (d : AttrDecoder) : BM Unit ExtendedExplosion := do
  let explosion ← decodeExplosion d.version.netVersion
  let unknown1 ← readBit
  let secondaryActor ← readU32
  pure ⟨explosion, unknown1, secondaryActor⟩

/-- `_decode_music_stinger`, lines 1107-1112. -/
def musicStinger : BM Unit MusicStinger := do
  let flag ← readBit
  let cue ← readU32
  let trigger ← readU8
  pure ⟨flag, cue, trigger⟩

/-- `decode_pickup`, lines 1123-1138. -/
def pickup : BM Unit Pickup := do
  let instigator ← ifGet readU32
  let pickedUp ← readBit
  pure ⟨instigator, pickedUp⟩

/-- `decode_pickup_new`, lines 1140-1155. -/
def pickupNew : BM Unit PickupNew := do
  let instigator ← ifGet readU32
  let pickedUp ← readU8
  pure ⟨instigator, pickedUp⟩

/-- `_decode_welded`, lines 1178-1191. -/
def welded (d : AttrDecoder) : BM Unit Welded := do
  let active ← readBit
  let actor ← readU32
  let offset ← Vector3f.decode d.version.netVersion
  let mass ← readU32
  let rotation ← Rotation.decode
  pure ⟨active, actor, offset, mass, rotation⟩

/-- `_decode_title`, lines 1210-1222. -/
def title : BM Unit Attribute := do
  let u1 ← readBit
  let u2 ← readBit
  let u3 ← readU32
  let u4 ← readU32
  let u5 ← readU32
  let u6 ← readU32
  let u7 ← readU32
  let u8 ← readBit
  pure (.title u1 u2 u3 u4 u5 u6 u7 u8)

/-- `_decode_team_paint`, lines 1231-1245. -/
def teamPaint : BM Unit TeamPaint := do
  let team ← readU8
  let primaryColor ← readU8
  let accentColor ← readU8
  let primaryFinish ← readU32
  let accentFinish ← readU32
  pure ⟨team, primaryColor, accentColor, primaryFinish, accentFinish⟩

/-- `_decode_rigid_body`, lines 1256-1281.  `Some(Vector3f::decode(..))?` unwraps
the outer `Some`, so a velocity that cannot be decoded becomes `None` and does
not fail the call. -/
def rigidBody (d : AttrDecoder) : BM Unit RigidBody := do
  let sleeping ← readBit
  let location ← Vector3f.decode d.version.netVersion
  let rotation ←
    if d.version.netVersion.toInt ≥ 7 then Quaternion.decode
    else Quaternion.decodeCompressed
  if !sleeping then
    let linearVelocity ← BM.attempt (Vector3f.decode d.version.netVersion)
    let angularVelocity ← BM.attempt (Vector3f.decode d.version.netVersion)
    pure ⟨sleeping, location, rotation, linearVelocity, angularVelocity⟩
  else
    pure ⟨sleeping, location, rotation, none, none⟩

/-- `decode_reservation`, lines 1317-1361. -/
def reservation (d : AttrDecoder) : BM AttributeError Reservation := do
  let number ← need "Reservation" (readBits 3)
  let unique ← decodeUniqueId d.version.netVersion
  let name ←
    if unique.systemId ≠ 0#8 then do
      let s ← decodeText
      pure (some s)
    else if unique.remoteId ≠ .splitScreen 0#32 then do
      let s ← reservationName 256 []
      pure (some s)
    else pure none
  let unknown1 ← need "Reservation" readBit
  let unknown2 ← need "Reservation" readBit
  let unknown3 ←
    if d.version.ge 868 12 0 then do
      let x ← need "Reservation" (readBits 6)
      pure (some (BitVec.ofNat 8 x))
    else pure none
  pure ⟨BitVec.ofNat 32 number, unique, name, unknown1, unknown2, unknown3⟩

/-- `decode_party_leader`, lines 1363-1383. -/
def partyLeader (d : AttrDecoder) : BM AttributeError (Option UniqueId) := do
  let systemId ← need "Party Leader" readU8
  if systemId ≠ 0#8 then
    let id ← decodeUniqueIdWith d.version.netVersion systemId
    pure (some id)
  else pure none

/-- `decode_private_match_settings`, lines 1385-1406. -/
def privateMatch : BM AttributeError PrivateMatchSettings := do
  let mutators ← decodeText
  let joinableBy ← need "Private Match" readU32
  let maxPlayers ← need "Private Match" readU32
  let gameName ← decodeText
  let password ← decodeText
  let flag ← need "Private Match" readBit
  pure ⟨mutators, joinableBy, maxPlayers, gameName, password, flag⟩

/-- `decode_product`, lines 1445-1455. -/
def decodeProduct (d : AttrDecoder) : BM Unit Product := do
  let unknown ← readBit
  let objInd ← readU32
  let value ← d.product.decode objInd
  pure ⟨unknown, objInd, value⟩

/-- `inner_decode_online_loadout`, lines 1457-1483. -/
def onlineLoadout (d : AttrDecoder) : BM Unit (List (List Product)) := do
  let size ← readU8
  replicateBM size.toNat (do
    let attributeSize ← readU8
    replicateBM attributeSize.toNat d.decodeProduct)

/-- `_decode_loadouts_online`, lines 1418-1433. -/
def loadoutsOnline (d : AttrDecoder) : BM Unit LoadoutsOnline := do
  let blue ← d.onlineLoadout
  let orange ← d.onlineLoadout
  let unknown1 ← readBit
  let unknown2 ← readBit
  pure ⟨blue, orange, unknown1, unknown2⟩

/-- `decode_logo_data`, lines 1485-1499. -/
def logoData : BM Unit LogoData := do
  let logoId ← readU32
  let swapColors ← readBit
  pure ⟨logoId, swapColors⟩

/-- `decode_game_mode`, lines 1041-1055. -/
def gameMode (d : AttrDecoder) : BM Unit Attribute := do
  let init : Nat := if !d.version.ge 868 12 0 then 2 else 8
  let x ← readBits init
  pure (.gameMode (BitVec.ofNat 8 init) (BitVec.ofNat 8 x))

/-- `.map(f).ok_or(NotEnoughDataFor(what))`. -/
def named {α : Type} (what : String) (f : α → Attribute) (m : BM Unit α) :
    BM AttributeError Attribute := do
  let x ← need what m
  pure (f x)

/-- `.map(f)` on a decoder that already reports its own errors. -/
def mapAttr {α : Type} (f : α → Attribute) (m : BM AttributeError α) :
    BM AttributeError Attribute := do
  let x ← m
  pure (f x)

/-- `read_bits(n).map(|x| x as u16)`. -/
def read16 (n : Nat) : BM Unit (BitVec 16) := do
  let x ← readBits n
  pure (BitVec.ofNat 16 x)

/-- `_decode_flagged_byte`, lines 632-636. -/
def flaggedByte : BM Unit Attribute := do
  let b ← readBit
  let v ← readU8
  pure (.flaggedByte b v)

/-- `decode_team_loadout`, lines 1085-1096. -/
def teamLoadout : BM Unit TeamLoadout := do
  let blue ← decodeLoadout
  let orange ← decodeLoadout
  pure ⟨blue, orange⟩

/-- `decode_uncommon`, lines 561-611, with each `decode_*` method it calls. -/
def decodeUncommon (d : AttrDecoder) : AttributeTag → BM AttributeError Attribute
  | .appliedDamage => named "Applied Damage" .appliedDamage d.appliedDamage
  | .damageState => named "Damage State" .damageState d.damageState
  | .camSettings => named "Cam Settings" .camSettings d.camSettings
  | .clubColors => named "Club Colors" .clubColors clubColors
  | .demolish => named "Demolish" .demolish d.demolish
  | .demolishExtended => named "DemolishExtended" .demolishExtended d.demolishExtended
  | .demolishFx => named "DemolishFx" .demolishFx d.demolishFx
  | .enum => named "Enum" .enum (read16 11)
  | .explosion => named "Explosion" .explosion (decodeExplosion d.version.netVersion)
  | .extendedExplosion => named "Extended Explosion" .extendedExplosion d.extendedExplosion
  | .flaggedByte => need "FlaggedByte" flaggedByte
  | .float => named "Float" .float readU32
  | .gameMode => need "Game Mode" d.gameMode
  | .int => named "Int" .int readU32
  | .int64 => named "Int64" .int64 readU64
  | .loadout => named "Loadout" .loadout decodeLoadout
  | .teamLoadout => named "Team Loadout" .teamLoadout teamLoadout
  | .location => named "Location" .location (Vector3f.decode d.version.netVersion)
  | .musicStinger => named "Music Stinger" .musicStinger musicStinger
  | .pickup => named "Pickup" .pickup pickup
  | .pickupNew => named "PickupNew" .pickupNew pickupNew
  | .playerHistoryKey => named "PlayerHistoryKey" .playerHistoryKey (read16 14)
  | .qWordString =>
    if d.isRl223 then mapAttr .string decodeText else named "QWord" .qWord readU64
  | .welded => named "Welded" .welded d.welded
  | .title => need "Title" title
  | .teamPaint => named "Team Paint" .teamPaint teamPaint
  | .notImplemented => BM.fail .unimplemented
  | .string => mapAttr .string decodeText
  | .uniqueId => mapAttr .uniqueId (decodeUniqueId d.version.netVersion)
  | .reservation => mapAttr .reservation d.reservation
  | .partyLeader => mapAttr .partyLeader d.partyLeader
  | .privateMatchSettings => mapAttr .privateMatch privateMatch
  | .loadoutOnline => named "Loadout Online" .loadoutOnline d.onlineLoadout
  | .loadoutsOnline => named "Loadouts online" .loadoutsOnline d.loadoutsOnline
  | .statEvent => named "Stat Event" .statEvent statEvent
  | .rotationTag => named "Rotation" .rotation Rotation.decode
  | .repStatTitle => mapAttr .repStatTitle repStatTitle
  | .pickupInfo => named "Pickup Info" .pickupInfo pickupInfo
  | .impulse => named "Impulse" .impulse impulse
  | .replicatedBoost => named "ReplicatedBoost" .replicatedBoost replicatedBoost
  | .logoData => named "LogoData" .logoData logoData
  | .rigidBody | .byte | .boolean | .activeActor => BM.faulty .unreachable

/-- `AttributeDecoder::decode`, lines 542-557. -/
def decode (d : AttrDecoder) : AttributeTag → BM AttributeError Attribute
  | .rigidBody => named "Rigid Body" .rigidBody d.rigidBody
  | .byte => named "Byte" .byte readU8
  | .boolean => named "Boolean" .boolean readBit
  | .activeActor => named "Active Actor" .activeActor activeActor
  | tag => d.decodeUncommon tag

end AttrDecoder
end Boxcars
