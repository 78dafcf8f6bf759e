import Verif.Spec.Attr
/-!
# Which error an attribute value is answered with

For every attribute type the inputs on which decoding fails, with the error reported.
Only the result and error types of the model are used.
-/
namespace Boxcars.Spec

/-- The bits end within a representation. -/
def CutOff {α : Type} (g : α → Bits → Prop) (i : Bits) : Prop := ∃ v b, b ≠ [] ∧ g v (i ++ b)

/-- A text fails: its count is cut off, the count is out of range, or there are fewer
bits than it announces.  In the last case, too, the error is that of a bad count. -/
inductive TextFail : AttributeError → Bits → Prop where
  | count {i} : i.length < 32 → TextFail (.notEnoughDataFor "text string") i
  | range {n : I32} {i} : 1024 < n.toInt ∨ n.toInt < -512 →
      TextFail (.tooBigString n) (field 32 n ++ i)
  | narrow {n : I32} {i : Bits} : 0 < n.toInt → n.toInt ≤ 1024 → (i.length : Int) < 8 * n.toInt →
      TextFail (.tooBigString n) (field 32 n ++ i)
  | wide {n : I32} {i : Bits} : -512 ≤ n.toInt → n.toInt < 0 → (i.length : Int) < -16 * n.toInt →
      TextFail (.tooBigString n) (field 32 n ++ i)

/-- The platform numbers with a known id format. -/
def platforms : List Byte := [0, 1, 2, 4, 5, 6, 7, 11]

/-- The platform specific part of a player id fails. -/
inductive RemoteFail (net : I32) : Byte → AttributeError → Bits → Prop where
  | splitScreen {i} : i.length < 24 → RemoteFail net 0 (.notEnoughDataFor "SplitScreen") i
  | steam {i} : i.length < 64 → RemoteFail net 1 (.notEnoughDataFor "Steam") i
  | psName {i} : i.length < 128 → RemoteFail net 2 (.notEnoughDataFor "PS4 Name") i
  | psUnknown {i} : 128 ≤ i.length → i.length < 128 + (if 1 ≤ net.toInt then 128 else 64) →
      RemoteFail net 2 (.notEnoughDataFor "PS4 Unknown") i
  | psId {i} : 128 + (if 1 ≤ net.toInt then 128 else 64) ≤ i.length →
      i.length < 192 + (if 1 ≤ net.toInt then 128 else 64) →
      RemoteFail net 2 (.notEnoughDataFor "PS4 ID") i
  | xbox {i} : i.length < 64 → RemoteFail net 4 (.notEnoughDataFor "Xbox") i
  | qq {i} : i.length < 64 → RemoteFail net 5 (.notEnoughDataFor "QQ ID") i
  | switchId {i} : i.length < 64 → RemoteFail net 6 (.notEnoughDataFor "Switch ID") i
  | switchUnknown {i} : 64 ≤ i.length → i.length < 256 →
      RemoteFail net 6 (.notEnoughDataFor "Switch ID Unknown") i
  | psyNetId {i} : i.length < 64 → RemoteFail net 7 (.notEnoughDataFor "PsyNet ID") i
  | psyNetUnknown {i} : net.toInt < 10 → 64 ≤ i.length → i.length < 256 →
      RemoteFail net 7 (.notEnoughDataFor "PsyNet ID Unknown") i
  | epic {e i} : TextFail e i → RemoteFail net 11 e i
  | unknown {s i} : s ∉ platforms → RemoteFail net s (.unrecognizedRemoteId s) i

/-- A player id of platform `s` fails after the platform number. -/
inductive IdFail (net : I32) (s : Byte) : AttributeError → Bits → Prop where
  | remote {e i} : RemoteFail net s e i → IdFail net s e i
  | localId {v b i} : RemoteEnc net s v b → i.length < 8 →
      IdFail net s (.notEnoughDataFor "UniqueId local_id") (b ++ i)

/-- A player id fails. -/
inductive UniqueIdFail (net : I32) : AttributeError → Bits → Prop where
  | system {i} : i.length < 8 → UniqueIdFail net (.notEnoughDataFor "System id") i
  | id {s e i} : IdFail net s e i → UniqueIdFail net e (field 8 s ++ i)

/-- A party leader fails. -/
inductive PartyLeaderFail (net : I32) : AttributeError → Bits → Prop where
  | system {i} : i.length < 8 → PartyLeaderFail net (.notEnoughDataFor "Party Leader") i
  | id {s e i} : s ≠ 0 → IdFail net s e i → PartyLeaderFail net e (field 8 s ++ i)

/-- The name in a reservation: see `ReservationEnc`. -/
def ReservedName (u : UniqueId) (name : Option Str) (bs : Bits) : Prop :=
  (u.systemId ≠ 0 ∧ ∃ t, name = some t ∧ NetText t bs) ∨
  (u.systemId = 0 ∧ u.remoteId ≠ .splitScreen 0 ∧ ∃ t, name = some t ∧ Latin1Name t bs) ∨
  (u.systemId = 0 ∧ u.remoteId = .splitScreen 0 ∧ name = none ∧ bs = [])

/-- A reservation fails. -/
inductive ReservationFail (d : Ctx) : AttributeError → Bits → Prop where
  | number {i} : i.length < 3 → ReservationFail d (.notEnoughDataFor "Reservation") i
  | id {k : BitVec 32} {n e i} : Narrow 3 k n → UniqueIdFail d.net e i →
      ReservationFail d e (n ++ i)
  | text {k : BitVec 32} {n u b e i} : Narrow 3 k n → UniqueIdEnc d.net u b → u.systemId ≠ 0 →
      TextFail e i → ReservationFail d e (n ++ (b ++ i))
  | latin1 {k : BitVec 32} {n u b i} : Narrow 3 k n → UniqueIdEnc d.net u b → u.systemId = 0 →
      u.remoteId ≠ .splitScreen 0 → CutOff Latin1Name i →
      ReservationFail d (.notEnoughDataFor "Reservation") (n ++ (b ++ i))
  | flags {k : BitVec 32} {n u b t s i} : Narrow 3 k n → UniqueIdEnc d.net u b →
      ReservedName u t s → (d.atLeast 868 12 0 → i.length < 8) →
      (¬d.atLeast 868 12 0 → i.length < 2) →
      ReservationFail d (.notEnoughDataFor "Reservation") (n ++ (b ++ (s ++ i)))

/-- Private match settings fail. -/
inductive PrivateMatchFail : AttributeError → Bits → Prop where
  | mutators {e i} : TextFail e i → PrivateMatchFail e i
  | numbers {m b i} : NetText m b → i.length < 64 →
      PrivateMatchFail (.notEnoughDataFor "Private Match") (b ++ i)
  | gameName {m b j e i} : NetText m b → j.length = 64 → TextFail e i →
      PrivateMatchFail e (b ++ (j ++ i))
  | password {m b j g b' e i} : NetText m b → j.length = 64 → NetText g b' → TextFail e i →
      PrivateMatchFail e (b ++ (j ++ (b' ++ i)))
  | flag {m b j g b' p b''} : NetText m b → j.length = 64 → NetText g b' → NetText p b'' →
      PrivateMatchFail (.notEnoughDataFor "Private Match") (b ++ (j ++ (b' ++ b'')))

/-- A replicated statistic title fails. -/
inductive RepStatTitleFail : AttributeError → Bits → Prop where
  | empty : RepStatTitleFail (.notEnoughDataFor "RepStatTitle") []
  | name {x e i} : TextFail e i → RepStatTitleFail e (x :: i)
  | rest {x s b i} : NetText s b → i.length < 65 →
      RepStatTitleFail (.notEnoughDataFor "RepStatTitle") (x :: (b ++ i))

/-- One of `n` elements fails. -/
inductive ItemsFail {α : Type} (g : α → Bits → Prop) (F : Bits → Prop) : Nat → Bits → Prop where
  | here {n i} : F i → ItemsFail g F (n + 1) i
  | later {n x b i} : g x b → ItemsFail g F n i → ItemsFail g F (n + 1) (b ++ i)

/-- A list with its element count in one byte fails. -/
def ByteListFail {α : Type} (g : α → Bits → Prop) (F : Bits → Prop) (i : Bits) : Prop :=
  i.length < 8 ∨ ∃ (n : Byte) (j : Bits), i = field 8 n ++ j ∧ ItemsFail g F n.toNat j

/-- The object of products whose value is a title. -/
def TitleObject (d : Ctx) (obj : ObjectId) : Prop :=
  obj = d.titleId ∧ obj ≠ d.color ∧ obj ≠ d.painted

/-- A product fails: it is cut off, or it is a title of which the text fails. -/
def ProductFail (d : Ctx) (i : Bits) : Prop :=
  i.length < 33 ∨ ∃ (flag : Bool) (obj : ObjectId) (j : Bits), i = flag :: (field 32 obj ++ j) ∧
    ((TitleObject d obj ∧ ∃ e, TextFail e j) ∨ (¬TitleObject d obj ∧ CutOff (ProductEnc d obj) j))

/-- A list of lists of products fails. -/
def OnlineLoadoutFail (d : Ctx) (i : Bits) : Prop :=
  ByteListFail (ByteList (ProductAttrEnc d)) (ByteListFail (ProductAttrEnc d) (ProductFail d)) i

/-- The two lists of lists of products fail. -/
def LoadoutsOnlineFail (d : Ctx) (i : Bits) : Prop :=
  OnlineLoadoutFail d i ∨
  (∃ v b j, OnlineLoadoutEnc d v b ∧ i = b ++ j ∧ OnlineLoadoutFail d j) ∨
  (∃ v b v' b' j, OnlineLoadoutEnc d v b ∧ OnlineLoadoutEnc d v' b' ∧ i = b ++ (b' ++ j) ∧
    j.length < 2)

/-- The part of a rigid body that must be complete: the velocities may be missing. -/
def RigidBodyHead (d : Ctx) (v : Bool × Vector3f × Quaternion) (bs : Bits) : Prop :=
  ∃ l r, Vec3f d.net v.2.1 l ∧
    ((7 ≤ d.net.toInt ∧ QuatEnc v.2.2 r) ∨ (d.net.toInt < 7 ∧ OldQuatEnc v.2.2 r)) ∧
    bs = [v.1] ++ (l ++ r)

/-- The name that errors give to the values of attribute types without texts and
player ids.  Those fail only at the end of data. -/
def plainName (d : Ctx) : AttributeTag → Option String
  | .boolean => some "Boolean"
  | .byte => some "Byte"
  | .appliedDamage => some "Applied Damage"
  | .damageState => some "Damage State"
  | .camSettings => some "Cam Settings"
  | .clubColors => some "Club Colors"
  | .demolish => some "Demolish"
  | .demolishExtended => some "DemolishExtended"
  | .demolishFx => some "DemolishFx"
  | .enum => some "Enum"
  | .explosion => some "Explosion"
  | .extendedExplosion => some "Extended Explosion"
  | .flaggedByte => some "FlaggedByte"
  | .activeActor => some "Active Actor"
  | .float => some "Float"
  | .gameMode => some "Game Mode"
  | .int => some "Int"
  | .int64 => some "Int64"
  | .loadout => some "Loadout"
  | .teamLoadout => some "Team Loadout"
  | .location => some "Location"
  | .musicStinger => some "Music Stinger"
  | .playerHistoryKey => some "PlayerHistoryKey"
  | .pickup => some "Pickup"
  | .pickupNew => some "PickupNew"
  | .qWordString => if d.rl223 then none else some "QWord"
  | .welded => some "Welded"
  | .title => some "Title"
  | .teamPaint => some "Team Paint"
  | .statEvent => some "Stat Event"
  | .rotationTag => some "Rotation"
  | .pickupInfo => some "Pickup Info"
  | .impulse => some "Impulse"
  | .replicatedBoost => some "ReplicatedBoost"
  | .logoData => some "LogoData"
  | .rigidBody | .notImplemented | .string | .uniqueId | .reservation | .partyLeader
  | .privateMatchSettings | .loadoutOnline | .loadoutsOnline | .repStatTitle => none

/-- The value of an attribute of type `tag` is answered with error `e`. -/
inductive AttrFails (d : Ctx) : AttributeTag → AttributeError → Bits → Prop where
  | plain {tag what i} : plainName d tag = some what → CutOff (AttrEnc d tag) i →
      AttrFails d tag (.notEnoughDataFor what) i
  | rigidBody {i} : CutOff (RigidBodyHead d) i →
      AttrFails d .rigidBody (.notEnoughDataFor "Rigid Body") i
  | unimplemented {i} : AttrFails d .notImplemented .unimplemented i
  | string {e i} : TextFail e i → AttrFails d .string e i
  | qWordString {e i} : d.rl223 = true → TextFail e i → AttrFails d .qWordString e i
  | uniqueId {e i} : UniqueIdFail d.net e i → AttrFails d .uniqueId e i
  | partyLeader {e i} : PartyLeaderFail d.net e i → AttrFails d .partyLeader e i
  | reservation {e i} : ReservationFail d e i → AttrFails d .reservation e i
  | privateMatch {e i} : PrivateMatchFail e i → AttrFails d .privateMatchSettings e i
  | repStatTitle {e i} : RepStatTitleFail e i → AttrFails d .repStatTitle e i
  | loadoutOnline {i} : OnlineLoadoutFail d i →
      AttrFails d .loadoutOnline (.notEnoughDataFor "Loadout Online") i
  | loadoutsOnline {i} : LoadoutsOnlineFail d i →
      AttrFails d .loadoutsOnline (.notEnoughDataFor "Loadouts online") i

end Boxcars.Spec
