import Verif.Spec.Bits
/-!
# The wire format of the attributes of the network stream

One definition per attribute type, relating a value to the bit strings that represent
it in a replay of given version.  Only the result types of the model are used.
-/
namespace Boxcars.Spec

/-- What the layout of attributes depends on: the version triple, the object ids of
the five product classes that carry a value, and whether the replay is from the
release in which a 64-bit statistic became a string. -/
structure Ctx where
  major : I32
  minor : I32
  net : I32
  color : ObjectId
  painted : ObjectId
  titleId : ObjectId
  special : ObjectId
  team : ObjectId
  rl223 : Bool

/-- The version is at least `(a, b, c)`, lexicographically. -/
def Ctx.atLeast (d : Ctx) (a b c : Int) : Prop :=
  a < d.major.toInt ∨ (a = d.major.toInt ∧
    (b < d.minor.toInt ∨ (b = d.minor.toInt ∧ c ≤ d.net.toInt)))

/-- A number written in the low `n` bits of its type. -/
def Narrow (n : Nat) {w : Nat} (x : BitVec w) (bs : Bits) : Prop :=
  x.toNat < 2 ^ n ∧ bs = bits n x.toNat

/-- A field present exactly when `c` holds. -/
def When {α : Type} (c : Prop) (g : α → Bits → Prop) (v : Option α) (bs : Bits) : Prop :=
  (c ∧ ∃ x, v = some x ∧ g x bs) ∨ (¬c ∧ v = none ∧ bs = [])

/-- A 32-bit field. -/
def Word (x : BitVec 32) (bs : Bits) : Prop := bs = field 32 x

/-- The representations of the elements of a list in order. -/
inductive Items {α : Type} (g : α → Bits → Prop) : List α → Bits → Prop where
  | nil : Items g [] []
  | cons {x xs b bs} : g x b → Items g xs bs → Items g (x :: xs) (b ++ bs)

/-- A list: element count in one byte, then the elements. -/
def ByteList {α : Type} (g : α → Bits → Prop) (xs : List α) (bs : Bits) : Prop :=
  ∃ b, xs.length < 256 ∧ Items g xs b ∧ bs = field 8 (BitVec.ofNat 8 xs.length) ++ b

/-- A text: zero for the empty text; a count of at most 1024 Windows-1252 bytes of
which the last is dropped; the negative of a count of at most 512 UTF-16LE units of
which the last is dropped. -/
def NetText (s : Str) (bs : Bits) : Prop :=
  (s = [] ∧ bs = field 32 0) ∨
  (∃ body last, body.length + 1 ≤ 1024 ∧ IsCp1252 s body ∧
    bs = field 32 (BitVec.ofNat 32 (body.length + 1)) ++ bytes (body ++ [last])) ∨
  (∃ (units : List (BitVec 16)) (last : BitVec 16), units.length + 1 ≤ 512 ∧
    Utf16Replaced units s ∧
    bs = field 32 (-(BitVec.ofNat 32 (units.length + 1)))
      ++ bytes ((units ++ [last]).flatMap (fun u => le 2 u.toNat)))

/-- An actor reference with its flag. -/
def activeActor (a : ActiveActor) : Bits := a.active :: field 32 a.actor

def AppliedDamageEnc (d : Ctx) (v : AppliedDamage) (bs : Bits) : Prop :=
  ∃ p, Vec3f d.net v.position p ∧
    bs = field 8 v.id ++ (p ++ (field 32 v.damageIndex ++ field 32 v.totalDamage))

def DamageStateEnc (d : Ctx) (v : DamageState) (bs : Bits) : Prop :=
  ∃ p, Vec3f d.net v.ballPosition p ∧
    bs = field 8 v.tileState ++ ([v.damaged] ++ (field 32 v.offender ++
      (p ++ ([v.directHit] ++ [v.unknown1]))))

def CamSettingsEnc (d : Ctx) (v : CamSettings) (bs : Bits) : Prop :=
  ∃ t, When (d.atLeast 868 20 0) Word v.transition t ∧
    bs = field 32 v.fov ++ (field 32 v.height ++ (field 32 v.angle ++ (field 32 v.distance ++
      (field 32 v.stiffness ++ (field 32 v.swivel ++ t)))))

def clubColors (v : ClubColors) : Bits :=
  [v.blueFlag] ++ (field 8 v.blueColor ++ ([v.orangeFlag] ++ field 8 v.orangeColor))

def DemolishEnc (d : Ctx) (v : Demolish) (bs : Bits) : Prop :=
  ∃ a b, Vec3f d.net v.attackVelocity a ∧ Vec3f d.net v.victimVelocity b ∧
    bs = [v.attackerFlag] ++ (field 32 v.attacker ++ ([v.victimFlag] ++ (field 32 v.victim ++
      (a ++ b))))

def DemolishFxEnc (d : Ctx) (v : DemolishFx) (bs : Bits) : Prop :=
  ∃ a b, Vec3f d.net v.attackVelocity a ∧ Vec3f d.net v.victimVelocity b ∧
    bs = [v.customDemoFlag] ++ (field 32 v.customDemoId ++ ([v.attackerFlag] ++
      (field 32 v.attacker ++ ([v.victimFlag] ++ (field 32 v.victim ++ (a ++ b))))))

def DemolishExtendedEnc (d : Ctx) (v : DemolishExtended) (bs : Bits) : Prop :=
  ∃ a b, Vec3f d.net v.attackerVelocity a ∧ Vec3f d.net v.victimVelocity b ∧
    bs = activeActor v.attackerPri ++ (activeActor v.selfDemo ++ ([v.selfDemolish] ++
      (activeActor v.goalExplosionOwner ++ (activeActor v.attacker ++ (activeActor v.victim ++
        (a ++ b))))))

def ExplosionEnc (d : Ctx) (v : Explosion) (bs : Bits) : Prop :=
  ∃ p, Vec3f d.net v.location p ∧ bs = [v.flag] ++ (field 32 v.actor ++ p)

def ExtendedExplosionEnc (d : Ctx) (v : ExtendedExplosion) (bs : Bits) : Prop :=
  ∃ e, ExplosionEnc d v.explosion e ∧ bs = e ++ ([v.unknown1] ++ field 32 v.secondaryActor)

/-- Two bits before version 868.12.0, eight since; the width is part of the value. -/
def GameModeEnc (d : Ctx) (w v : Byte) (bs : Bits) : Prop :=
  (d.atLeast 868 12 0 ∧ w = 8#8 ∧ bs = bits 8 v.toNat) ∨
  (¬d.atLeast 868 12 0 ∧ w = 2#8 ∧ v.toNat < 4 ∧ bs = bits 2 v.toNat)

/-- A loadout: fields appear from the loadout versions 11, 16, 17, 19 on; from 22 on
there are three more words, which are not kept. -/
def LoadoutEnc (v : Loadout) (bs : Bits) : Prop :=
  ∃ u2 ea tr ge ba pr junk,
    When (10 < v.version.toNat) Word v.unknown2 u2 ∧
    When (16 ≤ v.version.toNat) Word v.engineAudio ea ∧
    When (16 ≤ v.version.toNat) Word v.trail tr ∧
    When (16 ≤ v.version.toNat) Word v.goalExplosion ge ∧
    When (17 ≤ v.version.toNat) Word v.banner ba ∧
    When (19 ≤ v.version.toNat) Word v.productId pr ∧
    junk.length = (if 22 ≤ v.version.toNat then 96 else 0) ∧
    bs = field 8 v.version ++ (field 32 v.body ++ (field 32 v.decal ++ (field 32 v.wheels ++
      (field 32 v.rocketTrail ++ (field 32 v.antenna ++ (field 32 v.topper ++
      (field 32 v.unknown1 ++ (u2 ++ (ea ++ (tr ++ (ge ++ (ba ++ (pr ++ junk)))))))))))))

def TeamLoadoutEnc (v : TeamLoadout) (bs : Bits) : Prop :=
  ∃ a b, LoadoutEnc v.blue a ∧ LoadoutEnc v.orange b ∧ bs = a ++ b

def musicStinger (v : MusicStinger) : Bits := [v.flag] ++ (field 32 v.cue ++ field 8 v.trigger)

def pickup (v : Pickup) : Bits := opt (field 32) v.instigator ++ [v.pickedUp]

def pickupNew (v : PickupNew) : Bits := opt (field 32) v.instigator ++ field 8 v.pickedUp

def WeldedEnc (d : Ctx) (v : Welded) (bs : Bits) : Prop :=
  ∃ p, Vec3f d.net v.offset p ∧
    bs = [v.active] ++ (field 32 v.actor ++ (p ++ (field 32 v.mass ++ rotation v.rotation)))

def teamPaint (v : TeamPaint) : Bits :=
  field 8 v.team ++ (field 8 v.primaryColor ++ (field 8 v.accentColor ++
    (field 32 v.primaryFinish ++ field 32 v.accentFinish)))

/-- A rigid body: velocities are present unless it sleeps. -/
def RigidBodyEnc (d : Ctx) (v : RigidBody) (bs : Bits) : Prop :=
  ∃ l r a b, Vec3f d.net v.location l ∧
    ((7 ≤ d.net.toInt ∧ QuatEnc v.rotation r) ∨ (d.net.toInt < 7 ∧ OldQuatEnc v.rotation r)) ∧
    When (v.sleeping = false) (Vec3f d.net) v.linearVelocity a ∧
    When (v.sleeping = false) (Vec3f d.net) v.angularVelocity b ∧
    bs = [v.sleeping] ++ (l ++ (r ++ (a ++ b)))

/-- The platform specific part of a player id, by platform number. -/
inductive RemoteEnc (net : I32) : Byte → RemoteId → Bits → Prop where
  | splitScreen {x bs} : Narrow 24 x bs → RemoteEnc net 0 (.splitScreen x) bs
  | steam (x) : RemoteEnc net 1 (.steam x) (field 64 x)
  /-- the name occupies sixteen bytes and ends before the first zero byte -/
  | playStation (x) {name raw unk} : raw.length = 16 → IsCp1252 name (raw.takeWhile (· != 0)) →
      unk.length = (if 1 ≤ net.toInt then 16 else 8) →
      RemoteEnc net 2 (.playStation x name unk) (bytes raw ++ (bytes unk ++ field 64 x))
  | xbox (x) : RemoteEnc net 4 (.xbox x) (field 64 x)
  | qq (x) : RemoteEnc net 5 (.qq x) (field 64 x)
  | switch (x) {unk} : unk.length = 24 → RemoteEnc net 6 (.switch x unk) (field 64 x ++ bytes unk)
  | psyNet (x) {unk} : unk.length = (if net.toInt < 10 then 24 else 0) →
      RemoteEnc net 7 (.psyNet x unk) (field 64 x ++ bytes unk)
  | epic {s bs} : NetText s bs → RemoteEnc net 11 (.epic s) bs

def UniqueIdEnc (net : I32) (v : UniqueId) (bs : Bits) : Prop :=
  ∃ r, RemoteEnc net v.systemId v.remoteId r ∧
    bs = field 8 v.systemId ++ (r ++ field 8 v.localId)

/-- A zero terminated Latin-1 string; once it has 255 bytes or more in UTF-8 it ends
without a terminator. -/
def Latin1Name (s : Str) (bs : Bits) : Prop :=
  ∃ raw : List Byte, (∀ b ∈ raw, b ≠ 0) ∧ s = raw.map (fun b => Char.ofNat b.toNat) ∧
    (s ≠ [] → (utf8 s.dropLast).length < 255) ∧
    bs = bytes raw ++ (if (utf8 s).length < 255 then field 8 0#8 else [])

/-- A reservation: the name is a text for players of a platform, a Latin-1 string for
split screen players and absent for the empty split screen id. -/
def ReservationEnc (d : Ctx) (v : Reservation) (bs : Bits) : Prop :=
  ∃ n u s k, Narrow 3 v.number n ∧ UniqueIdEnc d.net v.uniqueId u ∧
    ((v.uniqueId.systemId ≠ 0 ∧ ∃ t, v.name = some t ∧ NetText t s) ∨
     (v.uniqueId.systemId = 0 ∧ v.uniqueId.remoteId ≠ .splitScreen 0 ∧
       ∃ t, v.name = some t ∧ Latin1Name t s) ∨
     (v.uniqueId.systemId = 0 ∧ v.uniqueId.remoteId = .splitScreen 0 ∧ v.name = none ∧ s = [])) ∧
    When (d.atLeast 868 12 0) (Narrow 6) v.unknown3 k ∧
    bs = n ++ (u ++ (s ++ ([v.unknown1] ++ ([v.unknown2] ++ k))))

/-- A party leader: a platform number of zero stands for nobody. -/
def PartyLeaderEnc (d : Ctx) (v : Option UniqueId) (bs : Bits) : Prop :=
  (v = none ∧ bs = field 8 0#8) ∨
  (∃ u, v = some u ∧ u.systemId ≠ 0 ∧ UniqueIdEnc d.net u bs)

def PrivateMatchEnc (v : PrivateMatchSettings) (bs : Bits) : Prop :=
  ∃ m g p, NetText v.mutators m ∧ NetText v.gameName g ∧ NetText v.password p ∧
    bs = m ++ (field 32 v.joinableBy ++ (field 32 v.maxPlayers ++ (g ++ (p ++ [v.flag]))))

/-- A number below fourteen. -/
def Below14 (x : BitVec 32) (bs : Bits) : Prop := x.toNat < 14 ∧ bs = bounded 14 x.toNat

/-- The value of a product, by its object.  When ids coincide the first rule counts. -/
inductive ProductEnc (d : Ctx) (obj : ObjectId) : ProductValue → Bits → Prop where
  | newColor (x) : obj = d.color → d.atLeast 868 23 8 → ProductEnc d obj (.newColor x) (field 32 x)
  | noColor : obj = d.color → ¬d.atLeast 868 23 8 → ProductEnc d obj .noColor [false]
  | oldColor {x bs} : obj = d.color → ¬d.atLeast 868 23 8 → Narrow 31 x bs →
      ProductEnc d obj (.oldColor x) (true :: bs)
  | newPaint {x bs} : obj ≠ d.color → obj = d.painted → d.atLeast 868 18 0 → Narrow 31 x bs →
      ProductEnc d obj (.newPaint x) bs
  | oldPaint {x bs} : obj ≠ d.color → obj = d.painted → ¬d.atLeast 868 18 0 → Below14 x bs →
      ProductEnc d obj (.oldPaint x) bs
  | title {s bs} : obj ≠ d.color → obj ≠ d.painted → obj = d.titleId → NetText s bs →
      ProductEnc d obj (.title s) bs
  | special {x bs} : obj ≠ d.color → obj ≠ d.painted → obj ≠ d.titleId → obj = d.special →
      Narrow 31 x bs → ProductEnc d obj (.specialEdition x) bs
  | newTeam {x bs} : obj ≠ d.color → obj ≠ d.painted → obj ≠ d.titleId → obj ≠ d.special →
      obj = d.team → d.atLeast 868 18 0 → Narrow 31 x bs →
      ProductEnc d obj (.newTeamEdition x) bs
  | oldTeam {x bs} : obj ≠ d.color → obj ≠ d.painted → obj ≠ d.titleId → obj ≠ d.special →
      obj = d.team → ¬d.atLeast 868 18 0 → Below14 x bs →
      ProductEnc d obj (.oldTeamEdition x) bs
  | absent : obj ≠ d.color → obj ≠ d.painted → obj ≠ d.titleId → obj ≠ d.special →
      obj ≠ d.team → ProductEnc d obj .absent []

/-- A product: flag, object, value. -/
def ProductAttrEnc (d : Ctx) (v : Product) (bs : Bits) : Prop :=
  ∃ p, ProductEnc d v.objectInd v.value p ∧ bs = [v.unknown] ++ (field 32 v.objectInd ++ p)

/-- A list of lists of products. -/
def OnlineLoadoutEnc (d : Ctx) : List (List Product) → Bits → Prop :=
  ByteList (ByteList (ProductAttrEnc d))

def LoadoutsOnlineEnc (d : Ctx) (v : LoadoutsOnline) (bs : Bits) : Prop :=
  ∃ a b, OnlineLoadoutEnc d v.blue a ∧ OnlineLoadoutEnc d v.orange b ∧
    bs = a ++ (b ++ ([v.unknown1] ++ [v.unknown2]))

def statEvent (v : StatEvent) : Bits := [v.unknown1] ++ field 32 v.objectId

def RepStatTitleEnc (v : RepStatTitle) (bs : Bits) : Prop :=
  ∃ n, NetText v.name n ∧
    bs = [v.unknown] ++ (n ++ ([v.unknown2] ++ (field 32 v.index ++ field 32 v.value)))

def pickupInfo (v : PickupInfo) : Bits :=
  activeActor v.availablePickups.1 ++ (activeActor v.availablePickups.2.1 ++
    (activeActor v.availablePickups.2.2 ++ [v.itemsArePreview]))

def impulse (v : Impulse) : Bits := field 32 v.compressedRotation ++ field 32 v.speed

def replicatedBoost (v : ReplicatedBoost) : Bits :=
  field 8 v.grantCount ++ (field 8 v.boostAmount ++ (field 8 v.unused1 ++ field 8 v.unused2))

def logoData (v : LogoData) : Bits := field 32 v.logoId ++ [v.swapColors]

/-- The wire format of every attribute type. -/
inductive AttrEnc (d : Ctx) : AttributeTag → Attribute → Bits → Prop where
  | boolean (v) : AttrEnc d .boolean (.boolean v) [v]
  | byte (v) : AttrEnc d .byte (.byte v) (field 8 v)
  | appliedDamage {v bs} : AppliedDamageEnc d v bs → AttrEnc d .appliedDamage (.appliedDamage v) bs
  | damageState {v bs} : DamageStateEnc d v bs → AttrEnc d .damageState (.damageState v) bs
  | camSettings {v bs} : CamSettingsEnc d v bs → AttrEnc d .camSettings (.camSettings v) bs
  | clubColors (v) : AttrEnc d .clubColors (.clubColors v) (clubColors v)
  | demolish {v bs} : DemolishEnc d v bs → AttrEnc d .demolish (.demolish v) bs
  | demolishExtended {v bs} : DemolishExtendedEnc d v bs →
      AttrEnc d .demolishExtended (.demolishExtended v) bs
  | demolishFx {v bs} : DemolishFxEnc d v bs → AttrEnc d .demolishFx (.demolishFx v) bs
  | enum {v bs} : Narrow 11 v bs → AttrEnc d .enum (.enum v) bs
  | explosion {v bs} : ExplosionEnc d v bs → AttrEnc d .explosion (.explosion v) bs
  | extendedExplosion {v bs} : ExtendedExplosionEnc d v bs →
      AttrEnc d .extendedExplosion (.extendedExplosion v) bs
  | flaggedByte (b v) : AttrEnc d .flaggedByte (.flaggedByte b v) ([b] ++ field 8 v)
  | activeActor (v) : AttrEnc d .activeActor (.activeActor v) (activeActor v)
  | float (v) : AttrEnc d .float (.float v) (field 32 v)
  | gameMode {w v bs} : GameModeEnc d w v bs → AttrEnc d .gameMode (.gameMode w v) bs
  | int (v) : AttrEnc d .int (.int v) (field 32 v)
  | int64 (v) : AttrEnc d .int64 (.int64 v) (field 64 v)
  | loadout {v bs} : LoadoutEnc v bs → AttrEnc d .loadout (.loadout v) bs
  | teamLoadout {v bs} : TeamLoadoutEnc v bs → AttrEnc d .teamLoadout (.teamLoadout v) bs
  | location {v bs} : Vec3f d.net v bs → AttrEnc d .location (.location v) bs
  | musicStinger (v) : AttrEnc d .musicStinger (.musicStinger v) (musicStinger v)
  | playerHistoryKey {v bs} : Narrow 14 v bs →
      AttrEnc d .playerHistoryKey (.playerHistoryKey v) bs
  | pickup (v) : AttrEnc d .pickup (.pickup v) (pickup v)
  | pickupNew (v) : AttrEnc d .pickupNew (.pickupNew v) (pickupNew v)
  | qWord (v) : d.rl223 = false → AttrEnc d .qWordString (.qWord v) (field 64 v)
  | qWordString {s bs} : d.rl223 = true → NetText s bs → AttrEnc d .qWordString (.string s) bs
  | welded {v bs} : WeldedEnc d v bs → AttrEnc d .welded (.welded v) bs
  | title (a b c e f g h i) : AttrEnc d .title (.title a b c e f g h i)
      ([a] ++ ([b] ++ (field 32 c ++ (field 32 e ++ (field 32 f ++ (field 32 g ++
        (field 32 h ++ [i])))))))
  | teamPaint (v) : AttrEnc d .teamPaint (.teamPaint v) (teamPaint v)
  | rigidBody {v bs} : RigidBodyEnc d v bs → AttrEnc d .rigidBody (.rigidBody v) bs
  | string {s bs} : NetText s bs → AttrEnc d .string (.string s) bs
  | uniqueId {v bs} : UniqueIdEnc d.net v bs → AttrEnc d .uniqueId (.uniqueId v) bs
  | reservation {v bs} : ReservationEnc d v bs → AttrEnc d .reservation (.reservation v) bs
  | partyLeader {v bs} : PartyLeaderEnc d v bs → AttrEnc d .partyLeader (.partyLeader v) bs
  | privateMatch {v bs} : PrivateMatchEnc v bs →
      AttrEnc d .privateMatchSettings (.privateMatch v) bs
  | loadoutOnline {v bs} : OnlineLoadoutEnc d v bs → AttrEnc d .loadoutOnline (.loadoutOnline v) bs
  | loadoutsOnline {v bs} : LoadoutsOnlineEnc d v bs →
      AttrEnc d .loadoutsOnline (.loadoutsOnline v) bs
  | statEvent (v) : AttrEnc d .statEvent (.statEvent v) (statEvent v)
  | rotation (v) : AttrEnc d .rotationTag (.rotation v) (rotation v)
  | repStatTitle {v bs} : RepStatTitleEnc v bs → AttrEnc d .repStatTitle (.repStatTitle v) bs
  | pickupInfo (v) : AttrEnc d .pickupInfo (.pickupInfo v) (pickupInfo v)
  | impulse (v) : AttrEnc d .impulse (.impulse v) (impulse v)
  | replicatedBoost (v) : AttrEnc d .replicatedBoost (.replicatedBoost v) (replicatedBoost v)
  | logoData (v) : AttrEnc d .logoData (.logoData v) (logoData v)

/-! ### The one decoder that does not fail at the end of data

`_decode_rigid_body` treats velocities that cannot be decoded as absent and goes on.
The following describes what it accepts besides `RigidBodyEnc`. -/

/-- The bits end within a vector: before or after its size class was read. -/
def VecTrunc (net : I32) (i o : Bits) : Prop :=
  (i.length < 5 ∧ o = i) ∨
  (5 ≤ i.length ∧ ∃ s, s < sizeClasses net ∧ i = bounded (sizeClasses net) s ++ o ∧
    o.length < 3 * (s + 2))

/-- A velocity, absent if the bits end within it. -/
def Velocity (net : I32) (v : Option Vector3f) (i o : Bits) : Prop :=
  match v with
  | some w => ∃ b, Vec3f net w b ∧ i = b ++ o
  | none => VecTrunc net i o

/-- A rigid body that is awake and of which a velocity is cut off by the end of data. -/
def RigidBodyTrunc (d : Ctx) (v : RigidBody) (i o : Bits) : Prop :=
  v.sleeping = false ∧ (v.linearVelocity = none ∨ v.angularVelocity = none) ∧
  ∃ l r j k, Vec3f d.net v.location l ∧
    ((7 ≤ d.net.toInt ∧ QuatEnc v.rotation r) ∨ (d.net.toInt < 7 ∧ OldQuatEnc v.rotation r)) ∧
    i = [v.sleeping] ++ (l ++ (r ++ j)) ∧
    Velocity d.net v.linearVelocity j k ∧ Velocity d.net v.angularVelocity k o

/-- What the decoder accepts at `i` leaving `o`. -/
def AttrAccepts (d : Ctx) (tag : AttributeTag) (a : Attribute) (i o : Bits) : Prop :=
  (∃ bs, AttrEnc d tag a bs ∧ i = bs ++ o) ∨
  (tag = .rigidBody ∧ ∃ v, a = .rigidBody v ∧ RigidBodyTrunc d v i o)

end Boxcars.Spec
