import Verif.Spec.Attr
/-!
# The values of each attribute type

Which values there are, without saying how they are written.
-/
namespace Boxcars.Spec
open Boxcars

/-- A coordinate of a vector, in hundredths. -/
def Coord (net : I32) (x : I32) : Prop :=
  -(2 ^ (if 7 ≤ net.toInt then 22 else 20) : Int) ≤ x.toInt ∧
    x.toInt < 2 ^ (if 7 ≤ net.toInt then 22 else 20)

/-- A vector of hundredths. -/
def Hundredths (net : I32) (v : Vector3f) : Prop :=
  ∃ x y z, Coord net x ∧ Coord net y ∧ Coord net z ∧ v = ⟨centi x, centi y, centi z⟩

/-- A text of at most 1023 characters of Windows-1252, or 511 units of UTF-16. -/
def ShortText (s : Str) : Prop :=
  (s.length ≤ 1023 ∧ ∀ c ∈ s, (cp1252 c).isSome = true) ∨ (utf16 s).length ≤ 511

/-- A rotation of a body: three components of 18 bits, a fourth that makes it a unit. -/
def BodyRotation (q : Quaternion) : Prop :=
  ∃ a b c : Nat, a < 2 ^ 18 ∧ b < 2 ^ 18 ∧ c < 2 ^ 18 ∧
    let x := quatComp a
    let y := quatComp b
    let z := quatComp c
    let w := quatLargest x y z
    q = ⟨w, x, y, z⟩ ∨ q = ⟨x, w, y, z⟩ ∨ q = ⟨x, y, w, z⟩ ∨ q = ⟨x, y, z, w⟩

/-- A rotation of a body before net version 7: three components of 16 bits. -/
def OldRotation (q : Quaternion) : Prop :=
  ∃ a b c : Nat, a < 2 ^ 16 ∧ b < 2 ^ 16 ∧ c < 2 ^ 16 ∧
    q = ⟨oldQuatComp a, oldQuatComp b, oldQuatComp c, 0#32⟩

/-- There from some version on. -/
def Since (p : Prop) {α : Type} (x : Option α) : Prop := x.isSome = true ↔ p

def LoadoutOf (v : Loadout) : Prop :=
  Since (11 ≤ v.version.toNat) v.unknown2 ∧ Since (16 ≤ v.version.toNat) v.engineAudio ∧
  Since (16 ≤ v.version.toNat) v.trail ∧ Since (16 ≤ v.version.toNat) v.goalExplosion ∧
  Since (17 ≤ v.version.toNat) v.banner ∧ Since (19 ≤ v.version.toNat) v.productId

/-- The ids of each platform. -/
def RemoteOf (net : I32) (system : Byte) : RemoteId → Prop
  | .splitScreen x => system = 0 ∧ x.toNat < 2 ^ 24
  | .steam _ => system = 1
  | .playStation _ name unk => system = 2 ∧ name.length ≤ 16 ∧
      (∀ c ∈ name, c ≠ Char.ofNat 0 ∧ (cp1252 c).isSome = true) ∧
      unk.length = if 1 ≤ net.toInt then 16 else 8
  | .xbox _ => system = 4
  | .qq _ => system = 5
  | .switch _ unk => system = 6 ∧ unk.length = 24
  | .psyNet _ unk => system = 7 ∧ unk.length = if net.toInt < 10 then 24 else 0
  | .epic s => system = 11 ∧ ShortText s

def UniqueIdOf (net : I32) (v : UniqueId) : Prop := RemoteOf net v.systemId v.remoteId

/-- Characters up to U+00FF but for zero; the last begins within the first 255 bytes of UTF-8. -/
def SplitName (s : Str) : Prop :=
  (∀ c ∈ s, 1 ≤ c.toNat ∧ c.toNat ≤ 255) ∧ (utf8 s.dropLast).length ≤ 254

def ReservationOf (d : Ctx) (v : Reservation) : Prop :=
  v.number.toNat < 8 ∧ UniqueIdOf d.net v.uniqueId ∧
  (match v.name with
    | some t => if v.uniqueId.systemId = 0 then v.uniqueId.remoteId ≠ .splitScreen 0 ∧ SplitName t
        else ShortText t
    | none => v.uniqueId.systemId = 0 ∧ v.uniqueId.remoteId = .splitScreen 0) ∧
  Since (d.atLeast 868 12 0) v.unknown3 ∧ ∀ x, v.unknown3 = some x → x.toNat < 64

/-- The value of a product. -/
def ProductOf (d : Ctx) (v : Product) : Prop :=
  if v.objectInd = d.color then
    (d.atLeast 868 23 8 ∧ ∃ x, v.value = .newColor x) ∨
    (¬d.atLeast 868 23 8 ∧ (v.value = .noColor ∨ ∃ x, v.value = .oldColor x ∧ x.toNat < 2 ^ 31))
  else if v.objectInd = d.painted then
    (d.atLeast 868 18 0 ∧ ∃ x, v.value = .newPaint x ∧ x.toNat < 2 ^ 31) ∨
    (¬d.atLeast 868 18 0 ∧ ∃ x, v.value = .oldPaint x ∧ x.toNat < 14)
  else if v.objectInd = d.titleId then ∃ s, v.value = .title s ∧ ShortText s
  else if v.objectInd = d.special then ∃ x, v.value = .specialEdition x ∧ x.toNat < 2 ^ 31
  else if v.objectInd = d.team then
    (d.atLeast 868 18 0 ∧ ∃ x, v.value = .newTeamEdition x ∧ x.toNat < 2 ^ 31) ∨
    (¬d.atLeast 868 18 0 ∧ ∃ x, v.value = .oldTeamEdition x ∧ x.toNat < 14)
  else v.value = .absent

def ProductsOf (d : Ctx) (l : List (List Product)) : Prop :=
  l.length ≤ 255 ∧ ∀ ps ∈ l, ps.length ≤ 255 ∧ ∀ p ∈ ps, ProductOf d p

/-- A rigid body but for its velocities. -/
def PlacedBody (d : Ctx) (v : RigidBody) : Prop :=
  Hundredths d.net v.location ∧ if 7 ≤ d.net.toInt then BodyRotation v.rotation
    else OldRotation v.rotation

/-- A velocity, if it is given. -/
def Given (net : I32) (v : Option Vector3f) : Prop := ∀ w, v = some w → Hundredths net w

/-- The values of each attribute type. -/
def ValueOf (d : Ctx) : AttributeTag → Attribute → Prop
  | .boolean, .boolean _ => True
  | .byte, .byte _ => True
  | .appliedDamage, .appliedDamage v => Hundredths d.net v.position
  | .damageState, .damageState v => Hundredths d.net v.ballPosition
  | .camSettings, .camSettings v => Since (d.atLeast 868 20 0) v.transition
  | .clubColors, .clubColors _ => True
  | .demolish, .demolish v => Hundredths d.net v.attackVelocity ∧ Hundredths d.net v.victimVelocity
  | .demolishExtended, .demolishExtended v =>
    Hundredths d.net v.attackerVelocity ∧ Hundredths d.net v.victimVelocity
  | .demolishFx, .demolishFx v =>
    Hundredths d.net v.attackVelocity ∧ Hundredths d.net v.victimVelocity
  | .enum, .enum v => v.toNat < 2 ^ 11
  | .explosion, .explosion v => Hundredths d.net v.location
  | .extendedExplosion, .extendedExplosion v => Hundredths d.net v.explosion.location
  | .flaggedByte, .flaggedByte _ _ => True
  | .activeActor, .activeActor _ => True
  | .float, .float _ => True
  | .gameMode, .gameMode w v => (d.atLeast 868 12 0 ∧ w = 8) ∨
      (¬d.atLeast 868 12 0 ∧ w = 2 ∧ v.toNat < 4)
  | .int, .int _ => True
  | .int64, .int64 _ => True
  | .loadout, .loadout v => LoadoutOf v
  | .teamLoadout, .teamLoadout v => LoadoutOf v.blue ∧ LoadoutOf v.orange
  | .location, .location v => Hundredths d.net v
  | .musicStinger, .musicStinger _ => True
  | .playerHistoryKey, .playerHistoryKey v => v.toNat < 2 ^ 14
  | .pickup, .pickup _ => True
  | .pickupNew, .pickupNew _ => True
  | .qWordString, .qWord _ => d.rl223 = false
  | .qWordString, .string s => d.rl223 = true ∧ ShortText s
  | .welded, .welded v => Hundredths d.net v.offset
  | .title, .title _ _ _ _ _ _ _ _ => True
  | .teamPaint, .teamPaint _ => True
  | .rigidBody, .rigidBody v => PlacedBody d v ∧ Given d.net v.linearVelocity ∧
      Given d.net v.angularVelocity ∧ Since (v.sleeping = false) v.linearVelocity ∧
      Since (v.sleeping = false) v.angularVelocity
  | .string, .string s => ShortText s
  | .uniqueId, .uniqueId v => UniqueIdOf d.net v
  | .reservation, .reservation v => ReservationOf d v
  | .partyLeader, .partyLeader v => ∀ u, v = some u → u.systemId ≠ 0 ∧ UniqueIdOf d.net u
  | .privateMatchSettings, .privateMatch v =>
    ShortText v.mutators ∧ ShortText v.gameName ∧ ShortText v.password
  | .loadoutOnline, .loadoutOnline v => ProductsOf d v
  | .loadoutsOnline, .loadoutsOnline v => ProductsOf d v.blue ∧ ProductsOf d v.orange
  | .statEvent, .statEvent _ => True
  | .rotationTag, .rotation _ => True
  | .repStatTitle, .repStatTitle v => ShortText v.name
  | .pickupInfo, .pickupInfo _ => True
  | .impulse, .impulse _ => True
  | .replicatedBoost, .replicatedBoost _ => True
  | .logoData, .logoData _ => True
  | _, _ => False

/-- A rigid body that is awake, of which a velocity is missing. -/
def CutBody (d : Ctx) (v : RigidBody) : Prop :=
  PlacedBody d v ∧ Given d.net v.linearVelocity ∧ Given d.net v.angularVelocity ∧
    v.sleeping = false ∧ (v.linearVelocity = none ∨ v.angularVelocity = none)

/-- A velocity below 5242.88, before net version 7 below 1310.72. -/
def Slow (net : I32) (v : Vector3f) : Prop :=
  let m : Int := 2 ^ (if 7 ≤ net.toInt then 19 else 17)
  ∃ x y z : I32, (-m ≤ x.toInt ∧ x.toInt < m) ∧ (-m ≤ y.toInt ∧ y.toInt < m) ∧
    (-m ≤ z.toInt ∧ z.toInt < m) ∧ v = ⟨centi x, centi y, centi z⟩

/-- A rigid body of which the data end within a velocity.  If that is the first, the bits for it are
those of the second, which leaves less of them than its largest size takes. -/
def CutBodyOf (d : Ctx) (v : RigidBody) : Prop :=
  CutBody d v ∧ ∀ w, v.linearVelocity = none → v.angularVelocity = some w → Slow d.net w

end Boxcars.Spec
