import Verif.Proofs.DebugTypes
/-!
# The length of `Debug` texts
-/
namespace Boxcars.Debug
open Boxcars Spec Json

set_option linter.unusedSimpArgs false

variable {s : Std}

theorem sizes_cons {α : Type} (g : α → Nat) (x : α) (l : List α) :
    sizes g (x :: l) = g x + sizes g l := by
  simp [sizes]

theorem bool_one (x : Bool) : (dBool x).cells = 1 := rfl
theorem unsigned_one {w : Nat} (x : BitVec w) : (dUnsigned x).cells = 1 := rfl
theorem signed_one {w : Nat} (x : BitVec w) : (dSigned x).cells = 1 := rfl
theorem f32_one (x : F32) : (dF32 x).cells = 1 := rfl
theorem bool_cells (x : Bool) : (dBool x).cells ≤ 1 := Nat.le_refl _
theorem unsigned_cells {w : Nat} (x : BitVec w) : (dUnsigned x).cells ≤ 1 := Nat.le_refl _
theorem signed_cells {w : Nat} (x : BitVec w) : (dSigned x).cells ≤ 1 := Nat.le_refl _
theorem f32_cells (x : F32) : (dF32 x).cells ≤ 1 := Nat.le_refl _
theorem str_cells (x : Str) : (dStr x).cells ≤ textSize x := Nat.le_refl _
theorem actorId_cells (x : ActorId) : (dActorId x).cells ≤ 2 := Nat.le_refl _
theorem objectId_cells (x : ObjectId) : (dObjectId x).cells ≤ 2 := Nat.le_refl _

theorem option_cells {α : Type} {d : α → DVal} {k : Nat} (h : ∀ x, (d x).cells ≤ k) (o : Option α) :
    (dOption d o).cells ≤ k + 1 := by
  cases o with
  | none => simp only [dOption, dUnit, DVal.cells]; omega
  | some x =>
    have := h x
    simp only [dOption, call, unnamed, DVal.cells, DItems.cells]; omega

theorem array3_cells {α : Type} {d : α → DVal} {k : Nat} (h : ∀ x, (d x).cells ≤ k) (x : α × α × α) :
    (dArray3 d x).cells ≤ 3 * k + 1 := by
  have := h x.1
  have := h x.2.1
  have := h x.2.2
  simp only [dArray3, unnamed, DVal.cells, DItems.cells]; omega

theorem list_cells {α : Type} {d : α → DVal} {g : α → Nat} (h : ∀ x, (d x).cells ≤ g x) (l : List α) :
    (dList d l).cells ≤ 1 + sizes g l := by
  have : (unnamed (l.map d)).cells ≤ sizes g l := by
    induction l with
    | nil => exact Nat.le_refl _
    | cons x l ih =>
      have := h x
      simp only [List.map_cons, unnamed, DItems.cells, sizes_cons]
      omega
  simp only [dList, DVal.cells]; omega


theorem vector3f_cells (v : Vector3f) : (dVector3f v).cells ≤ 4 := by
  simp only [dVector3f, record, items, DVal.cells, DItems.cells, bool_one, unsigned_one, signed_one, f32_one]
  omega

theorem vector3i_cells (v : Vector3i) : (dVector3i v).cells ≤ 4 := by
  simp only [dVector3i, record, items, DVal.cells, DItems.cells, bool_one, unsigned_one, signed_one, f32_one]
  omega

theorem quaternion_cells (v : Quaternion) : (dQuaternion v).cells ≤ 5 := by
  simp only [dQuaternion, record, items, DVal.cells, DItems.cells, bool_one, unsigned_one, signed_one, f32_one]
  omega

theorem rotation_cells (v : Rotation) : (dRotation v).cells ≤ 7 := by
  have := (option_cells signed_cells) v.yaw
  have := (option_cells signed_cells) v.pitch
  have := (option_cells signed_cells) v.roll
  simp only [dRotation, record, items, DVal.cells, DItems.cells, bool_one, unsigned_one, signed_one, f32_one]
  omega

theorem activeActor_cells (v : ActiveActor) : (dActiveActor v).cells ≤ 4 := by
  have := actorId_cells v.actor
  simp only [dActiveActor, record, items, DVal.cells, DItems.cells, bool_one, unsigned_one, signed_one, f32_one]
  omega

theorem camSettings_cells (v : CamSettings) : (dCamSettings v).cells ≤ 9 := by
  have := (option_cells f32_cells) v.transition
  simp only [dCamSettings, record, items, DVal.cells, DItems.cells, bool_one, unsigned_one, signed_one, f32_one]
  omega

theorem clubColors_cells (v : ClubColors) : (dClubColors v).cells ≤ 5 := by
  simp only [dClubColors, record, items, DVal.cells, DItems.cells, bool_one, unsigned_one, signed_one, f32_one]
  omega

theorem appliedDamage_cells (v : AppliedDamage) : (dAppliedDamage v).cells ≤ 8 := by
  have := vector3f_cells v.position
  simp only [dAppliedDamage, record, items, DVal.cells, DItems.cells, bool_one, unsigned_one, signed_one, f32_one]
  omega

theorem damageState_cells (v : DamageState) : (dDamageState v).cells ≤ 11 := by
  have := actorId_cells v.offender
  have := vector3f_cells v.ballPosition
  simp only [dDamageState, record, items, DVal.cells, DItems.cells, bool_one, unsigned_one, signed_one, f32_one]
  omega

theorem demolish_cells (v : Demolish) : (dDemolish v).cells ≤ 15 := by
  have := actorId_cells v.attacker
  have := actorId_cells v.victim
  have := vector3f_cells v.attackVelocity
  have := vector3f_cells v.victimVelocity
  simp only [dDemolish, record, items, DVal.cells, DItems.cells, bool_one, unsigned_one, signed_one, f32_one]
  omega

theorem demolishExtended_cells (v : DemolishExtended) : (dDemolishExtended v).cells ≤ 30 := by
  have := activeActor_cells v.attackerPri
  have := activeActor_cells v.selfDemo
  have := activeActor_cells v.goalExplosionOwner
  have := activeActor_cells v.attacker
  have := activeActor_cells v.victim
  have := vector3f_cells v.attackerVelocity
  have := vector3f_cells v.victimVelocity
  simp only [dDemolishExtended, record, items, DVal.cells, DItems.cells, bool_one, unsigned_one, signed_one, f32_one]
  omega

theorem demolishFx_cells (v : DemolishFx) : (dDemolishFx v).cells ≤ 17 := by
  have := actorId_cells v.attacker
  have := actorId_cells v.victim
  have := vector3f_cells v.attackVelocity
  have := vector3f_cells v.victimVelocity
  simp only [dDemolishFx, record, items, DVal.cells, DItems.cells, bool_one, unsigned_one, signed_one, f32_one]
  omega

theorem explosion_cells (v : Explosion) : (dExplosion v).cells ≤ 8 := by
  have := actorId_cells v.actor
  have := vector3f_cells v.location
  simp only [dExplosion, record, items, DVal.cells, DItems.cells, bool_one, unsigned_one, signed_one, f32_one]
  omega

theorem extendedExplosion_cells (v : ExtendedExplosion) : (dExtendedExplosion v).cells ≤ 12 := by
  have := explosion_cells v.explosion
  have := actorId_cells v.secondaryActor
  simp only [dExtendedExplosion, record, items, DVal.cells, DItems.cells, bool_one, unsigned_one, signed_one, f32_one]
  omega

theorem loadout_cells (v : Loadout) : (dLoadout v).cells ≤ 21 := by
  have := (option_cells unsigned_cells) v.unknown2
  have := (option_cells unsigned_cells) v.engineAudio
  have := (option_cells unsigned_cells) v.trail
  have := (option_cells unsigned_cells) v.goalExplosion
  have := (option_cells unsigned_cells) v.banner
  have := (option_cells unsigned_cells) v.productId
  simp only [dLoadout, record, items, DVal.cells, DItems.cells, bool_one, unsigned_one, signed_one, f32_one]
  omega

theorem teamLoadout_cells (v : TeamLoadout) : (dTeamLoadout v).cells ≤ 43 := by
  have := loadout_cells v.blue
  have := loadout_cells v.orange
  simp only [dTeamLoadout, record, items, DVal.cells, DItems.cells, bool_one, unsigned_one, signed_one, f32_one]
  omega

theorem statEvent_cells (v : StatEvent) : (dStatEvent v).cells ≤ 3 := by
  simp only [dStatEvent, record, items, DVal.cells, DItems.cells, bool_one, unsigned_one, signed_one, f32_one]
  omega

theorem musicStinger_cells (v : MusicStinger) : (dMusicStinger v).cells ≤ 4 := by
  simp only [dMusicStinger, record, items, DVal.cells, DItems.cells, bool_one, unsigned_one, signed_one, f32_one]
  omega

theorem pickup_cells (v : Pickup) : (dPickup v).cells ≤ 5 := by
  have := (option_cells actorId_cells) v.instigator
  simp only [dPickup, record, items, DVal.cells, DItems.cells, bool_one, unsigned_one, signed_one, f32_one]
  omega

theorem pickupNew_cells (v : PickupNew) : (dPickupNew v).cells ≤ 5 := by
  have := (option_cells actorId_cells) v.instigator
  simp only [dPickupNew, record, items, DVal.cells, DItems.cells, bool_one, unsigned_one, signed_one, f32_one]
  omega

theorem welded_cells (v : Welded) : (dWelded v).cells ≤ 16 := by
  have := actorId_cells v.actor
  have := vector3f_cells v.offset
  have := rotation_cells v.rotation
  simp only [dWelded, record, items, DVal.cells, DItems.cells, bool_one, unsigned_one, signed_one, f32_one]
  omega

theorem teamPaint_cells (v : TeamPaint) : (dTeamPaint v).cells ≤ 6 := by
  simp only [dTeamPaint, record, items, DVal.cells, DItems.cells, bool_one, unsigned_one, signed_one, f32_one]
  omega

theorem rigidBody_cells (v : RigidBody) : (dRigidBody v).cells ≤ 21 := by
  have := vector3f_cells v.location
  have := quaternion_cells v.rotation
  have := (option_cells vector3f_cells) v.linearVelocity
  have := (option_cells vector3f_cells) v.angularVelocity
  simp only [dRigidBody, record, items, DVal.cells, DItems.cells, bool_one, unsigned_one, signed_one, f32_one]
  omega

theorem pickupInfo_cells (v : PickupInfo) : (dPickupInfo v).cells ≤ 15 := by
  have := (array3_cells activeActor_cells) v.availablePickups
  simp only [dPickupInfo, record, items, DVal.cells, DItems.cells, bool_one, unsigned_one, signed_one, f32_one]
  omega

theorem impulse_cells (v : Impulse) : (dImpulse v).cells ≤ 3 := by
  simp only [dImpulse, record, items, DVal.cells, DItems.cells, bool_one, unsigned_one, signed_one, f32_one]
  omega

theorem replicatedBoost_cells (v : ReplicatedBoost) : (dReplicatedBoost v).cells ≤ 5 := by
  simp only [dReplicatedBoost, record, items, DVal.cells, DItems.cells, bool_one, unsigned_one, signed_one, f32_one]
  omega

theorem logoData_cells (v : LogoData) : (dLogoData v).cells ≤ 3 := by
  simp only [dLogoData, record, items, DVal.cells, DItems.cells, bool_one, unsigned_one, signed_one, f32_one]
  omega

theorem bytes_cells {w : Nat} (l : List (BitVec w)) : (dList dUnsigned l).cells ≤ 1 + l.length := by
  have h := list_cells (g := fun _ => 1) (fun x => unsigned_cells x) l
  have : sizes (fun _ : BitVec w => 1) l = l.length := by
    clear h
    induction l with
    | nil => rfl
    | cons x l ih => rw [sizes_cons, ih, List.length_cons]; omega
  omega

theorem remoteId_cells (r : RemoteId) : (dRemoteId r).cells ≤ 4 + remoteSize r := by
  cases r with
  | playStation o n u =>
    have := str_cells n
    have := bytes_cells u
    have := unsigned_cells o
    simp only [dRemoteId, record, call, items, unnamed, DVal.cells, DItems.cells, remoteSize]
    omega
  | psyNet o u =>
    have := bytes_cells u
    have := unsigned_cells o
    simp only [dRemoteId, record, call, items, unnamed, DVal.cells, DItems.cells, remoteSize]
    omega
  | switch o u =>
    have := bytes_cells u
    have := unsigned_cells o
    simp only [dRemoteId, record, call, items, unnamed, DVal.cells, DItems.cells, remoteSize]
    omega
  | epic x =>
    have := str_cells x
    simp only [dRemoteId, call, unnamed, DVal.cells, DItems.cells, remoteSize]
    omega
  | splitScreen x =>
    have := unsigned_cells x
    simp only [dRemoteId, call, unnamed, DVal.cells, DItems.cells, remoteSize]
    omega
  | steam x =>
    have := unsigned_cells x
    simp only [dRemoteId, call, unnamed, DVal.cells, DItems.cells, remoteSize]
    omega
  | xbox x =>
    have := unsigned_cells x
    simp only [dRemoteId, call, unnamed, DVal.cells, DItems.cells, remoteSize]
    omega
  | qq x =>
    have := unsigned_cells x
    simp only [dRemoteId, call, unnamed, DVal.cells, DItems.cells, remoteSize]
    omega

theorem uniqueId_cells (v : UniqueId) : (dUniqueId v).cells ≤ 7 * uniqueIdSize v := by
  have := remoteId_cells v.remoteId
  have := unsigned_cells v.systemId
  have := unsigned_cells v.localId
  simp only [dUniqueId, record, items, DVal.cells, DItems.cells, uniqueIdSize]
  omega

theorem uniqueIdSize_pos (v : UniqueId) : 1 ≤ uniqueIdSize v := Nat.le_add_right _ _
theorem textSize_pos (x : Str) : 1 ≤ textSize x := Nat.le_add_right _ _

theorem reservation_cells (v : Reservation) : (dReservation v).cells ≤ 20 * attrSize (.reservation v) := by
  obtain ⟨number, u, name, b1, b2, u3⟩ := v
  have := uniqueId_cells u
  have := uniqueIdSize_pos u
  have := option_cells unsigned_cells u3
  cases name with
  | none =>
    simp only [dReservation, record, items, DVal.cells, DItems.cells, attrSize, bool_one,
      unsigned_one, dOption, dUnit] at *
    omega
  | some n =>
    have := str_cells n
    have e : (dOption dStr (some n)).cells = 1 + ((dStr n).cells + 0) := rfl
    simp only [dReservation, record, items, DVal.cells, DItems.cells, attrSize, bool_one,
      unsigned_one, e]
    omega

theorem privateMatch_cells (v : PrivateMatchSettings) :
    (dPrivateMatchSettings v).cells ≤ 20 * attrSize (.privateMatch v) := by
  have := textSize_pos v.mutators
  have := str_cells v.mutators
  have := str_cells v.gameName
  have := str_cells v.password
  have := unsigned_cells v.joinableBy
  have := unsigned_cells v.maxPlayers
  have := bool_cells v.flag
  simp only [dPrivateMatchSettings, record, items, DVal.cells, DItems.cells, attrSize]
  omega

theorem product_cells (v : Product) : (dProduct v).cells ≤ 6 * productSize v := by
  obtain ⟨b, o, v⟩ := v
  have := objectId_cells o
  cases v with
  | title x =>
    have := str_cells x
    simp only [dProduct, record, items, dProductValue, call, unnamed, DVal.cells, DItems.cells,
      productSize, bool_one]
    omega
  | _ =>
    simp only [dProduct, record, items, dProductValue, dUnit, call, unnamed, DVal.cells,
      DItems.cells, productSize, bool_one, unsigned_one]
    omega

theorem sizes_scale {α : Type} (k : Nat) (g : α → Nat) (l : List α) :
    sizes (fun x => k * g x) l = k * sizes g l := by
  induction l with
  | nil => rfl
  | cons x l ih => rw [sizes_cons, sizes_cons, ih, Nat.mul_add]

theorem products_cells (l : List (List Product)) :
    (dList (dList dProduct) l).cells ≤ 1 + 6 * productsSize l := by
  have h := list_cells (d := dList dProduct) (g := fun l => 6 * (1 + sizes productSize l)) (fun x => by
    have h := list_cells product_cells x
    rw [sizes_scale] at h
    omega) l
  rw [sizes_scale] at h
  exact h

theorem loadoutsOnline_cells (v : LoadoutsOnline) :
    (dLoadoutsOnline v).cells ≤ 20 * attrSize (.loadoutsOnline v) := by
  have := products_cells v.blue
  have := products_cells v.orange
  have := bool_cells v.unknown1
  have := bool_cells v.unknown2
  simp only [dLoadoutsOnline, record, items, DVal.cells, DItems.cells, attrSize]
  omega

theorem repStatTitle_cells (v : RepStatTitle) :
    (dRepStatTitle v).cells ≤ 20 * attrSize (.repStatTitle v) := by
  have := textSize_pos v.name
  have := str_cells v.name
  have := bool_cells v.unknown
  have := bool_cells v.unknown2
  have := unsigned_cells v.index
  have := unsigned_cells v.value
  simp only [dRepStatTitle, record, items, DVal.cells, DItems.cells, attrSize]
  omega

theorem attrSize_pos (a : Attribute) : 1 ≤ attrSize a := by
  cases a with
  | uniqueId u => exact uniqueIdSize_pos u
  | reservation r => exact Nat.le_trans (uniqueIdSize_pos r.uniqueId) (Nat.le_add_right _ _)
  | partyLeader u =>
    cases u with
    | none => exact Nat.le_refl _
    | some u => exact uniqueIdSize_pos u
  | string x => exact textSize_pos x
  | privateMatch p =>
    exact Nat.le_trans (textSize_pos p.mutators) (by simp only [attrSize]; omega)
  | loadoutOnline l => exact Nat.le_add_right _ _
  | loadoutsOnline l => simp only [attrSize]; omega
  | repStatTitle x => exact textSize_pos x.name
  | _ => exact Nat.le_refl _

theorem attribute_cells (a : Attribute) : (dAttribute a).cells ≤ 48 * attrSize a := by
  cases a with
  | boolean x =>
    have := bool_cells x
    simp only [dAttribute, call, unnamed, DVal.cells, DItems.cells, attrSize]
    omega
  | byte x =>
    have := unsigned_cells x
    simp only [dAttribute, call, unnamed, DVal.cells, DItems.cells, attrSize]
    omega
  | appliedDamage x =>
    have := appliedDamage_cells x
    simp only [dAttribute, call, unnamed, DVal.cells, DItems.cells, attrSize]
    omega
  | damageState x =>
    have := damageState_cells x
    simp only [dAttribute, call, unnamed, DVal.cells, DItems.cells, attrSize]
    omega
  | camSettings x =>
    have := camSettings_cells x
    simp only [dAttribute, call, unnamed, DVal.cells, DItems.cells, attrSize]
    omega
  | clubColors x =>
    have := clubColors_cells x
    simp only [dAttribute, call, unnamed, DVal.cells, DItems.cells, attrSize]
    omega
  | demolish x =>
    have := demolish_cells x
    simp only [dAttribute, call, unnamed, DVal.cells, DItems.cells, attrSize]
    omega
  | demolishExtended x =>
    have := demolishExtended_cells x
    simp only [dAttribute, call, unnamed, DVal.cells, DItems.cells, attrSize]
    omega
  | demolishFx x =>
    have := demolishFx_cells x
    simp only [dAttribute, call, unnamed, DVal.cells, DItems.cells, attrSize]
    omega
  | enum x =>
    have := unsigned_cells x
    simp only [dAttribute, call, unnamed, DVal.cells, DItems.cells, attrSize]
    omega
  | explosion x =>
    have := explosion_cells x
    simp only [dAttribute, call, unnamed, DVal.cells, DItems.cells, attrSize]
    omega
  | extendedExplosion x =>
    have := extendedExplosion_cells x
    simp only [dAttribute, call, unnamed, DVal.cells, DItems.cells, attrSize]
    omega
  | flaggedByte x0 x1 =>
    have := bool_cells x0
    have := unsigned_cells x1
    simp only [dAttribute, call, unnamed, DVal.cells, DItems.cells, attrSize]
    omega
  | activeActor x =>
    have := activeActor_cells x
    simp only [dAttribute, call, unnamed, DVal.cells, DItems.cells, attrSize]
    omega
  | float x =>
    have := f32_cells x
    simp only [dAttribute, call, unnamed, DVal.cells, DItems.cells, attrSize]
    omega
  | gameMode x0 x1 =>
    have := unsigned_cells x0
    have := unsigned_cells x1
    simp only [dAttribute, call, unnamed, DVal.cells, DItems.cells, attrSize]
    omega
  | int x =>
    have := signed_cells x
    simp only [dAttribute, call, unnamed, DVal.cells, DItems.cells, attrSize]
    omega
  | int64 x =>
    have := signed_cells x
    simp only [dAttribute, call, unnamed, DVal.cells, DItems.cells, attrSize]
    omega
  | loadout x =>
    have := loadout_cells x
    simp only [dAttribute, call, unnamed, DVal.cells, DItems.cells, attrSize]
    omega
  | teamLoadout x =>
    have := teamLoadout_cells x
    simp only [dAttribute, call, unnamed, DVal.cells, DItems.cells, attrSize]
    omega
  | location x =>
    have := vector3f_cells x
    simp only [dAttribute, call, unnamed, DVal.cells, DItems.cells, attrSize]
    omega
  | musicStinger x =>
    have := musicStinger_cells x
    simp only [dAttribute, call, unnamed, DVal.cells, DItems.cells, attrSize]
    omega
  | playerHistoryKey x =>
    have := unsigned_cells x
    simp only [dAttribute, call, unnamed, DVal.cells, DItems.cells, attrSize]
    omega
  | pickup x =>
    have := pickup_cells x
    simp only [dAttribute, call, unnamed, DVal.cells, DItems.cells, attrSize]
    omega
  | pickupNew x =>
    have := pickupNew_cells x
    simp only [dAttribute, call, unnamed, DVal.cells, DItems.cells, attrSize]
    omega
  | qWord x =>
    have := unsigned_cells x
    simp only [dAttribute, call, unnamed, DVal.cells, DItems.cells, attrSize]
    omega
  | welded x =>
    have := welded_cells x
    simp only [dAttribute, call, unnamed, DVal.cells, DItems.cells, attrSize]
    omega
  | title x0 x1 x2 x3 x4 x5 x6 x7 =>
    have := bool_cells x0
    have := bool_cells x1
    have := unsigned_cells x2
    have := unsigned_cells x3
    have := unsigned_cells x4
    have := unsigned_cells x5
    have := unsigned_cells x6
    have := bool_cells x7
    simp only [dAttribute, call, unnamed, DVal.cells, DItems.cells, attrSize]
    omega
  | teamPaint x =>
    have := teamPaint_cells x
    simp only [dAttribute, call, unnamed, DVal.cells, DItems.cells, attrSize]
    omega
  | rigidBody x =>
    have := rigidBody_cells x
    simp only [dAttribute, call, unnamed, DVal.cells, DItems.cells, attrSize]
    omega
  | string x =>
    have := str_cells x
    have := textSize_pos x
    simp only [dAttribute, call, unnamed, DVal.cells, DItems.cells, attrSize]
    omega
  | uniqueId x =>
    have := uniqueId_cells x
    have := uniqueIdSize_pos x
    simp only [dAttribute, call, unnamed, DVal.cells, DItems.cells, attrSize]
    omega
  | reservation x =>
    have := reservation_cells x
    have := attrSize_pos (.reservation x)
    simp only [dAttribute, call, unnamed, DVal.cells, DItems.cells]
    omega
  | partyLeader x =>
    cases x with
    | none => simp only [dAttribute, dOption, dUnit, call, unnamed, DVal.cells, DItems.cells, attrSize]; omega
    | some u =>
      have := uniqueId_cells u
      have := uniqueIdSize_pos u
      simp only [dAttribute, dOption, call, unnamed, DVal.cells, DItems.cells, attrSize]
      omega
  | privateMatch x =>
    have := privateMatch_cells x
    have := attrSize_pos (.privateMatch x)
    simp only [dAttribute, call, unnamed, DVal.cells, DItems.cells]
    omega
  | loadoutOnline x =>
    have := products_cells x
    simp only [dAttribute, call, unnamed, DVal.cells, DItems.cells, attrSize]
    omega
  | loadoutsOnline x =>
    have := loadoutsOnline_cells x
    have := attrSize_pos (.loadoutsOnline x)
    simp only [dAttribute, call, unnamed, DVal.cells, DItems.cells]
    omega
  | statEvent x =>
    have := statEvent_cells x
    simp only [dAttribute, call, unnamed, DVal.cells, DItems.cells, attrSize]
    omega
  | rotation x =>
    have := rotation_cells x
    simp only [dAttribute, call, unnamed, DVal.cells, DItems.cells, attrSize]
    omega
  | repStatTitle x =>
    have := repStatTitle_cells x
    have := attrSize_pos (.repStatTitle x)
    simp only [dAttribute, call, unnamed, DVal.cells, DItems.cells]
    omega
  | pickupInfo x =>
    have := pickupInfo_cells x
    simp only [dAttribute, call, unnamed, DVal.cells, DItems.cells, attrSize]
    omega
  | impulse x =>
    have := impulse_cells x
    simp only [dAttribute, call, unnamed, DVal.cells, DItems.cells, attrSize]
    omega
  | replicatedBoost x =>
    have := replicatedBoost_cells x
    simp only [dAttribute, call, unnamed, DVal.cells, DItems.cells, attrSize]
    omega
  | logoData x =>
    have := logoData_cells x
    simp only [dAttribute, call, unnamed, DVal.cells, DItems.cells, attrSize]
    omega

/-- The assumption of the bound on messages, for what the crate prints. -/
theorem brief (hf : FloatDebug 64 s.debug) (hd : ∀ x, len (s.display x) ≤ 6144) :
    BriefText (fmt s) 6144 where
  f32 := hd
  tag x := by
    have := val_len hf _ (attributeTag_wf x)
    have e : (dAttributeTag x).cells = 1 := by rw [tag_atom]; rfl
    rw [e] at this
    exact Nat.le_trans this (by decide)
  attr a := by
    have := val_len hf _ (attribute_wf a)
    have := attribute_cells a
    have e : (fmt s).attr a = (dAttribute a).show s := rfl
    rw [e]
    show len _ ≤ _
    omega
  location x := by
    have := val_len hf _ (option_wf vector3i_wf x)
    have := option_cells vector3i_cells x
    have e : (fmt s).location x = (dOption dVector3i x).show s := rfl
    rw [e]
    show len _ ≤ _
    omega
  rotation x := by
    have := val_len hf _ (option_wf rotation_wf x)
    have := option_cells rotation_cells x
    have e : (fmt s).rotation x = (dOption dRotation x).show s := rfl
    rw [e]
    show len _ ≤ _
    omega

end Boxcars.Debug
