import Verif.Proofs.JsonSize
import Verif.Proofs.Schema
import Verif.Proofs.Size
/-!
# The length of the JSON text of a replay
-/
namespace Boxcars.Json
open Boxcars Spec

variable {fmt : F32 → Str}

theorem extra_bool (x) : extra (cBool.ser x) = 0 := rfl
theorem extra_f32 (x) : extra (cF32.ser x) = 0 := rfl
theorem extra_u8 (x) : extra (cU8.ser x) = 0 := rfl
theorem extra_i8 (x) : extra (cI8.ser x) = 0 := rfl
theorem extra_u16 (x) : extra (cU16.ser x) = 0 := rfl
theorem extra_u32 (x) : extra (cU32.ser x) = 0 := rfl
theorem extra_i32 (x) : extra (cI32.ser x) = 0 := rfl

theorem extra_opt {α : Type} {c : Codec α} (h : ∀ x, extra (c.ser x) = 0) (o : Option α) :
    extra ((cOption c).ser o) = 0 := by
  cases o with
  | none => rfl
  | some x => exact h x

theorem extra_u64 (x : BitVec 64) : extra (cU64Str.ser x) = 0 := by
  have h : len (Nat.toDigits 10 x.toNat) ≤ max 20 1 :=
    digits_len (by have := x.isLt; have : 2 ^ 64 < 10 ^ 20 := by decide
                   omega)
  show len (displayNat x.toNat) - 20 = 0
  unfold displayNat
  omega

theorem extra_i64 (x : BitVec 64) : extra (cI64Str.ser x) = 0 := by
  have h : len (displayInt x.toInt) ≤ 19 + 1 := by
    apply int_len (by decide)
    have h1 := x.toInt_lt
    have h2 := x.le_toInt
    have : (2 : Int) ^ (64 - 1) = 9223372036854775808 := by decide
    have : 10 ^ 19 = 10000000000000000000 := by decide
    omega
  show len (displayInt x.toInt) - 20 = 0
  omega

theorem extra_text (s : Str) : extra (cStr.ser s) ≤ textSize s := by
  show len s - 20 ≤ 1 + len s
  omega

theorem extras_map {α : Type} {f : α → SVal} {g : α → Nat} (h : ∀ x, 1 + extra (f x) ≤ g x)
    (xs : List α) : extras (xs.map f) ≤ sizes g xs := by
  induction xs with
  | nil => exact Nat.le_refl _
  | cons x xs ih =>
    have := h x
    unfold sizes at ih ⊢
    rw [List.map_cons, List.map_cons, List.sum_cons, extras]
    omega

theorem extra_list {α : Type} {c : Codec α} {g : α → Nat} (h : ∀ x, 1 + extra (c.ser x) ≤ g x)
    (xs : List α) : extra ((cList c).ser xs) ≤ sizes g xs := by
  show extra (.seq (xs.map c.ser)) ≤ _
  rw [extra]
  exact extras_map h xs

theorem extra_bytes (xs : List Byte) : extra ((cList cU8).ser xs) ≤ xs.length := by
  have := extra_list (c := cU8) (g := fun _ => 1) (fun x => by rw [extra_u8]) xs
  rw [sizes_length] at this
  exact this

theorem extra_vector3f (x) : extra (cVector3f.ser x) = 0 := by
  simp [cVector3f, extra, extraFields, extra_f32]
theorem extra_quaternion (x) : extra (cQuaternion.ser x) = 0 := by
  simp [cQuaternion, extra, extraFields, extra_f32]
theorem extra_rotation (x) : extra (cRotation.ser x) = 0 := by
  simp [cRotation, extra, extraFields, extra_opt extra_i8]
theorem extra_vector3i (x) : extra (cVector3i.ser x) = 0 := by
  simp [cVector3i, extra, extraFields, extra_i32]
theorem extra_trajectory (x) : extra (cTrajectory.ser x) = 0 := by
  simp [cTrajectory, extra, extraFields, extra_opt extra_vector3i, extra_opt extra_rotation]
theorem extra_newActor (x) : extra (cNewActor.ser x) = 0 := by
  simp [cNewActor, extra, extraFields, extra_i32, extra_opt extra_i32, extra_trajectory]
theorem extra_activeActor (x) : extra (cActiveActor.ser x) = 0 := by
  simp [cActiveActor, extra, extraFields, extra_i32, extra_bool]
theorem extra_explosion (x) : extra (cExplosion.ser x) = 0 := by
  simp [cExplosion, extra, extraFields, extra_i32, extra_bool, extra_vector3f]
theorem extra_loadout (x) : extra (cLoadout.ser x) = 0 := by
  simp only [cLoadout, extra, extraFields, extra_u8, extra_u32, extra_opt extra_u32, Nat.add_zero]
theorem extra_appliedDamage (x) : extra (cAppliedDamage.ser x) = 0 := by
  simp [cAppliedDamage, extra, extraFields, extra_u8, extra_vector3f, extra_i32]
theorem extra_damageState (x) : extra (cDamageState.ser x) = 0 := by
  simp [cDamageState, extra, extraFields, extra_u8, extra_bool, extra_i32, extra_vector3f]
theorem extra_camSettings (x) : extra (cCamSettings.ser x) = 0 := by
  simp [cCamSettings, extra, extraFields, extra_f32, extra_opt extra_f32]
theorem extra_clubColors (x) : extra (cClubColors.ser x) = 0 := by
  simp [cClubColors, extra, extraFields, extra_bool, extra_u8]
theorem extra_demolish (x) : extra (cDemolish.ser x) = 0 := by
  simp [cDemolish, extra, extraFields, extra_bool, extra_i32, extra_vector3f]
theorem extra_demolishExtended (x) : extra (cDemolishExtended.ser x) = 0 := by
  simp [cDemolishExtended, extra, extraFields, extra_activeActor, extra_bool, extra_vector3f]
theorem extra_demolishFx (x) : extra (cDemolishFx.ser x) = 0 := by
  simp [cDemolishFx, extra, extraFields, extra_bool, extra_i32, extra_vector3f]
theorem extra_extendedExplosion (x) : extra (cExtendedExplosion.ser x) = 0 := by
  simp [cExtendedExplosion, extra, extraFields, extra_explosion, extra_bool, extra_i32]
theorem extra_teamLoadout (x) : extra (cTeamLoadout.ser x) = 0 := by
  simp [cTeamLoadout, extra, extraFields, extra_loadout]
theorem extra_musicStinger (x) : extra (cMusicStinger.ser x) = 0 := by
  simp [cMusicStinger, extra, extraFields, extra_bool, extra_u32, extra_u8]
theorem extra_pickup (x) : extra (cPickup.ser x) = 0 := by
  simp [cPickup, extra, extraFields, extra_opt extra_i32, extra_bool]
theorem extra_pickupNew (x) : extra (cPickupNew.ser x) = 0 := by
  simp [cPickupNew, extra, extraFields, extra_opt extra_i32, extra_u8]
theorem extra_welded (x) : extra (cWelded.ser x) = 0 := by
  simp [cWelded, extra, extraFields, extra_bool, extra_i32, extra_vector3f, extra_f32, extra_rotation]
theorem extra_teamPaint (x) : extra (cTeamPaint.ser x) = 0 := by
  simp [cTeamPaint, extra, extraFields, extra_u8, extra_u32]
theorem extra_rigidBody (x) : extra (cRigidBody.ser x) = 0 := by
  simp [cRigidBody, extra, extraFields, extra_bool, extra_vector3f, extra_quaternion, extra_opt extra_vector3f]
theorem extra_statEvent (x) : extra (cStatEvent.ser x) = 0 := by
  simp [cStatEvent, extra, extraFields, extra_bool, extra_i32]
theorem extra_impulse (x) : extra (cImpulse.ser x) = 0 := by
  simp [cImpulse, extra, extraFields, extra_i32, extra_f32]
theorem extra_replicatedBoost (x) : extra (cReplicatedBoost.ser x) = 0 := by
  simp [cReplicatedBoost, extra, extraFields, extra_u8]
theorem extra_logoData (x) : extra (cLogoData.ser x) = 0 := by
  simp [cLogoData, extra, extraFields, extra_u32, extra_bool]

theorem extra_remoteId (x : RemoteId) : extra (cRemoteId.ser x) ≤ remoteSize x := by
  cases x with
  | playStation o n u =>
    have := extra_text n
    have := extra_bytes u
    simp only [cRemoteId, extra, extraFields, extra_u64, remoteSize]
    omega
  | psyNet o u =>
    have := extra_bytes u
    simp only [cRemoteId, extra, extraFields, extra_u64, remoteSize]
    omega
  | switch o u =>
    have := extra_bytes u
    simp only [cRemoteId, extra, extraFields, extra_u64, remoteSize]
    omega
  | epic s =>
    have := extra_text s
    simp only [cRemoteId, extra, remoteSize]
    omega
  | _ => simp [cRemoteId, extra, extra_u64, extra_u32]

theorem extra_uniqueId (x : UniqueId) : extra (cUniqueId.ser x) ≤ uniqueIdSize x := by
  have := extra_remoteId x.remoteId
  simp only [cUniqueId, extra, extraFields, extra_u8, uniqueIdSize]
  omega

theorem extra_optText (x : Option Str) :
    extra ((cOption cStr).ser x) ≤ (match x with | some n => textSize n | none => 0) := by
  cases x with
  | none => exact Nat.le_refl _
  | some n => exact extra_text n

theorem extra_product (x : Product) : 1 + extra (cProduct.ser x) ≤ productSize x := by
  obtain ⟨u, o, v⟩ := x
  cases v with
  | title s =>
    have := extra_text s
    simp only [cProduct, cProductValue, extra, extraFields, extra_bool, extra_i32, productSize]
    omega
  | _ => simp [cProduct, cProductValue, extra, extraFields, extra_bool, extra_i32, extra_u32, productSize]

theorem extra_products (xs : List (List Product)) :
    extra ((cList (cList cProduct)).ser xs) ≤ productsSize xs :=
  extra_list (fun l => by
    have := extra_list (c := cProduct) (g := productSize) extra_product l
    omega) xs

/-- Attributes that are tuples. -/
def tuple : Attribute → Bool
  | .flaggedByte _ _ => true
  | .gameMode _ _ => true
  | .title _ _ _ _ _ _ _ _ => true
  | .pickupInfo _ => true
  | _ => false

theorem zero_le_of {n m : Nat} (h : n = 0) : n ≤ m := h ▸ Nat.zero_le m

theorem extra_reservation (r : Reservation) :
    extra (cReservation.ser r) ≤ attrSize (.reservation r) := by
  have h1 := extra_uniqueId r.uniqueId
  have h2 := extra_optText r.name
  simp only [cReservation, extra, extraFields, extra_u32, extra_bool, extra_opt extra_u8, attrSize]
  cases hn : r.name with
  | none => rw [hn] at h2; simp only at h2 ⊢; omega
  | some n => rw [hn] at h2; simp only at h2 ⊢; omega

theorem extra_privateMatch (p : PrivateMatchSettings) :
    extra (cPrivateMatchSettings.ser p) ≤ attrSize (.privateMatch p) := by
  have h1 := extra_text p.mutators
  have h2 := extra_text p.gameName
  have h3 := extra_text p.password
  simp only [cPrivateMatchSettings, extra, extraFields, extra_u32, extra_bool, attrSize]
  omega

theorem extra_loadoutsOnline (l : LoadoutsOnline) :
    extra (cLoadoutsOnline.ser l) ≤ attrSize (.loadoutsOnline l) := by
  have h1 := extra_products l.blue
  have h2 := extra_products l.orange
  simp only [cLoadoutsOnline, extra, extraFields, extra_bool, attrSize]
  omega

theorem extra_repStatTitle (t : RepStatTitle) :
    extra (cRepStatTitle.ser t) ≤ attrSize (.repStatTitle t) := by
  have := extra_text t.name
  simp only [cRepStatTitle, extra, extraFields, extra_u32, extra_bool, attrSize]
  omega

theorem extra_attribute (a : Attribute) (h : tuple a = false) :
    extra (cAttribute.ser a) ≤ attrSize a := by
  cases a with
  | flaggedByte _ _ => cases h
  | gameMode _ _ => cases h
  | title _ _ _ _ _ _ _ _ => cases h
  | pickupInfo _ => cases h
  | boolean x => exact zero_le_of (extra_bool x)
  | byte x => exact zero_le_of (extra_u8 x)
  | appliedDamage x => exact zero_le_of (extra_appliedDamage x)
  | damageState x => exact zero_le_of (extra_damageState x)
  | camSettings x => exact zero_le_of (extra_camSettings x)
  | clubColors x => exact zero_le_of (extra_clubColors x)
  | demolish x => exact zero_le_of (extra_demolish x)
  | demolishExtended x => exact zero_le_of (extra_demolishExtended x)
  | demolishFx x => exact zero_le_of (extra_demolishFx x)
  | enum x => exact zero_le_of (extra_u16 x)
  | explosion x => exact zero_le_of (extra_explosion x)
  | extendedExplosion x => exact zero_le_of (extra_extendedExplosion x)
  | activeActor x => exact zero_le_of (extra_activeActor x)
  | float x => exact zero_le_of (extra_f32 x)
  | int x => exact zero_le_of (extra_i32 x)
  | int64 x => exact zero_le_of (extra_i64 x)
  | loadout x => exact zero_le_of (extra_loadout x)
  | teamLoadout x => exact zero_le_of (extra_teamLoadout x)
  | location x => exact zero_le_of (extra_vector3f x)
  | musicStinger x => exact zero_le_of (extra_musicStinger x)
  | playerHistoryKey x => exact zero_le_of (extra_u16 x)
  | pickup x => exact zero_le_of (extra_pickup x)
  | pickupNew x => exact zero_le_of (extra_pickupNew x)
  | qWord x => exact zero_le_of (extra_u64 x)
  | welded x => exact zero_le_of (extra_welded x)
  | teamPaint x => exact zero_le_of (extra_teamPaint x)
  | rigidBody x => exact zero_le_of (extra_rigidBody x)
  | statEvent x => exact zero_le_of (extra_statEvent x)
  | rotation x => exact zero_le_of (extra_rotation x)
  | impulse x => exact zero_le_of (extra_impulse x)
  | replicatedBoost x => exact zero_le_of (extra_replicatedBoost x)
  | logoData x => exact zero_le_of (extra_logoData x)
  | string s => exact extra_text s
  | uniqueId u => exact extra_uniqueId u
  | reservation r => exact extra_reservation r
  | partyLeader o =>
    cases o with
    | none => exact Nat.zero_le _
    | some u => exact extra_uniqueId u
  | privateMatch p => exact extra_privateMatch p
  | loadoutOnline l =>
    have := extra_products l
    show extra ((cList (cList cProduct)).ser l) ≤ 1 + productsSize l
    omega
  | loadoutsOnline l => exact extra_loadoutsOnline l
  | repStatTitle t => exact extra_repStatTitle t

/-! ## The network data -/

theorem fits_has {α : Type} {f : α → SVal} {s : Shape} (h : Fits f s) (x : α) : Has s (f x) :=
  (h _).2 ⟨x, rfl⟩

theorem attribute_len (hF : ∀ x, Spec.IsFinite x → len (fmt x) ≤ 16) (a : Attribute) :
    len (compact fmt (cAttribute.ser a)) ≤ 680 + 185 * attrSize a := by
  have e1 : cost attributeShape = 680 := by decide +kernel
  have e2 : rate attributeShape = 185 := by decide +kernel
  cases h : tuple a with
  | false =>
    have h1 := (has_len hF (fits_has attribute_fits a) (by decide +kernel)).1
    have h2 := Nat.mul_le_mul_left 185 (extra_attribute a h)
    rw [e1, e2] at h1
    omega
  | true =>
    cases a with
    | flaggedByte b x =>
      have h1 := (has_len hF (Has.tuple (.cons (fits_has bool_fits b)
        (.cons (fits_has (unsigned_fits 8) x) .nil))) (by decide +kernel)).1
      rw [show cost (.tuple [.bool, .unsigned 8]) = 20 by decide +kernel,
        show rate (.tuple [.bool, .unsigned 8]) = 0 by decide +kernel] at h1
      have h2 := variant_len (fmt := fmt) "FlaggedByte" (.seq [cBool.ser b, cU8.ser x])
      rw [show nameLen "FlaggedByte" = 13 by decide +kernel] at h2
      have : len (compact fmt (.seq [cBool.ser b, cU8.ser x])) ≤ 20 + 0 * _ := h1
      show len (compact fmt (.variant "FlaggedByte" (.seq [cBool.ser b, cU8.ser x]))) ≤ _
      omega
    | gameMode x y =>
      have h1 := (has_len hF (Has.tuple (.cons (fits_has (unsigned_fits 8) x)
        (.cons (fits_has (unsigned_fits 8) y) .nil))) (by decide +kernel)).1
      rw [show cost (.tuple [.unsigned 8, .unsigned 8]) = 26 by decide +kernel,
        show rate (.tuple [.unsigned 8, .unsigned 8]) = 0 by decide +kernel] at h1
      have h2 := variant_len (fmt := fmt) "GameMode" (.seq [cU8.ser x, cU8.ser y])
      rw [show nameLen "GameMode" = 10 by decide +kernel] at h2
      have : len (compact fmt (.seq [cU8.ser x, cU8.ser y])) ≤ 26 + 0 * _ := h1
      show len (compact fmt (.variant "GameMode" (.seq [cU8.ser x, cU8.ser y]))) ≤ _
      omega
    | title x0 x1 x2 x3 x4 x5 x6 x7 =>
      have h1 := (has_len hF (Has.tuple (.cons (fits_has bool_fits x0) (.cons (fits_has bool_fits x1)
        (.cons (fits_has (unsigned_fits 32) x2) (.cons (fits_has (unsigned_fits 32) x3)
        (.cons (fits_has (unsigned_fits 32) x4) (.cons (fits_has (unsigned_fits 32) x5)
        (.cons (fits_has (unsigned_fits 32) x6) (.cons (fits_has bool_fits x7) .nil)))))))))
        (by decide +kernel)).1
      rw [show cost (.tuple [.bool, .bool, .unsigned 32, .unsigned 32, .unsigned 32, .unsigned 32,
          .unsigned 32, .bool]) = 80 by decide +kernel,
        show rate (.tuple [.bool, .bool, .unsigned 32, .unsigned 32, .unsigned 32, .unsigned 32,
          .unsigned 32, .bool]) = 0 by decide +kernel] at h1
      have h2 := variant_len (fmt := fmt) "Title" (.seq [cBool.ser x0, cBool.ser x1, cU32.ser x2,
        cU32.ser x3, cU32.ser x4, cU32.ser x5, cU32.ser x6, cBool.ser x7])
      rw [show nameLen "Title" = 7 by decide +kernel] at h2
      have : len (compact fmt (.seq [cBool.ser x0, cBool.ser x1, cU32.ser x2,
        cU32.ser x3, cU32.ser x4, cU32.ser x5, cU32.ser x6, cBool.ser x7])) ≤ 80 + 0 * _ := h1
      show len (compact fmt (.variant "Title" (.seq [cBool.ser x0, cBool.ser x1, cU32.ser x2,
        cU32.ser x3, cU32.ser x4, cU32.ser x5, cU32.ser x6, cBool.ser x7]))) ≤ _
      omega
    | pickupInfo x =>
      have h1 := (has_len hF (fits_has pickupInfo_fits x) (by decide +kernel)).1
      rw [show rate pickupInfoShape = 0 by decide +kernel] at h1
      have h3 : cost pickupInfoShape ≤ 300 := by decide +kernel
      have h2 := variant_len (fmt := fmt) "PickupInfo" (cPickupInfo.ser x)
      rw [show nameLen "PickupInfo" = 12 by decide +kernel] at h2
      show len (compact fmt (.variant "PickupInfo" (cPickupInfo.ser x))) ≤ _
      omega
    | _ => cases h

theorem elemsLen_map {α : Type} {f : α → SVal} {g : α → Nat} {c : Nat}
    (h : ∀ x, 1 + len (compact fmt (f x)) ≤ c * g x) (xs : List α) :
    elemsLen fmt (xs.map f) ≤ c * sizes g xs := by
  induction xs with
  | nil => exact Nat.zero_le _
  | cons x xs ih =>
    have := h x
    unfold sizes at ih ⊢
    rw [List.map_cons, List.map_cons, List.sum_cons, elemsLen, Nat.mul_add]
    omega

/-- The text of a list. -/
theorem list_len {α : Type} {f : α → SVal} {g : α → Nat} {c : Nat}
    (h : ∀ x, 1 + len (compact fmt (f x)) ≤ c * g x) (xs : List α) :
    len (compact fmt (.seq (xs.map f))) ≤ 2 + c * sizes g xs := by
  have := elemsLen_map h xs
  rw [seq_len]
  split <;> omega

theorem update_len (hF : ∀ x, Spec.IsFinite x → len (fmt x) ≤ 16) (u : UpdatedAttribute) :
    1 + len (compact fmt (cUpdatedAttribute.ser u)) ≤ 960 * attrSize u.attr := by
  have h1 := attribute_len hF u.attr
  have h2 := attrSize_pos u.attr
  have h3 : ∀ x, len (compact fmt (cI32.ser x)) ≤ 11 := fun x =>
    (has_len hF (fits_has (signed_fits 32 (by decide)) x) (by decide +kernel)).1
  have a := h3 u.actorId
  have b := h3 u.streamId
  have c := h3 u.objectId
  show 1 + len (compact fmt (.map [("actor_id", cI32.ser u.actorId),
    ("stream_id", cI32.ser u.streamId), ("object_id", cI32.ser u.objectId),
    ("attribute", cAttribute.ser u.attr)])) ≤ _
  rw [map_len, fieldsLen, fieldsLen, fieldsLen, fieldsLen, fieldsLen, if_neg (List.cons_ne_nil _ _),
    show nameLen "actor_id" = 10 by decide +kernel, show nameLen "stream_id" = 11 by decide +kernel,
    show nameLen "object_id" = 11 by decide +kernel, show nameLen "attribute" = 11 by decide +kernel]
  omega

theorem f32_len (hF : ∀ x, Spec.IsFinite x → len (fmt x) ≤ 16) (x : F32) : len (compact fmt (.f32 x)) ≤ 16 := by
  have := (has_len hF (Has.f32 (x := x)) rfl).1
  exact this

theorem frame_len (hF : ∀ x, Spec.IsFinite x → len (fmt x) ≤ 16) (f : Frame) :
    1 + len (compact fmt (cFrame.ser f)) ≤ 960 * frameSize f := by
  have h1 := list_len (update_len hF) f.updatedActors
  have h2 := list_len (fmt := fmt) (f := cNewActor.ser) (g := fun _ => 1) (c := 960) (fun x => by
    have := (has_len (fmt := fmt) hF (fits_has newActor_fits x) (by decide +kernel)).1
    rw [extra_newActor, show cost newActorShape = 228 by decide +kernel] at this
    omega) f.newActors
  have h3 := list_len (fmt := fmt) (f := cI32.ser) (g := fun _ => 1) (c := 960) (fun x => by
    have : len (compact fmt (cI32.ser x)) ≤ 11 :=
      (has_len hF (fits_has (signed_fits 32 (by decide)) x) (by decide +kernel)).1
    omega) f.deletedActors
  rw [sizes_length] at h2 h3
  have a := f32_len hF f.time
  have b := f32_len hF f.delta
  show 1 + len (compact fmt (.map [("time", .f32 f.time), ("delta", .f32 f.delta),
    ("new_actors", .seq (f.newActors.map cNewActor.ser)),
    ("deleted_actors", .seq (f.deletedActors.map cI32.ser)),
    ("updated_actors", .seq (f.updatedActors.map cUpdatedAttribute.ser))])) ≤ _
  rw [map_len, fieldsLen, fieldsLen, fieldsLen, fieldsLen, fieldsLen, fieldsLen,
    if_neg (List.cons_ne_nil _ _),
    show nameLen "time" = 6 by decide +kernel, show nameLen "delta" = 7 by decide +kernel,
    show nameLen "new_actors" = 12 by decide +kernel,
    show nameLen "deleted_actors" = 16 by decide +kernel,
    show nameLen "updated_actors" = 16 by decide +kernel]
  unfold frameSize
  omega

theorem frames_len (hF : ∀ x, Spec.IsFinite x → len (fmt x) ≤ 16) (n : NetworkFrames) :
    len (compact fmt (serNetworkFrames n)) ≤ 20 + 960 * sizes frameSize n.frames := by
  have h := list_len (frame_len hF) n.frames
  show len (compact fmt (.map [("frames", .seq (n.frames.map cFrame.ser))])) ≤ _
  rw [map_len, fieldsLen, fieldsLen, if_neg (List.cons_ne_nil _ _),
    show nameLen "frames" = 8 by decide +kernel]
  omega

/-! ## Header values -/

theorem quoted_bytes (s : Str) : len (quoted s) ≤ 2 + 6 * (utf8 s).length := quoted_len s


mutual
theorem serProp_len (hF : ∀ x, Spec.IsFinite x → len (fmt x) ≤ 16) : ∀ v : HeaderProp,
    len (compact fmt (serProp v)) ≤ 2 + 160 * valSize v
  | .array es => by
    have := serElems_len hF es
    rw [serProp, seq_len, valSize]
    split <;> omega
  | .struct n fs => by
    have h1 := serProps_len hF fs
    have h2 := quoted_bytes n
    rw [serProp, map_len, fieldsLen, fieldsLen, fieldsLen, if_neg (List.cons_ne_nil _ _), map_len,
      show nameLen "name" = 6 by decide +kernel, show nameLen "fields" = 8 by decide +kernel,
      valSize, textSize, compact]
    split <;> omega
  | .byte k none => by
    have h2 := quoted_bytes k
    rw [serProp, map_len, fieldsLen, fieldsLen, fieldsLen, if_neg (List.cons_ne_nil _ _),
      show nameLen "kind" = 6 by decide +kernel, show nameLen "value" = 7 by decide +kernel,
      valSize, textSize, compact]
    have : len (compact fmt ((cOption cStr).ser none)) = 4 := by
      show len (compact fmt .null) = 4
      rw [compact]; decide
    omega
  | .byte k (some v) => by
    have h2 := quoted_bytes k
    have h3 := quoted_bytes v
    rw [serProp, map_len, fieldsLen, fieldsLen, fieldsLen, if_neg (List.cons_ne_nil _ _),
      show nameLen "kind" = 6 by decide +kernel, show nameLen "value" = 7 by decide +kernel,
      valSize, textSize, textSize, compact]
    have : len (compact fmt ((cOption cStr).ser (some v))) = len (quoted v) := by
      show len (compact fmt (.str v)) = _
      rw [compact]
    omega
  | .bool b => by
    have : len (compact fmt (.bool b)) ≤ 5 := by rw [compact]; cases b <;> decide
    rw [serProp, valSize] <;> first | omega | (intros; contradiction)
  | .float x => by
    have := f32_len hF x
    rw [serProp, valSize] <;> first | omega | (intros; contradiction)
  | .int i => by
    have : len (compact fmt (cI32.ser i)) ≤ 11 :=
      (has_len hF (fits_has (signed_fits 32 (by decide)) i) (by decide +kernel)).1
    have e : compact fmt (cI32.ser i) = compact fmt (.int i.toInt) := rfl
    rw [e] at this
    rw [serProp, valSize] <;> first | omega | (intros; contradiction)
  | .qword q => by
    have h1 : len (Nat.toDigits 10 q.toNat) ≤ max 20 1 :=
      digits_len (by have := q.isLt; have : 2 ^ 64 < 10 ^ 20 := by decide
                     omega)
    have h2 := quoted_bytes (displayNat q.toNat)
    have h3 : (utf8 (displayNat q.toNat)).length ≤ 20 := h1
    rw [serProp, valSize, compact] <;> first | omega | (intros; contradiction)
  | .name s => by
    have := quoted_bytes s
    rw [serProp, valSize, compact, textSize]
    omega
  | .str s => by
    have := quoted_bytes s
    rw [serProp, valSize, compact, textSize]
    omega
theorem serProps_len (hF : ∀ x, Spec.IsFinite x → len (fmt x) ≤ 16) : ∀ ps : List (Str × HeaderProp),
    fieldsLen fmt (stringKeys (serProps ps)) ≤ 160 * propsSize ps
  | [] => Nat.le_of_eq rfl
  | (k, v) :: ps => by
    have h1 := serProp_len hF v
    have h2 := serProps_len hF ps
    have h3 := quoted_bytes k
    rw [serProps, stringKeys, fieldsLen, propsSize, nameLen, String.toList_ofList, textSize]
    omega
theorem serElems_len (hF : ∀ x, Spec.IsFinite x → len (fmt x) ≤ 16) : ∀ es : List (List (Str × HeaderProp)),
    elemsLen fmt (serElems es) ≤ 160 * elemsSize es
  | [] => Nat.le_of_eq rfl
  | e :: es => by
    have h1 := serProps_len hF e
    have h2 := serElems_len hF es
    rw [serElems, elemsLen, elemsSize, map_len]
    split <;> omega
end

/-! ## A replay -/

theorem str_len (s : Str) : 1 + len (compact fmt (cStr.ser s)) ≤ 160 * textSize s := by
  have := quoted_bytes s
  show 1 + len (compact fmt (.str s)) ≤ _
  rw [compact, textSize]
  omega

theorem shape_len {α : Type} (hF : ∀ x, Spec.IsFinite x → len (fmt x) ≤ 16) {f : α → SVal} {g : α → Nat} {s : Shape}
    (hs : Fits f s) {c r : Nat} (hf : fixed s = true) (hc : cost s = c) (hr : rate s = r)
    (hg : ∀ x, 1 + c + r * extra (f x) ≤ 160 * g x) (xs : List α) :
    len (compact fmt (.seq (xs.map f))) ≤ 2 + 160 * sizes g xs :=
  list_len (fun x => by
    have h1 := (has_len (fmt := fmt) hF (fits_has hs x) hf).1
    have h2 := hg x
    rw [hc, hr] at h1
    omega) xs

theorem text_extra (s : Str) : 6 * extra (.str s) + 160 ≤ 160 * textSize s := by
  rw [extra, textSize]
  have : len s = (utf8 s).length := rfl
  omega

theorem i32_len (hF : ∀ x, Spec.IsFinite x → len (fmt x) ≤ 16) (x : I32) : len (compact fmt (.int x.toInt)) ≤ 11 :=
  (has_len hF (fits_has (signed_fits 32 (by decide)) x) (by decide +kernel)).1

theorem u32_len (hF : ∀ x, Spec.IsFinite x → len (fmt x) ≤ 16) (x : U32) : len (compact fmt (.int x.toNat)) ≤ 11 :=
  (has_len hF (fits_has (unsigned_fits 32) x) (by decide +kernel)).1

theorem strs_len (xs : List Str) :
    len (compact fmt ((cList cStr).ser xs)) ≤ 2 + 160 * sizes textSize xs :=
  list_len str_len xs

theorem keyFrames_len (hF : ∀ x, Spec.IsFinite x → len (fmt x) ≤ 16) (xs : List KeyFrame) :
    len (compact fmt (.seq (xs.map serKeyFrame))) ≤ 2 + 160 * xs.length := by
  have := shape_len hF (g := fun _ => 1) keyFrame_fits (by decide +kernel)
    (show cost _ = 69 by decide +kernel) (show rate _ = 0 by decide +kernel)
    (fun x => by omega) xs
  rwa [sizes_length] at this

theorem debugInfo_len (hF : ∀ x, Spec.IsFinite x → len (fmt x) ≤ 16) (xs : List DebugInfo) :
    len (compact fmt (.seq (xs.map serDebugInfo))) ≤
      2 + 160 * sizes (fun d => textSize d.user + textSize d.text) xs :=
  shape_len hF debugInfo_fits (by decide +kernel)
    (show cost _ = 282 by decide +kernel) (show rate _ = 6 by decide +kernel)
    (fun x => by
      have h1 := text_extra x.user
      have h2 := text_extra x.text
      rw [serDebugInfo, extra, extraFields, extraFields, extraFields, extraFields,
        show extra (.int x.frame.toInt) = 0 from rfl]
      omega) xs

theorem tickMarks_len (hF : ∀ x, Spec.IsFinite x → len (fmt x) ≤ 16) (xs : List TickMark) :
    len (compact fmt (.seq (xs.map serTickMark))) ≤
      2 + 160 * sizes (fun t => textSize t.description) xs :=
  shape_len hF tickMark_fits (by decide +kernel)
    (show cost _ = 159 by decide +kernel) (show rate _ = 6 by decide +kernel)
    (fun x => by
      have h1 := text_extra x.description
      rw [serTickMark, extra, extraFields, extraFields, extraFields,
        show extra (.int x.frame.toInt) = 0 from rfl]
      omega) xs

theorem classIndices_len (hF : ∀ x, Spec.IsFinite x → len (fmt x) ≤ 16) (xs : List ClassIndex) :
    len (compact fmt (.seq (xs.map serClassIndex))) ≤
      2 + 160 * sizes (fun c => textSize c.cls) xs :=
  shape_len hF classIndex_fits (by decide +kernel)
    (show cost _ = 153 by decide +kernel) (show rate _ = 6 by decide +kernel)
    (fun x => by
      have h1 := text_extra x.cls
      rw [serClassIndex, extra, extraFields, extraFields, extraFields,
        show extra (.int x.index.toInt) = 0 from rfl]
      omega) xs

theorem netCache_len (hF : ∀ x, Spec.IsFinite x → len (fmt x) ≤ 16) (xs : List ClassNetCache) :
    len (compact fmt (.seq (xs.map serClassNetCache))) ≤
      2 + 160 * sizes (fun c => 1 + c.properties.length) xs :=
  list_len (fun x => by
    have h := shape_len hF (g := fun _ => 1) cacheProp_fits (by decide +kernel)
      (show cost _ = 51 by decide +kernel) (show rate _ = 0 by decide +kernel)
      (fun x => by omega) x.properties
    rw [sizes_length] at h
    have a := i32_len hF x.objectInd
    have b := i32_len hF x.parentId
    have c := i32_len hF x.cacheId
    rw [serClassNetCache, map_len, fieldsLen, fieldsLen, fieldsLen, fieldsLen, fieldsLen,
      if_neg (List.cons_ne_nil _ _), show nameLen "object_ind" = 12 by decide +kernel,
      show nameLen "parent_id" = 11 by decide +kernel,
      show nameLen "cache_id" = 10 by decide +kernel,
      show nameLen "properties" = 12 by decide +kernel]
    omega) xs

theorem network_len (hF : ∀ x, Spec.IsFinite x → len (fmt x) ≤ 16) (r : Replay) :
    len (compact fmt (match r.networkFrames with
      | none => .null
      | some n => serNetworkFrames n)) ≤ 20 + 960 * framesSize r := by
  unfold framesSize
  cases r.networkFrames with
  | none =>
    show len (compact fmt .null) ≤ _
    rw [compact, show len ['n', 'u', 'l', 'l'] = 4 by decide]; omega
  | some n => exact frames_len hF n

theorem netVersion_len (hF : ∀ x, Spec.IsFinite x → len (fmt x) ≤ 16) (v : Option I32) :
    len (compact fmt ((cOption cI32).ser v)) ≤ 11 := by
  cases v with
  | none =>
    show len (compact fmt .null) ≤ 11
    rw [compact]; decide
  | some x => exact i32_len hF x

theorem properties_len (hF : ∀ x, Spec.IsFinite x → len (fmt x) ≤ 16) (ps : List (Str × HeaderProp)) :
    len (compact fmt (.map (stringKeys (serProps ps)))) ≤ 2 + 160 * propsSize ps := by
  have hp := serProps_len hF ps
  rw [map_len]
  split <;> omega

/-- The members of an object with given lengths of names. -/
theorem fields_le {k : String} {x : SVal} {kvs : List (String × SVal)} {n a b : Nat}
    (hk : nameLen k = n) (hx : len (compact fmt x) ≤ a) (h : fieldsLen fmt kvs ≤ b) :
    fieldsLen fmt ((k, x) :: kvs) ≤ 2 + n + a + b := by
  rw [fieldsLen, hk]
  omega

theorem replay_len (hF : ∀ x, Spec.IsFinite x → len (fmt x) ≤ 16) (r : Replay) :
    len (compact fmt (serReplay r)) ≤ 700 + 160 * filePartSize r + 960 * framesSize r := by
  have hg : len (compact fmt (.str r.gameType)) ≤ 160 * textSize r.gameType :=
    Nat.le_trans (Nat.le_add_left _ 1) (str_len (fmt := fmt) r.gameType)
  have h := fields_le (show nameLen "header_size" = 13 by decide +kernel) (i32_len hF r.headerSize) <|
    fields_le (show nameLen "header_crc" = 12 by decide +kernel) (u32_len hF r.headerCrc) <|
    fields_le (show nameLen "major_version" = 15 by decide +kernel) (i32_len hF r.majorVersion) <|
    fields_le (show nameLen "minor_version" = 15 by decide +kernel) (i32_len hF r.minorVersion) <|
    fields_le (show nameLen "net_version" = 13 by decide +kernel) (netVersion_len hF r.netVersion) <|
    fields_le (show nameLen "game_type" = 11 by decide +kernel) hg <|
    fields_le (show nameLen "properties" = 12 by decide +kernel) (properties_len hF r.properties) <|
    fields_le (show nameLen "content_size" = 14 by decide +kernel) (i32_len hF r.contentSize) <|
    fields_le (show nameLen "content_crc" = 13 by decide +kernel) (u32_len hF r.contentCrc) <|
    fields_le (show nameLen "network_frames" = 16 by decide +kernel) (network_len hF r) <|
    fields_le (show nameLen "levels" = 8 by decide +kernel) (strs_len r.levels) <|
    fields_le (show nameLen "keyframes" = 11 by decide +kernel) (keyFrames_len hF r.keyframes) <|
    fields_le (show nameLen "debug_info" = 12 by decide +kernel) (debugInfo_len hF r.debugInfo) <|
    fields_le (show nameLen "tick_marks" = 12 by decide +kernel) (tickMarks_len hF r.tickMarks) <|
    fields_le (show nameLen "packages" = 10 by decide +kernel) (strs_len r.packages) <|
    fields_le (show nameLen "objects" = 9 by decide +kernel) (strs_len r.objects) <|
    fields_le (show nameLen "names" = 7 by decide +kernel) (strs_len r.names) <|
    fields_le (show nameLen "class_indices" = 15 by decide +kernel)
      (classIndices_len hF r.classIndices) <|
    fields_le (show nameLen "net_cache" = 11 by decide +kernel) (netCache_len hF r.netCache) <|
    Nat.le_of_eq (show fieldsLen fmt [] = 0 from rfl)
  unfold serReplay filePartSize
  rw [map_len, if_neg (List.cons_ne_nil _ _)]
  refine Nat.le_trans (Nat.add_le_add_right (Nat.add_le_add_left h 1) 0) ?_
  clear h hg
  omega

theorem seq_height {α : Type} {f : α → SVal} {s : Shape} (hs : Fits f s) (hf : fixed s = true)
    {c : Nat} (hc : high s ≤ c) (xs : List α) : height (.seq (xs.map f)) ≤ 1 + c := by
  have : heights (xs.map f) ≤ c := by
    induction xs with
    | nil => exact Nat.zero_le _
    | cons x xs ih =>
      have := (has_len (fmt := fun _ => []) (fun _ _ => Nat.zero_le _) (fits_has hs x) hf).2
      rw [List.map_cons, heights]
      omega
  rw [height]
  omega

end Boxcars.Json
