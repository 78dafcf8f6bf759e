import Verif.Proofs.Schema
import Verif.Props.NetSample
/-!
# C68: the format of serialized replays

The part "Generated" is generated by `tools/gen_schema.py`.
-/
namespace Boxcars.Props
open Boxcars Spec

/-- C68. What is written for a replay are exactly the values of its schema. -/
theorem replay_schema (j : SVal) : (∃ r, serReplay r = j) ↔ Has replayShape j := (replay_fits j).symm

/-- C68. What is written for a header value are exactly the values of the eight shapes. -/
theorem prop_schema (j : SVal) : (∃ p, serProp p = j) ↔ ∃ s ∈ propShapes, Has s j := by
  constructor
  · rintro ⟨p, rfl⟩
    cases serProp_has p with | prop hm h => exact ⟨_, hm, h⟩
  · rintro ⟨s, hm, h⟩
    exact prop_of_has _ (.prop hm h)

/-- C68. What is written for frames are exactly the values of their schema. -/
theorem frames_schema (j : SVal) : (∃ fs, (cList cFrame).ser fs = j) ↔ Has (.list frameShape) j :=
  (list_fits frame_fits j).symm

/-- C68. A value that follows the schema of frames is read as the frames it is written for. -/
theorem schema_read (j : SVal) (h : Has (.list frameShape) j) :
    ∃ fs, (cList cFrame).de j = some fs ∧ (cList cFrame).ser fs = j := by
  obtain ⟨fs, rfl⟩ := (frames_schema j).2 h
  exact ⟨fs, (list_ll Frame_ll.opt).rt fs, rfl⟩

/-- The entries of a written struct, in order. -/
def Entries (j : SVal) (kvs : List (String × SVal)) : Prop := j = .map kvs

/-! ### Generated -/

/-- C68. The fields of a `Vector3f`. -/
theorem vector3f_fields (v : Vector3f) : Entries (cVector3f.ser v) [("x", .f32 v.x),
    ("y", .f32 v.y),
    ("z", .f32 v.z)] := by
  rfl

/-- C68. The fields of a `Vector3i`. -/
theorem vector3i_fields (v : Vector3i) : Entries (cVector3i.ser v) [("x", .int v.x.toInt),
    ("y", .int v.y.toInt),
    ("z", .int v.z.toInt)] := by
  rfl

/-- C68. The fields of a `Quaternion`. -/
theorem quaternion_fields (v : Quaternion) : Entries (cQuaternion.ser v) [("x", .f32 v.x),
    ("y", .f32 v.y),
    ("z", .f32 v.z),
    ("w", .f32 v.w)] := by
  rfl

/-- C68. The fields of a `Rotation`. -/
theorem rotation_fields (v : Rotation) : Entries (cRotation.ser v) [("yaw", v.yaw.elim .null fun y => .int y.toInt),
    ("pitch", v.pitch.elim .null fun y => .int y.toInt),
    ("roll", v.roll.elim .null fun y => .int y.toInt)] := by
  obtain ⟨a0, a1, a2⟩ := v
  cases a0 <;> cases a1 <;> cases a2 <;> rfl

/-- C68. The fields of a `Trajectory`. -/
theorem trajectory_fields (v : Trajectory) : Entries (cTrajectory.ser v) [("location", v.location.elim .null fun y => cVector3i.ser y),
    ("rotation", v.rotation.elim .null fun y => cRotation.ser y)] := by
  obtain ⟨a0, a1⟩ := v
  cases a0 <;> cases a1 <;> rfl

/-- C68. The fields of a `NewActor`. -/
theorem newActor_fields (v : NewActor) : Entries (cNewActor.ser v) [("actor_id", .int v.actorId.toInt),
    ("name_id", v.nameId.elim .null fun y => .int y.toInt),
    ("object_id", .int v.objectId.toInt),
    ("initial_trajectory", cTrajectory.ser v.initialTrajectory)] := by
  obtain ⟨a0, a1, a2, a3⟩ := v
  cases a1 <;> rfl

/-- C68. The fields of a `ActiveActor`. -/
theorem activeActor_fields (v : ActiveActor) : Entries (cActiveActor.ser v) [("active", .bool v.active),
    ("actor", .int v.actor.toInt)] := by
  rfl

/-- C68. The fields of a `CamSettings`. -/
theorem camSettings_fields (v : CamSettings) : Entries (cCamSettings.ser v) [("fov", .f32 v.fov),
    ("height", .f32 v.height),
    ("angle", .f32 v.angle),
    ("distance", .f32 v.distance),
    ("stiffness", .f32 v.stiffness),
    ("swivel", .f32 v.swivel),
    ("transition", v.transition.elim .null fun y => .f32 y)] := by
  obtain ⟨a0, a1, a2, a3, a4, a5, a6⟩ := v
  cases a6 <;> rfl

/-- C68. The fields of a `ClubColors`. -/
theorem clubColors_fields (v : ClubColors) : Entries (cClubColors.ser v) [("blue_flag", .bool v.blueFlag),
    ("blue_color", .int v.blueColor.toNat),
    ("orange_flag", .bool v.orangeFlag),
    ("orange_color", .int v.orangeColor.toNat)] := by
  rfl

/-- C68. The fields of a `AppliedDamage`. -/
theorem appliedDamage_fields (v : AppliedDamage) : Entries (cAppliedDamage.ser v) [("id", .int v.id.toNat),
    ("position", cVector3f.ser v.position),
    ("damage_index", .int v.damageIndex.toInt),
    ("total_damage", .int v.totalDamage.toInt)] := by
  rfl

/-- C68. The fields of a `DamageState`. -/
theorem damageState_fields (v : DamageState) : Entries (cDamageState.ser v) [("tile_state", .int v.tileState.toNat),
    ("damaged", .bool v.damaged),
    ("offender", .int v.offender.toInt),
    ("ball_position", cVector3f.ser v.ballPosition),
    ("direct_hit", .bool v.directHit),
    ("unknown1", .bool v.unknown1)] := by
  rfl

/-- C68. The fields of a `Demolish`. -/
theorem demolish_fields (v : Demolish) : Entries (cDemolish.ser v) [("attacker_flag", .bool v.attackerFlag),
    ("attacker", .int v.attacker.toInt),
    ("victim_flag", .bool v.victimFlag),
    ("victim", .int v.victim.toInt),
    ("attack_velocity", cVector3f.ser v.attackVelocity),
    ("victim_velocity", cVector3f.ser v.victimVelocity)] := by
  rfl

/-- C68. The fields of a `DemolishExtended`. -/
theorem demolishExtended_fields (v : DemolishExtended) : Entries (cDemolishExtended.ser v) [("attacker_pri", cActiveActor.ser v.attackerPri),
    ("self_demo", cActiveActor.ser v.selfDemo),
    ("self_demolish", .bool v.selfDemolish),
    ("goal_explosion_owner", cActiveActor.ser v.goalExplosionOwner),
    ("attacker", cActiveActor.ser v.attacker),
    ("victim", cActiveActor.ser v.victim),
    ("attacker_velocity", cVector3f.ser v.attackerVelocity),
    ("victim_velocity", cVector3f.ser v.victimVelocity)] := by
  rfl

/-- C68. The fields of a `DemolishFx`. -/
theorem demolishFx_fields (v : DemolishFx) : Entries (cDemolishFx.ser v) [("custom_demo_flag", .bool v.customDemoFlag),
    ("custom_demo_id", .int v.customDemoId.toInt),
    ("attacker_flag", .bool v.attackerFlag),
    ("attacker", .int v.attacker.toInt),
    ("victim_flag", .bool v.victimFlag),
    ("victim", .int v.victim.toInt),
    ("attack_velocity", cVector3f.ser v.attackVelocity),
    ("victim_velocity", cVector3f.ser v.victimVelocity)] := by
  rfl

/-- C68. The fields of a `Explosion`. -/
theorem explosion_fields (v : Explosion) : Entries (cExplosion.ser v) [("flag", .bool v.flag),
    ("actor", .int v.actor.toInt),
    ("location", cVector3f.ser v.location)] := by
  rfl

/-- C68. The fields of a `ExtendedExplosion`. -/
theorem extendedExplosion_fields (v : ExtendedExplosion) : Entries (cExtendedExplosion.ser v) [("explosion", cExplosion.ser v.explosion),
    ("unknown1", .bool v.unknown1),
    ("secondary_actor", .int v.secondaryActor.toInt)] := by
  rfl

/-- C68. The fields of a `Loadout`. -/
theorem loadout_fields (v : Loadout) : Entries (cLoadout.ser v) [("version", .int v.version.toNat),
    ("body", .int v.body.toNat),
    ("decal", .int v.decal.toNat),
    ("wheels", .int v.wheels.toNat),
    ("rocket_trail", .int v.rocketTrail.toNat),
    ("antenna", .int v.antenna.toNat),
    ("topper", .int v.topper.toNat),
    ("unknown1", .int v.unknown1.toNat),
    ("unknown2", v.unknown2.elim .null fun y => .int y.toNat),
    ("engine_audio", v.engineAudio.elim .null fun y => .int y.toNat),
    ("trail", v.trail.elim .null fun y => .int y.toNat),
    ("goal_explosion", v.goalExplosion.elim .null fun y => .int y.toNat),
    ("banner", v.banner.elim .null fun y => .int y.toNat),
    ("product_id", v.productId.elim .null fun y => .int y.toNat)] := by
  obtain ⟨a0, a1, a2, a3, a4, a5, a6, a7, a8, a9, a10, a11, a12, a13⟩ := v
  cases a8 <;> cases a9 <;> cases a10 <;> cases a11 <;> cases a12 <;> cases a13 <;> rfl

/-- C68. The fields of a `TeamLoadout`. -/
theorem teamLoadout_fields (v : TeamLoadout) : Entries (cTeamLoadout.ser v) [("blue", cLoadout.ser v.blue),
    ("orange", cLoadout.ser v.orange)] := by
  rfl

/-- C68. The fields of a `StatEvent`. -/
theorem statEvent_fields (v : StatEvent) : Entries (cStatEvent.ser v) [("unknown1", .bool v.unknown1),
    ("object_id", .int v.objectId.toInt)] := by
  rfl

/-- C68. The fields of a `MusicStinger`. -/
theorem musicStinger_fields (v : MusicStinger) : Entries (cMusicStinger.ser v) [("flag", .bool v.flag),
    ("cue", .int v.cue.toNat),
    ("trigger", .int v.trigger.toNat)] := by
  rfl

/-- C68. The fields of a `Pickup`. -/
theorem pickup_fields (v : Pickup) : Entries (cPickup.ser v) [("instigator", v.instigator.elim .null fun y => .int y.toInt),
    ("picked_up", .bool v.pickedUp)] := by
  obtain ⟨a0, a1⟩ := v
  cases a0 <;> rfl

/-- C68. The fields of a `PickupNew`. -/
theorem pickupNew_fields (v : PickupNew) : Entries (cPickupNew.ser v) [("instigator", v.instigator.elim .null fun y => .int y.toInt),
    ("picked_up", .int v.pickedUp.toNat)] := by
  obtain ⟨a0, a1⟩ := v
  cases a0 <;> rfl

/-- C68. The fields of a `Welded`. -/
theorem welded_fields (v : Welded) : Entries (cWelded.ser v) [("active", .bool v.active),
    ("actor", .int v.actor.toInt),
    ("offset", cVector3f.ser v.offset),
    ("mass", .f32 v.mass),
    ("rotation", cRotation.ser v.rotation)] := by
  rfl

/-- C68. The fields of a `TeamPaint`. -/
theorem teamPaint_fields (v : TeamPaint) : Entries (cTeamPaint.ser v) [("team", .int v.team.toNat),
    ("primary_color", .int v.primaryColor.toNat),
    ("accent_color", .int v.accentColor.toNat),
    ("primary_finish", .int v.primaryFinish.toNat),
    ("accent_finish", .int v.accentFinish.toNat)] := by
  rfl

/-- C68. The fields of a `RigidBody`. -/
theorem rigidBody_fields (v : RigidBody) : Entries (cRigidBody.ser v) [("sleeping", .bool v.sleeping),
    ("location", cVector3f.ser v.location),
    ("rotation", cQuaternion.ser v.rotation),
    ("linear_velocity", v.linearVelocity.elim .null fun y => cVector3f.ser y),
    ("angular_velocity", v.angularVelocity.elim .null fun y => cVector3f.ser y)] := by
  obtain ⟨a0, a1, a2, a3, a4⟩ := v
  cases a3 <;> cases a4 <;> rfl

/-- C68. What is written for each variant of `RemoteId`. -/
theorem remoteId_variants :
    (∀ onlineId name unknown1, cRemoteId.ser (.playStation onlineId name unknown1) = .variant "PlayStation" (.map [("online_id", .str (Nat.toDigits 10 onlineId.toNat)), ("name", .str name), ("unknown1", .seq (unknown1.map fun e => .int e.toNat))])) ∧
    (∀ onlineId unknown1, cRemoteId.ser (.psyNet onlineId unknown1) = .variant "PsyNet" (.map [("online_id", .str (Nat.toDigits 10 onlineId.toNat)), ("unknown1", .seq (unknown1.map fun e => .int e.toNat))])) ∧
    (∀ x0, cRemoteId.ser (.splitScreen x0) = .variant "SplitScreen" (.int x0.toNat)) ∧
    (∀ x0, cRemoteId.ser (.steam x0) = .variant "Steam" (.str (Nat.toDigits 10 x0.toNat))) ∧
    (∀ onlineId unknown1, cRemoteId.ser (.switch onlineId unknown1) = .variant "Switch" (.map [("online_id", .str (Nat.toDigits 10 onlineId.toNat)), ("unknown1", .seq (unknown1.map fun e => .int e.toNat))])) ∧
    (∀ x0, cRemoteId.ser (.xbox x0) = .variant "Xbox" (.str (Nat.toDigits 10 x0.toNat))) ∧
    (∀ x0, cRemoteId.ser (.qq x0) = .variant "QQ" (.str (Nat.toDigits 10 x0.toNat))) ∧
    (∀ x0, cRemoteId.ser (.epic x0) = .variant "Epic" (.str x0)) :=
  ⟨fun _ _ _ => rfl, fun _ _ => rfl, fun _ => rfl, fun _ => rfl, fun _ _ => rfl, fun _ => rfl, fun _ => rfl, fun _ => rfl⟩

/-- C68. The fields of a `UniqueId`. -/
theorem uniqueId_fields (v : UniqueId) : Entries (cUniqueId.ser v) [("system_id", .int v.systemId.toNat),
    ("remote_id", cRemoteId.ser v.remoteId),
    ("local_id", .int v.localId.toNat)] := by
  rfl

/-- C68. The fields of a `Reservation`. -/
theorem reservation_fields (v : Reservation) : Entries (cReservation.ser v) [("number", .int v.number.toNat),
    ("unique_id", cUniqueId.ser v.uniqueId),
    ("name", v.name.elim .null fun y => .str y),
    ("unknown1", .bool v.unknown1),
    ("unknown2", .bool v.unknown2),
    ("unknown3", v.unknown3.elim .null fun y => .int y.toNat)] := by
  obtain ⟨a0, a1, a2, a3, a4, a5⟩ := v
  cases a2 <;> cases a5 <;> rfl

/-- C68. The fields of a `PrivateMatchSettings`. -/
theorem privateMatchSettings_fields (v : PrivateMatchSettings) : Entries (cPrivateMatchSettings.ser v) [("mutators", .str v.mutators),
    ("joinable_by", .int v.joinableBy.toNat),
    ("max_players", .int v.maxPlayers.toNat),
    ("game_name", .str v.gameName),
    ("password", .str v.password),
    ("flag", .bool v.flag)] := by
  rfl

/-- C68. What is written for each variant of `ProductValue`. -/
theorem productValue_variants :
    cProductValue.ser .noColor = .unitVariant "NoColor" ∧
    cProductValue.ser .absent = .unitVariant "Absent" ∧
    (∀ x0, cProductValue.ser (.oldColor x0) = .variant "OldColor" (.int x0.toNat)) ∧
    (∀ x0, cProductValue.ser (.newColor x0) = .variant "NewColor" (.int x0.toNat)) ∧
    (∀ x0, cProductValue.ser (.oldPaint x0) = .variant "OldPaint" (.int x0.toNat)) ∧
    (∀ x0, cProductValue.ser (.newPaint x0) = .variant "NewPaint" (.int x0.toNat)) ∧
    (∀ x0, cProductValue.ser (.title x0) = .variant "Title" (.str x0)) ∧
    (∀ x0, cProductValue.ser (.specialEdition x0) = .variant "SpecialEdition" (.int x0.toNat)) ∧
    (∀ x0, cProductValue.ser (.oldTeamEdition x0) = .variant "OldTeamEdition" (.int x0.toNat)) ∧
    (∀ x0, cProductValue.ser (.newTeamEdition x0) = .variant "NewTeamEdition" (.int x0.toNat)) :=
  ⟨rfl, rfl, fun _ => rfl, fun _ => rfl, fun _ => rfl, fun _ => rfl, fun _ => rfl, fun _ => rfl, fun _ => rfl, fun _ => rfl⟩

/-- C68. The fields of a `Product`. -/
theorem product_fields (v : Product) : Entries (cProduct.ser v) [("unknown", .bool v.unknown),
    ("object_ind", .int v.objectInd.toInt),
    ("value", cProductValue.ser v.value)] := by
  rfl

/-- C68. The fields of a `LoadoutsOnline`. -/
theorem loadoutsOnline_fields (v : LoadoutsOnline) : Entries (cLoadoutsOnline.ser v) [("blue", .seq (v.blue.map fun e => .seq (e.map fun ee => cProduct.ser ee))),
    ("orange", .seq (v.orange.map fun e => .seq (e.map fun ee => cProduct.ser ee))),
    ("unknown1", .bool v.unknown1),
    ("unknown2", .bool v.unknown2)] := by
  rfl

/-- C68. The fields of a `RepStatTitle`. -/
theorem repStatTitle_fields (v : RepStatTitle) : Entries (cRepStatTitle.ser v) [("unknown", .bool v.unknown),
    ("name", .str v.name),
    ("unknown2", .bool v.unknown2),
    ("index", .int v.index.toNat),
    ("value", .int v.value.toNat)] := by
  rfl

/-- C68. The fields of a `PickupInfo`. -/
theorem pickupInfo_fields (v : PickupInfo) : Entries (cPickupInfo.ser v) [("available_pickups", .seq [cActiveActor.ser v.availablePickups.1, cActiveActor.ser v.availablePickups.2.1, cActiveActor.ser v.availablePickups.2.2]),
    ("items_are_preview", .bool v.itemsArePreview)] := by
  rfl

/-- C68. The fields of a `Impulse`. -/
theorem impulse_fields (v : Impulse) : Entries (cImpulse.ser v) [("compressed_rotation", .int v.compressedRotation.toInt),
    ("speed", .f32 v.speed)] := by
  rfl

/-- C68. The fields of a `ReplicatedBoost`. -/
theorem replicatedBoost_fields (v : ReplicatedBoost) : Entries (cReplicatedBoost.ser v) [("grant_count", .int v.grantCount.toNat),
    ("boost_amount", .int v.boostAmount.toNat),
    ("unused1", .int v.unused1.toNat),
    ("unused2", .int v.unused2.toNat)] := by
  rfl

/-- C68. The fields of a `LogoData`. -/
theorem logoData_fields (v : LogoData) : Entries (cLogoData.ser v) [("logo_id", .int v.logoId.toNat),
    ("swap_colors", .bool v.swapColors)] := by
  rfl

/-- C68. What is written for each variant of `Attribute`. -/
theorem attribute_variants1 :
    (∀ x0, cAttribute.ser (.boolean x0) = .variant "Boolean" (.bool x0)) ∧
    (∀ x0, cAttribute.ser (.byte x0) = .variant "Byte" (.int x0.toNat)) ∧
    (∀ x0, cAttribute.ser (.appliedDamage x0) = .variant "AppliedDamage" (cAppliedDamage.ser x0)) ∧
    (∀ x0, cAttribute.ser (.damageState x0) = .variant "DamageState" (cDamageState.ser x0)) ∧
    (∀ x0, cAttribute.ser (.camSettings x0) = .variant "CamSettings" (cCamSettings.ser x0)) ∧
    (∀ x0, cAttribute.ser (.clubColors x0) = .variant "ClubColors" (cClubColors.ser x0)) ∧
    (∀ x0, cAttribute.ser (.demolish x0) = .variant "Demolish" (cDemolish.ser x0)) ∧
    (∀ x0, cAttribute.ser (.demolishExtended x0) = .variant "DemolishExtended" (cDemolishExtended.ser x0)) ∧
    (∀ x0, cAttribute.ser (.demolishFx x0) = .variant "DemolishFx" (cDemolishFx.ser x0)) ∧
    (∀ x0, cAttribute.ser (.enum x0) = .variant "Enum" (.int x0.toNat)) ∧
    (∀ x0, cAttribute.ser (.explosion x0) = .variant "Explosion" (cExplosion.ser x0)) :=
  ⟨fun _ => rfl, fun _ => rfl, fun _ => rfl, fun _ => rfl, fun _ => rfl, fun _ => rfl, fun _ => rfl, fun _ => rfl, fun _ => rfl, fun _ => rfl, fun _ => rfl⟩

/-- C68. What is written for each variant of `Attribute`. -/
theorem attribute_variants2 :
    (∀ x0, cAttribute.ser (.extendedExplosion x0) = .variant "ExtendedExplosion" (cExtendedExplosion.ser x0)) ∧
    (∀ x0 x1, cAttribute.ser (.flaggedByte x0 x1) = .variant "FlaggedByte" (.seq [.bool x0, .int x1.toNat])) ∧
    (∀ x0, cAttribute.ser (.activeActor x0) = .variant "ActiveActor" (cActiveActor.ser x0)) ∧
    (∀ x0, cAttribute.ser (.float x0) = .variant "Float" (.f32 x0)) ∧
    (∀ x0 x1, cAttribute.ser (.gameMode x0 x1) = .variant "GameMode" (.seq [.int x0.toNat, .int x1.toNat])) ∧
    (∀ x0, cAttribute.ser (.int x0) = .variant "Int" (.int x0.toInt)) ∧
    (∀ x0, cAttribute.ser (.int64 x0) = .variant "Int64" (.str (displayInt x0.toInt))) ∧
    (∀ x0, cAttribute.ser (.loadout x0) = .variant "Loadout" (cLoadout.ser x0)) ∧
    (∀ x0, cAttribute.ser (.teamLoadout x0) = .variant "TeamLoadout" (cTeamLoadout.ser x0)) ∧
    (∀ x0, cAttribute.ser (.location x0) = .variant "Location" (cVector3f.ser x0)) ∧
    (∀ x0, cAttribute.ser (.musicStinger x0) = .variant "MusicStinger" (cMusicStinger.ser x0)) :=
  ⟨fun _ => rfl, fun _ _ => rfl, fun _ => rfl, fun _ => rfl, fun _ _ => rfl, fun _ => rfl, fun _ => rfl, fun _ => rfl, fun _ => rfl, fun _ => rfl, fun _ => rfl⟩

/-- C68. What is written for each variant of `Attribute`. -/
theorem attribute_variants3 :
    (∀ x0, cAttribute.ser (.playerHistoryKey x0) = .variant "PlayerHistoryKey" (.int x0.toNat)) ∧
    (∀ x0, cAttribute.ser (.pickup x0) = .variant "Pickup" (cPickup.ser x0)) ∧
    (∀ x0, cAttribute.ser (.pickupNew x0) = .variant "PickupNew" (cPickupNew.ser x0)) ∧
    (∀ x0, cAttribute.ser (.qWord x0) = .variant "QWord" (.str (Nat.toDigits 10 x0.toNat))) ∧
    (∀ x0, cAttribute.ser (.welded x0) = .variant "Welded" (cWelded.ser x0)) ∧
    (∀ x0 x1 x2 x3 x4 x5 x6 x7, cAttribute.ser (.title x0 x1 x2 x3 x4 x5 x6 x7) = .variant "Title" (.seq [.bool x0, .bool x1, .int x2.toNat, .int x3.toNat, .int x4.toNat, .int x5.toNat, .int x6.toNat, .bool x7])) ∧
    (∀ x0, cAttribute.ser (.teamPaint x0) = .variant "TeamPaint" (cTeamPaint.ser x0)) ∧
    (∀ x0, cAttribute.ser (.rigidBody x0) = .variant "RigidBody" (cRigidBody.ser x0)) ∧
    (∀ x0, cAttribute.ser (.string x0) = .variant "String" (.str x0)) ∧
    (∀ x0, cAttribute.ser (.uniqueId x0) = .variant "UniqueId" (cUniqueId.ser x0)) ∧
    (∀ x0, cAttribute.ser (.reservation x0) = .variant "Reservation" (cReservation.ser x0)) :=
  ⟨fun _ => rfl, fun _ => rfl, fun _ => rfl, fun _ => rfl, fun _ => rfl, fun _ _ _ _ _ _ _ _ => rfl, fun _ => rfl, fun _ => rfl, fun _ => rfl, fun _ => rfl, fun _ => rfl⟩

/-- C68. What is written for each variant of `Attribute`. -/
theorem attribute_variants4 :
    (∀ x0, cAttribute.ser (.partyLeader x0) = .variant "PartyLeader" (x0.elim .null fun y => cUniqueId.ser y)) ∧
    (∀ x0, cAttribute.ser (.privateMatch x0) = .variant "PrivateMatch" (cPrivateMatchSettings.ser x0)) ∧
    (∀ x0, cAttribute.ser (.loadoutOnline x0) = .variant "LoadoutOnline" (.seq (x0.map fun e => .seq (e.map fun ee => cProduct.ser ee)))) ∧
    (∀ x0, cAttribute.ser (.loadoutsOnline x0) = .variant "LoadoutsOnline" (cLoadoutsOnline.ser x0)) ∧
    (∀ x0, cAttribute.ser (.statEvent x0) = .variant "StatEvent" (cStatEvent.ser x0)) ∧
    (∀ x0, cAttribute.ser (.rotation x0) = .variant "Rotation" (cRotation.ser x0)) ∧
    (∀ x0, cAttribute.ser (.repStatTitle x0) = .variant "RepStatTitle" (cRepStatTitle.ser x0)) ∧
    (∀ x0, cAttribute.ser (.pickupInfo x0) = .variant "PickupInfo" (cPickupInfo.ser x0)) ∧
    (∀ x0, cAttribute.ser (.impulse x0) = .variant "Impulse" (cImpulse.ser x0)) ∧
    (∀ x0, cAttribute.ser (.replicatedBoost x0) = .variant "ReplicatedBoost" (cReplicatedBoost.ser x0)) ∧
    (∀ x0, cAttribute.ser (.logoData x0) = .variant "LogoData" (cLogoData.ser x0)) :=
  ⟨by rintro (_ | _) <;> rfl, fun _ => rfl, fun _ => rfl, fun _ => rfl, fun _ => rfl, fun _ => rfl, fun _ => rfl, fun _ => rfl, fun _ => rfl, fun _ => rfl, fun _ => rfl⟩

/-- C68. The fields of a `UpdatedAttribute`. -/
theorem updatedAttribute_fields (v : UpdatedAttribute) : Entries (cUpdatedAttribute.ser v) [("actor_id", .int v.actorId.toInt),
    ("stream_id", .int v.streamId.toInt),
    ("object_id", .int v.objectId.toInt),
    ("attribute", cAttribute.ser v.attr)] := by
  rfl

/-- C68. The fields of a `Frame`. -/
theorem frame_fields (v : Frame) : Entries (cFrame.ser v) [("time", .f32 v.time),
    ("delta", .f32 v.delta),
    ("new_actors", .seq (v.newActors.map fun e => cNewActor.ser e)),
    ("deleted_actors", .seq (v.deletedActors.map fun e => .int e.toInt)),
    ("updated_actors", .seq (v.updatedActors.map fun e => cUpdatedAttribute.ser e))] := by
  rfl

/-- C68. The fields of a `NetworkFrames`. -/
theorem networkFrames_fields (v : NetworkFrames) : Entries (serNetworkFrames v) [("frames", .seq (v.frames.map fun e => cFrame.ser e))] := by
  rfl

/-- C68. The fields of a `TickMark`. -/
theorem tickMark_fields (v : TickMark) : Entries (serTickMark v) [("description", .str v.description),
    ("frame", .int v.frame.toInt)] := by
  rfl

/-- C68. The fields of a `KeyFrame`. -/
theorem keyFrame_fields (v : KeyFrame) : Entries (serKeyFrame v) [("time", .f32 v.time),
    ("frame", .int v.frame.toInt),
    ("position", .int v.position.toInt)] := by
  rfl

/-- C68. The fields of a `DebugInfo`. -/
theorem debugInfo_fields (v : DebugInfo) : Entries (serDebugInfo v) [("frame", .int v.frame.toInt),
    ("user", .str v.user),
    ("text", .str v.text)] := by
  rfl

/-- C68. The fields of a `ClassIndex`. -/
theorem classIndex_fields (v : ClassIndex) : Entries (serClassIndex v) [("class", .str v.cls),
    ("index", .int v.index.toInt)] := by
  rfl

/-- C68. The fields of a `CacheProp`. -/
theorem cacheProp_fields (v : CacheProp) : Entries (serCacheProp v) [("object_ind", .int v.objectInd.toInt),
    ("stream_id", .int v.streamId.toInt)] := by
  rfl

/-- C68. The fields of a `ClassNetCache`. -/
theorem classNetCache_fields (v : ClassNetCache) : Entries (serClassNetCache v) [("object_ind", .int v.objectInd.toInt),
    ("parent_id", .int v.parentId.toInt),
    ("cache_id", .int v.cacheId.toInt),
    ("properties", .seq (v.properties.map fun e => serCacheProp e))] := by
  rfl

/-- C68. The fields of a `Replay`. -/
theorem replay_fields (v : Replay) : Entries (serReplay v) [("header_size", .int v.headerSize.toInt),
    ("header_crc", .int v.headerCrc.toNat),
    ("major_version", .int v.majorVersion.toInt),
    ("minor_version", .int v.minorVersion.toInt),
    ("net_version", v.netVersion.elim .null fun y => .int y.toInt),
    ("game_type", .str v.gameType),
    ("properties", .map (stringKeys (serProps v.properties))),
    ("content_size", .int v.contentSize.toInt),
    ("content_crc", .int v.contentCrc.toNat),
    ("network_frames", v.networkFrames.elim .null fun y => serNetworkFrames y),
    ("levels", .seq (v.levels.map fun e => .str e)),
    ("keyframes", .seq (v.keyframes.map fun e => serKeyFrame e)),
    ("debug_info", .seq (v.debugInfo.map fun e => serDebugInfo e)),
    ("tick_marks", .seq (v.tickMarks.map fun e => serTickMark e)),
    ("packages", .seq (v.packages.map fun e => .str e)),
    ("objects", .seq (v.objects.map fun e => .str e)),
    ("names", .seq (v.names.map fun e => .str e)),
    ("class_indices", .seq (v.classIndices.map fun e => serClassIndex e)),
    ("net_cache", .seq (v.netCache.map fun e => serClassNetCache e))] := by
  obtain ⟨a0, a1, a2, a3, a4, a5, a6, a7, a8, a9, a10, a11, a12, a13, a14, a15, a16, a17, a18⟩ := v
  cases a4 <;> cases a9 <;> rfl

/-- What is read of a color: 256 is none, and neither is a color under another name. -/
example : (∃ v, cClubColors.ser v = .map [("blue_flag", .bool true), ("blue_color", .int 255),
      ("orange_flag", .bool false), ("orange_color", .int 0)]) ∧
    (¬∃ v, cClubColors.ser v = .map [("blue_flag", .bool true), ("blue_color", .int 256),
      ("orange_flag", .bool false), ("orange_color", .int 0)]) ∧
    ¬∃ v, cClubColors.ser v = .map [("blue_flag", .bool true), ("blue", .int 255),
      ("orange_flag", .bool false), ("orange_color", .int 0)] := by
  refine ⟨⟨⟨true, 255, false, 0⟩, rfl⟩, ?_, ?_⟩
  · rintro ⟨v, h⟩
    have h := (clubColors_fits _).2 ⟨v, h⟩
    cases h with | struct h =>
    cases h with | cons _ h =>
    cases h with | cons h _ =>
    cases h with | unsigned h => exact absurd h (by decide)
  · rintro ⟨v, h⟩
    rw [clubColors_fields v, SVal.map.injEq, List.cons.injEq, List.cons.injEq] at h
    exact absurd (Prod.mk.inj h.2.1).1 (by decide)

/-- The frames of a parsed replay, with attributes, follow the schema. -/
example : ∃ r fs, parseWith .always .always Env.default64 demo = .ok r ∧ r.networkFrames = some ⟨fs⟩ ∧
    fs ≠ [] ∧ Has (.list frameShape) ((cList cFrame).ser fs) ∧ Has replayShape (serReplay r) := by
  obtain ⟨r, h, hn, _⟩ := demo_ok
  exact ⟨r, demoFrames, h, hn, by simp [demoFrames], (frames_schema _).1 ⟨_, rfl⟩, (replay_schema _).1 ⟨_, rfl⟩⟩

end Boxcars.Props
