import Verif.Spec.Network
/-!
# Histories: the records of a sequence of frames, in order
-/
namespace Boxcars.Spec

/-- The record announces an actor with this id. -/
def Announces (id : ActorId) : Event → Prop
  | .new a => a.actorId = id
  | _ => False

/-- The frame contains the effects of exactly these records, in order. -/
def FrameOfRecords (f : Frame) (es : List Event) : Prop :=
  f.newActors = news es ∧ f.deletedActors = deletes es ∧ f.updatedActors = updates es

/-- The frames contain the effects of exactly these records. -/
def Records (fs : List Frame) (ess : List (List Event)) : Prop :=
  List.Forall₂ FrameOfRecords fs ess

/-- `a` is the latest announcement of `id` in a history. -/
def Latest (id : ActorId) (a : NewActor) (before : List Event) : Prop :=
  ∃ b1 b2, before = b1 ++ .new a :: b2 ∧ a.actorId = id ∧ ∀ e ∈ b2, ¬Announces id e

/-- The kind of value an attribute type has. -/
inductive HasType : AttributeTag → Attribute → Prop where
  | boolean {v} : HasType .boolean (.boolean v)
  | byte {v} : HasType .byte (.byte v)
  | appliedDamage {v} : HasType .appliedDamage (.appliedDamage v)
  | damageState {v} : HasType .damageState (.damageState v)
  | camSettings {v} : HasType .camSettings (.camSettings v)
  | clubColors {v} : HasType .clubColors (.clubColors v)
  | demolish {v} : HasType .demolish (.demolish v)
  | demolishExtended {v} : HasType .demolishExtended (.demolishExtended v)
  | demolishFx {v} : HasType .demolishFx (.demolishFx v)
  | enum {v} : HasType .enum (.enum v)
  | explosion {v} : HasType .explosion (.explosion v)
  | extendedExplosion {v} : HasType .extendedExplosion (.extendedExplosion v)
  | flaggedByte {b v} : HasType .flaggedByte (.flaggedByte b v)
  | activeActor {v} : HasType .activeActor (.activeActor v)
  | float {v} : HasType .float (.float v)
  | gameMode {w v} : HasType .gameMode (.gameMode w v)
  | int {v} : HasType .int (.int v)
  | int64 {v} : HasType .int64 (.int64 v)
  | loadout {v} : HasType .loadout (.loadout v)
  | teamLoadout {v} : HasType .teamLoadout (.teamLoadout v)
  | location {v} : HasType .location (.location v)
  | musicStinger {v} : HasType .musicStinger (.musicStinger v)
  | playerHistoryKey {v} : HasType .playerHistoryKey (.playerHistoryKey v)
  | pickup {v} : HasType .pickup (.pickup v)
  | pickupNew {v} : HasType .pickupNew (.pickupNew v)
  | qWord {v} : HasType .qWordString (.qWord v)
  | qWordString {v} : HasType .qWordString (.string v)
  | welded {v} : HasType .welded (.welded v)
  | title {a b c e f g h i} : HasType .title (.title a b c e f g h i)
  | teamPaint {v} : HasType .teamPaint (.teamPaint v)
  | rigidBody {v} : HasType .rigidBody (.rigidBody v)
  | string {v} : HasType .string (.string v)
  | uniqueId {v} : HasType .uniqueId (.uniqueId v)
  | reservation {v} : HasType .reservation (.reservation v)
  | partyLeader {v} : HasType .partyLeader (.partyLeader v)
  | privateMatch {v} : HasType .privateMatchSettings (.privateMatch v)
  | loadoutOnline {v} : HasType .loadoutOnline (.loadoutOnline v)
  | loadoutsOnline {v} : HasType .loadoutsOnline (.loadoutsOnline v)
  | statEvent {v} : HasType .statEvent (.statEvent v)
  | rotation {v} : HasType .rotationTag (.rotation v)
  | repStatTitle {v} : HasType .repStatTitle (.repStatTitle v)
  | pickupInfo {v} : HasType .pickupInfo (.pickupInfo v)
  | impulse {v} : HasType .impulse (.impulse v)
  | replicatedBoost {v} : HasType .replicatedBoost (.replicatedBoost v)
  | logoData {v} : HasType .logoData (.logoData v)

/-- Initial location and rotation as prescribed. -/
def Placed (sp : SpawnTrajectory) (t : Trajectory) : Prop :=
  (t.location.isSome ↔ sp ≠ .none) ∧ (t.rotation.isSome ↔ sp = .locationAndRotation)

/-- Completed frames at the start of a stream: their records, the actors announced
afterwards and what follows. -/
inductive FramesAt (n : Net) (A : AttrRel) :
    Known → List Frame → List (List Event) → Known → Bits → Bits → Prop where
  | nil {known i} : FramesAt n A known [] [] known i i
  | cons {known f es fs ess k i j o} : FrameRel n A known f es i j →
      FramesAt n A (known.afterAll n es) fs ess k j o →
      FramesAt n A known (f :: fs) (es :: ess) k i o

/-- Records at the start of a frame: the actors announced afterwards and what follows. -/
inductive EventsAt (n : Net) (A : AttrRel) : Known → List Event → Known → Bits → Bits → Prop where
  | nil {known i} : EventsAt n A known [] known i i
  | cons {known e es k i j o} : n.channels.log2 + 2 ≤ i.length → EventRel n A known e i j →
      EventsAt n A (known.after n e) es k j o → EventsAt n A known (e :: es) k (true :: i) o

/-- The frames `fs` of a replay, with records `ess`, have been read; `j` is the rest of the
network section and another frame is due. -/
structure Reading (h : Header) (body : ReplayBody) (c : Ctx) (n : Net) (fs : List Frame)
    (ess : List (List Event)) (known : Known) (j : Bits) : Prop where
  inRange : InRange body.objects body.netCache
  count : ∃ k, headerInt h "NumFrames" = some k ∧ 0 ≤ k.toInt ∧
    k.toNat ≤ body.networkData.length ∧ fs.length < k.toNat
  ctx : CtxOf h body c
  net : NetOf h body c n
  frames : FramesAt n (AttrAccepts c) Known.none fs ess known (bytes body.networkData) j
  more : j ≠ []

end Boxcars.Spec
