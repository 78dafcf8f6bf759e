import Verif.Model.Network
import Verif.Proofs.FramesSpec
/-!
# C42: version gates
-/
namespace Boxcars.Props
open Boxcars

/-- A version, as three numbers. -/
def triple (v : VersionTriplet) : Int × Int × Int := (v.major.toInt, v.minor.toInt, v.net.toInt)

/-- `x` is not newer than `y`: lexicographic order of triples. -/
def Older (x y : Int × Int × Int) : Prop :=
  x.1 < y.1 ∨ (x.1 = y.1 ∧ (x.2.1 < y.2.1 ∨ (x.2.1 = y.2.1 ∧ x.2.2 ≤ y.2.2)))

/-- The order is a total order. -/
theorem older_total (x y : Int × Int × Int) : Older x y ∨ Older y x := by
  unfold Older; omega

theorem older_trans (x y z : Int × Int × Int) (h : Older x y) (h' : Older y z) : Older x z := by
  unfold Older at *; omega

theorem older_antisymm (x y : Int × Int × Int) (h : Older x y) (h' : Older y x) : x = y := by
  obtain ⟨a, b, c⟩ := x
  obtain ⟨d, e, f⟩ := y
  unfold Older at *
  simp only [Prod.mk.injEq] at *
  omega

/-- C42. A version gate is the lexicographic comparison. -/
theorem gate (v : VersionTriplet) (a b c : Int) :
    v.ge a b c = true ↔ Older (a, b, c) (triple v) := by
  unfold VersionTriplet.ge Older triple
  simp only
  split
  · simp only [decide_eq_true_eq]; omega
  · split
    · simp only [decide_eq_true_eq]; omega
    · simp only [decide_eq_true_eq]; omega

/-- C42. A gate that is open is open for every newer version. -/
theorem gate_monotone (v w : VersionTriplet) (h : Older (triple v) (triple w)) (a b c : Int)
    (hv : v.ge a b c = true) : w.ge a b c = true := by
  rw [gate] at *
  exact older_trans _ _ _ hv h

example : (⟨868, 20, 1⟩ : VersionTriplet).ge 868 20 0 = true ∧
    (⟨868, 19, 99⟩ : VersionTriplet).ge 868 20 0 = false ∧
    (⟨869, 0, 0⟩ : VersionTriplet).ge 868 20 0 = true ∧
    (⟨-1, 0, 0⟩ : VersionTriplet).ge 868 20 0 = false := by decide

/-- Two versions between which the decoder makes no difference: the same side of five
thresholds, and the same side of three thresholds of the third number. -/
structure SameLayout (v w : VersionTriplet) : Prop where
  v12 : Older (868, 12, 0) (triple v) ↔ Older (868, 12, 0) (triple w)
  v14 : Older (868, 14, 0) (triple v) ↔ Older (868, 14, 0) (triple w)
  v18 : Older (868, 18, 0) (triple v) ↔ Older (868, 18, 0) (triple w)
  v20 : Older (868, 20, 0) (triple v) ↔ Older (868, 20, 0) (triple w)
  v23 : Older (868, 23, 8) (triple v) ↔ Older (868, 23, 8) (triple w)
  net1 : 1 ≤ v.net.toInt ↔ 1 ≤ w.net.toInt
  net7 : 7 ≤ v.net.toInt ↔ 7 ≤ w.net.toInt
  net10 : 10 ≤ v.net.toInt ↔ 10 ≤ w.net.toInt

theorem SameLayout.ge {v w : VersionTriplet} {a b c : Int}
    (h : Older (a, b, c) (triple v) ↔ Older (a, b, c) (triple w)) : v.ge a b c = w.ge a b c := by
  rw [Bool.eq_iff_iff, gate, gate]
  exact h

section
variable {v w : VersionTriplet} (h : SameLayout v w)
include h

theorem vectorMax_same : vectorMax v.netVersion = vectorMax w.netVersion := by
  unfold vectorMax VersionTriplet.netVersion
  have := h.net7
  by_cases h1 : 7 ≤ v.net.toInt
  · rw [if_pos h1, if_pos (this.1 h1)]
  · rw [if_neg h1, if_neg (fun h2 => h1 (this.2 h2))]

theorem vector3i_same : Vector3i.decode v.netVersion = Vector3i.decode w.netVersion := by
  unfold Vector3i.decode Vector3i.eofDecode
  rw [vectorMax_same h]

theorem vector3f_same : Vector3f.decode v.netVersion = Vector3f.decode w.netVersion := by
  unfold Vector3f.decode
  rw [vector3i_same h]

theorem explosion_same : decodeExplosion v.netVersion = decodeExplosion w.netVersion := by
  unfold decodeExplosion
  rw [vector3f_same h]

theorem trajectory_same (sp : SpawnTrajectory) :
    Trajectory.fromSpawn sp v.netVersion = Trajectory.fromSpawn sp w.netVersion := by
  unfold Trajectory.fromSpawn
  rw [vector3i_same h]

theorem remoteId_same (s : Byte) : decodeRemoteId v.netVersion s = decodeRemoteId w.netVersion s := by
  unfold decodeRemoteId VersionTriplet.netVersion
  have h2 : v.net.toInt < 10 ↔ w.net.toInt < 10 := by have := h.net10; omega
  simp only [ge_iff_le, h.net1, h2]

theorem uniqueIdWith_same (s : Byte) :
    decodeUniqueIdWith v.netVersion s = decodeUniqueIdWith w.netVersion s := by
  unfold decodeUniqueIdWith
  rw [remoteId_same h]

theorem uniqueId_same : decodeUniqueId v.netVersion = decodeUniqueId w.netVersion := by
  unfold decodeUniqueId
  funext env r
  simp only [uniqueIdWith_same h]

theorem product_same (p : ProductDecoder) (o : ObjectId) :
    ProductDecoder.decode { p with version := v } o =
      ProductDecoder.decode { p with version := w } o := by
  unfold ProductDecoder.decode
  simp only [SameLayout.ge h.v18, SameLayout.ge h.v23]

/-- C42. Attribute decoding depends on the version through these thresholds only. -/
theorem decode_same (p : ProductDecoder) (rl : Bool) (tag : AttributeTag) :
    AttrDecoder.decode ⟨v, { p with version := v }, rl⟩ tag =
      AttrDecoder.decode ⟨w, { p with version := w }, rl⟩ tag := by
  have h7 : v.netVersion.toInt ≥ 7 ↔ w.netVersion.toInt ≥ 7 := h.net7
  cases tag <;>
    simp only [AttrDecoder.decode, AttrDecoder.decodeUncommon, AttrDecoder.appliedDamage,
      AttrDecoder.damageState, AttrDecoder.camSettings, AttrDecoder.demolish,
      AttrDecoder.demolishFx, AttrDecoder.demolishExtended, AttrDecoder.extendedExplosion,
      AttrDecoder.welded, AttrDecoder.rigidBody, AttrDecoder.reservation,
      AttrDecoder.partyLeader, AttrDecoder.gameMode, AttrDecoder.loadoutsOnline,
      AttrDecoder.onlineLoadout, AttrDecoder.decodeProduct,
      vector3f_same h, explosion_same h, uniqueId_same h, uniqueIdWith_same h, product_same h,
      SameLayout.ge h.v12, SameLayout.ge h.v20, h7]

end

/-- What `decode_frames` takes from the decoder. -/
structure SameDecoder (d d' : FrameDecoder) : Prop where
  len : d.framesLen = d'.framesLen
  bits : d.channelBits = d'.channelBits
  channels : d.maxChannels = d'.maxChannels
  attrs : d.objectIndAttributes = d'.objectIndAttributes
  objects : d.objects = d'.objects
  data : d.networkData = d'.networkData
  newActor : ∀ id, d.parseNewActor id = d'.parseNewActor id
  decode : ∀ tag, d.attrDecoder.decode tag = d'.attrDecoder.decode tag

section
variable {d d' : FrameDecoder} (h : SameDecoder d d')
include h

theorem updateLoop_same (id : ActorId) (o : ObjectId) (c : CacheInfo) (fuel : Nat) (st : FrameSt) :
    FrameDecoder.updateLoop d.attrDecoder id o c fuel st =
      FrameDecoder.updateLoop d'.attrDecoder id o c fuel st := by
  induction fuel generalizing st with
  | zero => rfl
  | succ fuel ih => simp only [FrameDecoder.updateLoop, h.decode, ih]

theorem actorLoop_same (fuel : Nat) (st : FrameSt) :
    FrameDecoder.actorLoop d d.attrDecoder fuel st =
      FrameDecoder.actorLoop d' d'.attrDecoder fuel st := by
  induction fuel generalizing st with
  | zero => rfl
  | succ fuel ih =>
    simp only [FrameDecoder.actorLoop, updateLoop_same h, h.bits, h.channels, h.attrs, h.newActor,
      ih]

theorem framesLoop_same (b fuel : Nat) (fs : List Frame) (as : SegArray (ObjectId × CacheInfo)) :
    FrameDecoder.framesLoop d d.attrDecoder b fuel fs as =
      FrameDecoder.framesLoop d' d'.attrDecoder b fuel fs as := by
  induction fuel generalizing fs as with
  | zero => rfl
  | succ fuel ih =>
    simp only [FrameDecoder.framesLoop, FrameDecoder.decodeFrame, FrameDecoder.context,
      actorLoop_same h, h.len, h.attrs, h.objects, ih]

end

theorem _root_.Boxcars.FrameDecoder.decodeFrames_fault (d : FrameDecoder) (env : Env) (r : Reader)
    (h : env.isizeMax < d.framesLen * env.frameSize) :
    d.decodeFrames env r = .fault .capacity := by
  unfold FrameDecoder.decodeFrames
  refine BM.bind_fault ?_
  unfold FrameDecoder.reserveFrames
  rw [if_pos h]

theorem decodeFrames_same (env : Env) (d d' : FrameDecoder) (h : SameDecoder d d') (r : Reader) :
    Network.runBM env d.decodeFrames r = Network.runBM env d'.decodeFrames r := by
  by_cases hc : d.framesLen * env.frameSize ≤ env.isizeMax
  · rw [FrameDecoder.decodeFrames_run d env hc,
      FrameDecoder.decodeFrames_run d' env (by rw [← h.len]; exact hc)]
    unfold FrameDecoder.allFrames
    rw [framesLoop_same h, h.len, h.data]
  · unfold Network.runBM
    rw [FrameDecoder.decodeFrames_fault d env r (by omega),
      FrameDecoder.decodeFrames_fault d' env r (by rw [← h.len]; omega)]

/-- C42. Parsing network data depends on the version through these thresholds only. -/
theorem parse_same (env : Env) (h h' : Header) (body : ReplayBody)
    (hv : SameLayout (Network.version h) (Network.version h')) (hp : h'.properties = h.properties) :
    Network.parse env h body = Network.parse env h' body := by
  have hf : ∀ {α : Type} k (f : HeaderProp → Option α), h'.findProp k f = h.findProp k f := by
    intro α k f; unfold Header.findProp; rw [hp]
  have e1 : Network.maxChannels h' = Network.maxChannels h := by
    unfold Network.maxChannels Header.maxChannels; rw [hf]
  have e3 : Network.isLan h' = Network.isLan h := by
    unfold Network.isLan Header.matchType; rw [hf]
  have e4 : Network.isRl223 h' = Network.isRl223 h := by
    unfold Network.isRl223 Header.buildVersion; rw [hf]
  have e5 : h'.numFrames = h.numFrames := by unfold Header.numFrames; rw [hf]
  have key : ∀ n sp ca, Network.runBM env (Network.frameDecoder h body n sp ca).decodeFrames
        (Reader.new body.networkData) =
      Network.runBM env (Network.frameDecoder h' body n sp ca).decodeFrames
        (Reader.new body.networkData) := by
    intro n sp ca
    refine decodeFrames_same env _ _ ⟨?_, ?_, ?_, ?_, ?_, ?_, ?_, ?_⟩ _
    · rfl
    · unfold Network.frameDecoder Network.channelBits; simp only; rw [e1]
    · unfold Network.frameDecoder; simp only; rw [e1]
    · rfl
    · rfl
    · rfl
    · intro id
      unfold FrameDecoder.parseNewActor FrameDecoder.doParseName Network.frameDecoder
      simp only [SameLayout.ge hv.v20, SameLayout.ge hv.v14, trajectory_same hv, e3]
    · intro tag
      unfold FrameDecoder.attrDecoder Network.frameDecoder
      simp only [e4]
      exact decode_same hv ⟨Network.version h, _, _, _, _, _⟩ _ tag
  unfold Network.parse
  simp only [e5, key]

/-- The condition holds for different versions, such as 868.20.10 and 868.20.12. -/
example : SameLayout ⟨868, 20, 10⟩ ⟨868, 20, 12⟩ := by
  constructor <;> simp only [Older, triple] <;> decide

/-- C42. Not all gates are lexicographic: the layout of locations depends on the third number
alone, so that a newer version can have the older layout.  Version 869.0.0 is newer than
868.20.10, but its size classes are those of versions below 7. -/
theorem newer_reverts :
    Older (triple ⟨868, 20, 10⟩) (triple ⟨869, 0, 0⟩) ∧
    Older (triple ⟨868, 20, 6⟩) (triple ⟨868, 20, 10⟩) ∧
    vectorMax (⟨868, 20, 6⟩ : VersionTriplet).netVersion = 20 ∧
    vectorMax (⟨868, 20, 10⟩ : VersionTriplet).netVersion = 22 ∧
    vectorMax (⟨869, 0, 0⟩ : VersionTriplet).netVersion = 20 := by
  unfold Older triple; decide

/-- C42, the gates on the third number: monotone in that number. -/
theorem net_gate_monotone_partial (v w : VersionTriplet) (k : Int)
    (h : v.net.toInt ≤ w.net.toInt) (hv : k ≤ v.netVersion.toInt) : k ≤ w.netVersion.toInt :=
  Int.le_trans hv h

end Boxcars.Props
