import Verif.Proofs.Stream
import Verif.Props.File
import Verif.Props.NetSample
/-!
# C36: what is written is read back
-/
namespace Boxcars.Props
open Boxcars Spec

theorem netOf_classes {h : Header} {body : ReplayBody} {x : Ctx} {n : Net} (hn : NetOf h body x n) :
    Classes n :=
  fun _ _ hc _ _ hs hlt => declared_lt ((hn.cls _ _).1 hc) hs hlt

/-- C36: the frames written are the frames read, whatever the class table and version and
whatever follows the end marker or the announced number of frames. -/
theorem stream_round_trip (env : Env) (h : Header) (body : ReplayBody) (x : Ctx) (n : Net)
    (hx : CtxOf h body x) (hn : NetOf h body x n) (hr : InRange body.objects body.netCache)
    (hl : body.objects.length ≤ 2 ^ 31) (hd : body.networkData.length < 2 ^ 31)
    (hcap : body.networkData.length * env.frameSize ≤ env.isizeMax)
    (ps : List Plan) (hp : PlansOk n x Known.none ps) (limit : I32)
    (hk : headerInt h "NumFrames" = some limit) (h0 : 0 ≤ limit.toInt)
    (hlen : limit.toNat ≤ body.networkData.length) (o : Bits)
    (he : Ending ps.length limit.toNat o)
    (hb : bytes body.networkData = writePlans n Known.none ps ++ o) :
    Network.parse env h body = .ok ⟨planFrames n Known.none ps⟩ := by
  rw [network_iff env h body hl hd hcap]
  obtain ⟨o', ho'⟩ := plans_rel (netOf_classes hn) (fun _ _ h => h) ps hp he
  unfold NetworkOf
  rw [hk]
  exact ⟨hr, h0, hlen, x, n, o', hx, hn, hb ▸ ho'⟩

/-- C36 for whole files: a header, a body and frames written as a replay file are read back. -/
theorem replay_round_trip (env : Env) (check : CrcCheck) (h : Header) (body : ReplayBody)
    (hh : HeaderOk h) (hbo : BodyOk body) (rest : Spec.Bytes)
    (hl : (encFile h body).length < 2 ^ 31) (hr : (encFile h body ++ rest).length ≤ env.isizeMax)
    (hcap : body.networkData.length * env.frameSize ≤ env.isizeMax) (x : Ctx) (n : Net)
    (hx : CtxOf h body x) (hn : NetOf h body x n) (hR : InRange body.objects body.netCache)
    (ps : List Plan) (hp : PlansOk n x Known.none ps) (limit : I32)
    (hk : headerInt h "NumFrames" = some limit) (h0 : 0 ≤ limit.toInt)
    (hlen : limit.toNat ≤ body.networkData.length) (o : Bits)
    (he : Ending ps.length limit.toNat o)
    (hb : bytes body.networkData = writePlans n Known.none ps ++ o) :
    parseWith check .always env (encFile h body ++ rest) =
      .ok ((fileSections h body).replay (some ⟨planFrames n Known.none ps⟩)) := by
  obtain ⟨_, h2, h3⟩ := fileSecs_sizes (fileSecs_enc hh hbo rest hl)
  exact file_round_trip_network check .always env h body hh hbo rest hl hr _
    (stream_round_trip env h body x n hx hn hR (by have : body.objects.length ≤ 25000 := h2; omega)
      h3 hcap ps hp limit hk h0 hlen o he hb) (by simp)

/-! ## An instance -/

def wroteHeader : Header := ⟨868, 20, some 10, "G".toList, [("NumFrames".toList, .int 3)]⟩

/-- Actors 5 and 300 are announced and updated, 5 is deleted, 300 updated, 5 announced again. -/
def wrotePlan : List Plan :=
  [⟨0x3f800000, 0x3f000000,
     [.new (demoNew 5) false (bounded 22 0 ++ coord 0 1 ++ coord 0 (-2) ++ coord 0 0 ++
        rotation ⟨some 3, none, none⟩),
      .update 5 [⟨0, .boolean true, [true]⟩, ⟨1, .byte 200, field 8 200⟩],
      .new (demoNew 300) true (bounded 22 3 ++ coord 3 1 ++ coord 3 (-2) ++ coord 3 0 ++
        rotation ⟨some 3, none, none⟩)]⟩,
   ⟨0x3fc00000, 0x3f000000, [.delete 5, .update 300 [⟨1, .byte 9, field 8 9⟩]]⟩,
   ⟨0x40000000, 0x3f000000,
     [.new (demoNew 5) false (bounded 22 0 ++ coord 0 1 ++ coord 0 (-2) ++ coord 0 0 ++
        rotation ⟨some 3, none, none⟩)]⟩]

def wroteClass : ClassDef where
  limit := 2
  attr s := if s = 0 then some (.boolean, 2) else if s = 1 then some (.byte, 3) else none

def wroteNet : Net where
  net := 10
  channels := 1023
  named := true
  sticky := 200
  spawn o := if o = 0 ∨ o = 1 then some .locationAndRotation else
    if o = 2 ∨ o = 3 then some .none else none
  cls o := if o = 0 ∨ o = 1 then some wroteClass else none

/-- Bits that belong to no frame. -/
def wroteTail : Bits := [true, true, false, true, true, true, false, false, true]

def wroteData : List Byte :=
  [0, 0, 128, 63, 0, 0, 0, 63, 11, 248, 0, 0, 0, 0, 0, 0, 0, 0, 24, 15, 176, 128, 58, 178,
   44, 125, 0, 0, 0, 16, 0, 0, 0, 96, 68, 7, 15, 0, 0, 0, 248, 7, 0, 0, 224, 103, 1, 178,
   212, 9, 0, 0, 0, 0, 1, 0, 0, 252, 44, 224, 3, 0, 0, 0, 0, 0, 0, 0, 96, 60, 128, 157]

def wroteBody : ReplayBody where
  levels := []
  keyframes := []
  networkData := wroteData
  debugInfo := []
  tickMarks := []
  packages := []
  objects := demoObjects
  names := []
  classIndices := []
  netCache := [⟨1, 0, 0, [⟨2, 0⟩, ⟨3, 1⟩]⟩]

def wroteCtx : Ctx where
  major := 868
  minor := 20
  net := 10
  color := 0
  painted := 0
  titleId := 0
  special := 0
  team := 0
  rl223 := false

theorem wrote_ctx : CtxOf wroteHeader wroteBody wroteCtx where
  major := rfl
  minor := rfl
  net := rfl
  color := by decide +kernel
  painted := by decide +kernel
  titleId := by decide +kernel
  special := by decide +kernel
  team := by decide +kernel
  rl223 := by
    have : headerStr wroteHeader "BuildVersion" = none := by decide +kernel
    rw [this]
    exact ⟨fun h => (by cases h), fun ⟨_, h, _⟩ => (by cases h)⟩

theorem wrote_lineage : Lineage "TAGame.RBActor_TA".toList
    ["TAGame.RBActor_TA".toList, "ProjectX.Pawn_X".toList, "Engine.Pawn".toList,
      "Engine.Actor".toList] := by
  refine .step (p := "ProjectX.Pawn_X".toList) (by decide +kernel) ?_
  refine .step (p := "Engine.Pawn".toList) (by decide +kernel) ?_
  refine .step (p := "Engine.Actor".toList) (by decide +kernel) ?_
  refine .step (p := "Core.Object".toList) (by decide +kernel) ?_
  exact .root (by decide +kernel)

theorem wrote_lineage0 : Lineage "TAGame.Ball_TA".toList
    ("TAGame.Ball_TA".toList :: ["TAGame.RBActor_TA".toList, "ProjectX.Pawn_X".toList,
      "Engine.Pawn".toList, "Engine.Actor".toList]) :=
  .step (by decide +kernel) wrote_lineage

theorem wrote_first {n : Str} {i : Nat} : FirstAt demoObjects n i ↔
    i < 4 ∧ demoObjects[i]? = some n := by
  constructor
  · rintro ⟨h, -⟩
    refine ⟨?_, h⟩
    have := (List.getElem?_eq_some_iff.1 h).1
    exact this
  · rintro ⟨h1, h2⟩
    refine ⟨h2, ?_⟩
    have : ∀ i < 4, ∀ j < i, demoObjects[j]? ≠ demoObjects[i]? := by decide +kernel
    intro j hj
    rw [← h2]
    exact this i h1 j hj

theorem wrote_inherited (s : StreamId) (ns : List Str)
    (hns : ns.filterMap (position demoObjects) = [1] ∨ ns.filterMap (position demoObjects) = [0, 1]) :
    (inherited demoObjects wroteBody.netCache ns s).map
      (fun p => (attrType demoObjects p.objectInd, p.objectInd)) = wroteClass.attr s := by
  have h0 : declared wroteBody.netCache s 0 = none := rfl
  have h1 : (declared wroteBody.netCache s 1).map
      (fun p => (attrType demoObjects p.objectInd, p.objectInd)) = wroteClass.attr s := by
    have a2 : attrType demoObjects 2 = .boolean := by decide +kernel
    have a3 : attrType demoObjects 3 = .byte := by decide +kernel
    have : declared wroteBody.netCache s 1 =
        if s = 1 then some ⟨3, 1⟩ else if s = 0 then some ⟨2, 0⟩ else none := by
      show [(⟨3, 1⟩ : CacheProp), ⟨2, 0⟩].find? _ = _
      simp only [List.find?_cons, List.find?_nil]
      by_cases c1 : s = 1
      · subst c1; rfl
      · by_cases c0 : s = 0
        · subst c0; rfl
        · rw [if_neg c1, if_neg c0]
          rw [show ((1 : StreamId) == s) = false from by simpa using fun h => c1 h.symm,
            show ((0 : StreamId) == s) = false from by simpa using fun h => c0 h.symm]
    rw [this]
    unfold wroteClass
    by_cases c1 : s = 1
    · subst c1; rw [← a3]; rfl
    · by_cases c0 : s = 0
      · subst c0; rw [← a2]; rfl
      · simp only [if_neg c1, if_neg c0]; rfl
  have key : inherited demoObjects wroteBody.netCache ns s =
      (ns.filterMap (position demoObjects)).findSome? (declared wroteBody.netCache s) := by
    unfold inherited
    clear hns
    induction ns with
    | nil => rfl
    | cons n ns ih =>
      rw [List.findSome?_cons, List.filterMap_cons]
      cases hp : position demoObjects n with
      | none => exact ih
      | some i =>
        rw [List.findSome?_cons]
        simp only [Option.bind_some]
        cases declared wroteBody.netCache s i with
        | none => exact ih
        | some x => rfl
  rw [key, ← h1]
  rcases hns with h | h <;> rw [h]
  · simp only [List.findSome?_cons, List.findSome?_nil]
    cases declared wroteBody.netCache s 1 <;> rfl
  · simp only [List.findSome?_cons, h0, List.findSome?_nil]
    cases declared wroteBody.netCache s 1 <;> rfl

theorem wrote_limit : IsLimit (fun s => wroteClass.attr s ≠ none) wroteClass.limit := by
  refine .inr ⟨1, ?_, ?_, by decide +kernel⟩
  · show wroteClass.attr 1 ≠ none
    decide
  · intro t ht
    unfold wroteClass at ht
    by_cases c0 : t = 0
    · subst c0; decide
    · by_cases c1 : t = 1
      · subst c1; decide
      · exact absurd (by simp only [if_neg c0, if_neg c1]) ht

theorem wrote_cls (o : ObjectId) (cd : ClassDef) :
    wroteNet.cls o = some cd ↔ ClassOf wroteBody o cd := by
  have f1 : ClassOf wroteBody 1 wroteClass :=
    ⟨_, _, wrote_first.2 ⟨by decide, by decide +kernel⟩, wrote_lineage, by simp,
      fun s => (wrote_inherited s _ (by decide +kernel)).symm, wrote_limit⟩
  have f0 : ClassOf wroteBody 0 wroteClass :=
    ⟨_, _, wrote_first.2 ⟨by decide, by decide +kernel⟩, wrote_lineage0, by simp,
      fun s => (wrote_inherited s _ (by decide +kernel)).symm, wrote_limit⟩
  constructor
  · intro h
    unfold wroteNet at h
    simp only at h
    split at h
    · cases h
      rename_i ho
      rcases ho with rfl | rfl
      · exact f0
      · exact f1
    · cases h
  · intro h
    have ⟨n, ns, h1, h2, h3, _⟩ := h
    obtain ⟨hlt, hn⟩ := wrote_first.1 h1
    have ho : o = 0 ∨ o = 1 ∨ o = 2 ∨ o = 3 := by
      have : o.toNat = 0 ∨ o.toNat = 1 ∨ o.toNat = 2 ∨ o.toNat = 3 := by omega
      rcases this with h | h | h | h
      · exact .inl (BitVec.eq_of_toNat_eq h)
      · exact .inr (.inl (BitVec.eq_of_toNat_eq h))
      · exact .inr (.inr (.inl (BitVec.eq_of_toNat_eq h)))
      · exact .inr (.inr (.inr (BitVec.eq_of_toNat_eq h)))
    have root : ∀ n, parentOf n = none → Lineage n ns → ns = [] := by
      intro n hp hl
      cases hl with
      | root _ => rfl
      | step h _ => rw [hp] at h; cases h
    rcases ho with rfl | rfl | rfl | rfl
    · rw [classOf_unique h f0]; rfl
    · rw [classOf_unique h f1]; rfl
    · refine absurd (root _ ?_ h2) h3
      have : n = "TAGame.RBActor_TA:bFrozen".toList := (Option.some.inj hn).symm
      rw [this]; decide +kernel
    · refine absurd (root _ ?_ h2) h3
      have : n = "TAGame.RBActor_TA:TeleportCounter".toList := (Option.some.inj hn).symm
      rw [this]; decide +kernel

theorem wrote_spawn (o : ObjectId) (sp : SpawnTrajectory) :
    wroteNet.spawn o = some sp ↔ SpawnOf wroteBody o sp := by
  have f0 : SpawnOf wroteBody 0 .locationAndRotation :=
    ⟨_, by decide +kernel, .inl ⟨wrote_first.2 ⟨by decide, by decide +kernel⟩, _, wrote_lineage0,
      by decide +kernel⟩⟩
  have f1 : SpawnOf wroteBody 1 .locationAndRotation :=
    ⟨_, by decide +kernel, .inl ⟨wrote_first.2 ⟨by decide, by decide +kernel⟩, _, wrote_lineage,
      by decide +kernel⟩⟩
  have f2 : SpawnOf wroteBody 2 .none :=
    ⟨_, rfl, .inl ⟨wrote_first.2 ⟨by decide, rfl⟩, [],
      .root (by decide +kernel), rfl⟩⟩
  have f3 : SpawnOf wroteBody 3 .none :=
    ⟨_, rfl, .inl ⟨wrote_first.2 ⟨by decide, rfl⟩, [],
      .root (by decide +kernel), rfl⟩⟩
  constructor
  · intro h
    unfold wroteNet at h
    simp only at h
    split at h
    · cases h
      rename_i ho
      rcases ho with rfl | rfl
      · exact f0
      · exact f1
    · split at h
      · cases h
        rename_i ho
        rcases ho with rfl | rfl
        · exact f2
        · exact f3
      · cases h
  · intro h
    have ⟨n, hn, _⟩ := h
    have hlt : o.toNat < 4 := (List.getElem?_eq_some_iff.1 hn).1
    have ho : o = 0 ∨ o = 1 ∨ o = 2 ∨ o = 3 := by
      have : o.toNat = 0 ∨ o.toNat = 1 ∨ o.toNat = 2 ∨ o.toNat = 3 := by omega
      rcases this with h | h | h | h
      · exact .inl (BitVec.eq_of_toNat_eq h)
      · exact .inr (.inl (BitVec.eq_of_toNat_eq h))
      · exact .inr (.inr (.inl (BitVec.eq_of_toNat_eq h)))
      · exact .inr (.inr (.inr (BitVec.eq_of_toNat_eq h)))
    rcases ho with rfl | rfl | rfl | rfl
    · rw [spawnOf_unique h f0]; rfl
    · rw [spawnOf_unique h f1]; rfl
    · rw [spawnOf_unique h f2]; rfl
    · rw [spawnOf_unique h f3]; rfl

theorem wrote_net : NetOf wroteHeader wroteBody wroteCtx wroteNet where
  net := rfl
  channels := by decide +kernel
  named := ⟨fun _ => .inl (.inr ⟨by decide, .inr ⟨by decide, by decide⟩⟩), fun _ => rfl⟩
  sticky := rfl
  spawn := wrote_spawn
  cls := wrote_cls

theorem wrote_vec (s : Nat) (hs : s = 0 ∨ s = 3) : SpawnEnc 10 .locationAndRotation
    ⟨some ⟨1, -2, 0⟩, some ⟨some 3, none, none⟩⟩
    (bounded 22 s ++ coord s 1 ++ coord s (-2) ++ coord s 0 ++ rotation ⟨some 3, none, none⟩) := by
  refine ⟨_, _, bounded 22 s ++ (coord s 1 ++ (coord s (-2) ++ coord s 0)), ⟨s, ?_, ?_⟩, ?_, rfl⟩
  · rcases hs with rfl | rfl <;> decide
  · refine ⟨?_, ?_, ?_, rfl⟩ <;> unfold InClass <;> rcases hs with rfl | rfl <;> decide
  · simp only [List.append_assoc]

theorem wrote_ok : PlansOk wroteNet wroteCtx Known.none wrotePlan := by
  have c5 : InChannels wroteNet 5 := by unfold InChannels; decide
  have c300 : InChannels wroteNet 300 := by unfold InChannels; decide
  have hnew : ∀ id : ActorId, ∀ k b s, s = 0 ∨ s = 3 → InChannels wroteNet id →
      RecOk wroteNet wroteCtx k (.new (demoNew id) b (bounded 22 s ++ coord s 1 ++ coord s (-2) ++
        coord s 0 ++ rotation ⟨some 3, none, none⟩)) :=
    fun id k b s hs hi => ⟨hi, rfl, ⟨_, rfl, wrote_vec s hs⟩,
      fun h => by rw [show wroteNet.cls _ = some wroteClass from rfl] at h; cases h⟩
  have ok : ∀ t d : F32, FrameDecoder.outOfRange t = false → FrameDecoder.outOfRange d = false →
      fexp t ≠ 0 → TimeOk t ∧ TimeOk d ∧ ¬(IsZero t ∧ IsZero d) :=
    fun t d h1 h2 h3 => ⟨(outOfRange_iff _).1 h1, (outOfRange_iff _).1 h2, fun h => h3 h.1.1⟩
  obtain ⟨a1, a2, a3⟩ := ok 0x3f800000 0x3f000000 (by decide +kernel) (by decide +kernel)
    (by decide +kernel)
  obtain ⟨b1, b2, b3⟩ := ok 0x3fc00000 0x3f000000 (by decide +kernel) (by decide +kernel)
    (by decide +kernel)
  obtain ⟨d1, d2, d3⟩ := ok 0x40000000 0x3f000000 (by decide +kernel) (by decide +kernel)
    (by decide +kernel)
  refine ⟨a1, a2, a3, ⟨hnew 5 _ _ 0 (.inl rfl) c5, ⟨c5, wroteClass, rfl, ?_⟩,
    hnew 300 _ _ 3 (.inr rfl) c300, trivial⟩, b1, b2, b3,
    ⟨c5, ⟨c300, wroteClass, rfl, ?_⟩, trivial⟩, d1, d2, d3,
    ⟨hnew 5 _ _ 0 (.inl rfl) c5, trivial⟩, trivial⟩
  · intro p hp
    simp only [List.mem_cons, List.not_mem_nil, or_false] at hp
    rcases hp with rfl | rfl
    · exact ⟨.boolean, 2, rfl, by decide, .boolean true⟩
    · exact ⟨.byte, 3, rfl, by decide, .byte 200⟩
  · intro p hp
    simp only [List.mem_cons, List.not_mem_nil, or_false] at hp
    subst hp
    exact ⟨.byte, 3, rfl, by decide, .byte 9⟩

theorem wrote_bits :
    bytes wroteBody.networkData = writePlans wroteNet Known.none wrotePlan ++ wroteTail := by
  decide +kernel

theorem wroteHeader_ok : HeaderOk wroteHeader := by
  refine ⟨by decide, by decide +kernel, ?_⟩
  simp only [wroteHeader, isQuirks, PropsOk, PropOk, ValOk, StrOk]
  decide +kernel

theorem wroteBody_ok : BodyOk wroteBody := by
  unfold BodyOk ListOk StrOk
  exact ⟨by decide +kernel, by decide +kernel, by decide +kernel, by decide +kernel,
    by decide +kernel, by decide +kernel, by decide +kernel, by decide +kernel, by decide +kernel,
    by decide +kernel⟩

/-- All hypotheses hold of the file made of these parts, whatever follows it. -/
example (check : CrcCheck) :
    parseWith check .always Env.default64 (encFile wroteHeader wroteBody ++ [1, 2, 3]) =
      .ok ((fileSections wroteHeader wroteBody).replay
        (some ⟨planFrames wroteNet Known.none wrotePlan⟩)) :=
  replay_round_trip _ check wroteHeader wroteBody wroteHeader_ok wroteBody_ok _
    (by decide +kernel) (Room.of_lt (by decide +kernel)).1 (by decide +kernel) wroteCtx wroteNet wrote_ctx wrote_net
    (by unfold InRange; decide +kernel)
    wrotePlan wrote_ok 3 (by decide +kernel) (by decide) (by decide +kernel) wroteTail
    (.inr (.inl rfl)) wrote_bits

/-- The frames written are not trivial. -/
example : (planFrames wroteNet Known.none wrotePlan).map (fun f => (f.newActors.map (·.actorId),
      f.deletedActors, f.updatedActors.map fun u => (u.actorId, u.streamId, u.attr))) =
    [([5, 300], [], [(5, 0, .boolean true), (5, 1, .byte 200)]), ([], [5], [(300, 1, .byte 9)]),
      ([5], [], [])] := by decide +kernel

end Boxcars.Props
