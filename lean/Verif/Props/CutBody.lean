import Verif.Proofs.CutBody
import Verif.Props.Ranges
/-!
# C93: which rigid bodies are cut by the end of the data
-/
namespace Boxcars.Props
open Boxcars Spec

variable {env : Env}

/-- The bits of one frame: an actor is announced and updated with a value and a last one. -/
def cutBits (n : Net) (w w' : Bits) : Bits :=
  Spec.field 32 (0x3f800000 : F32) ++ (Spec.field 32 (0x3f800000 : F32) ++
    (true :: (actorId n 0 ++ (true :: true :: ((if n.named = true then Spec.field 32 (0 : I32) else []) ++
      ([false] ++ (Spec.field 32 (0 : I32) ++ ([] ++
        (true :: (actorId n 0 ++ (true :: false :: (true :: (bounded 9 0 ++ (w ++
          (true :: (bounded 9 0 ++ (w' ++ [false, false])))))))))))))))))

theorem cutBits_frames {n : Net} {c : Ctx} (hcls : n.cls 0 = some (probeClass .rigidBody))
    (hsp : n.spawn 0 = some .none) {v v' : Attribute} {w w' : Bits}
    (hv : AttrEnc c .rigidBody v w)
    (hv' : AttrAccepts c .rigidBody v' (w' ++ [false, false]) [false, false]) (k : Nat) :
    FramesRel n (AttrAccepts c) (k + 1) Known.none
      [⟨0x3f800000, 0x3f800000, [⟨0, if n.named = true then some 0 else none, 0, ⟨none, none⟩⟩], [],
        [⟨0, 0, 1, v⟩, ⟨0, 0, 1, v'⟩]⟩] (cutBits n w w') [] := by
  have hone : TimeOk 0x3f800000 ∧ ¬(IsZero 0x3f800000 ∧ IsZero 0x3f800000) :=
    ⟨(outOfRange_iff _).1 (by decide +kernel), fun h => absurd h.1.1 (by decide +kernel)⟩
  have hin : InChannels n 0 :=
    Nat.lt_of_lt_of_le (by decide : (0 : ActorId).toNat < 1) (Nat.le_max_right _ _)
  refine .frame (es := [.new ⟨0, if n.named = true then some 0 else none, 0, ⟨none, none⟩⟩,
    .update 0 [⟨0, 0, 1, v⟩, ⟨0, 0, 1, v'⟩]])
    ⟨hone.1, hone.1, hone.2, rfl, rfl, rfl, _, rfl, .event (.new hin ⟨_, false, .none, [], ?_, hsp,
      ⟨rfl, rfl⟩, rfl⟩ hcls) (.event (.update hin (obj := 0) ?_ hcls ?_) .done)⟩ .empty
  · by_cases hn : n.named = true
    · rw [if_pos hn, if_pos hn]; exact .inl ⟨hn, 0, rfl, rfl⟩
    · rw [if_neg hn, if_neg hn]; exact .inr ⟨hn, rfl, rfl⟩
  · rfl
  · exact .prop (by decide) rfl (.inl ⟨w, hv, rfl⟩) (.prop (by decide) rfl hv' .done)

/-- C93. Every body that can be cut occurs: in any version, in a file that ends with it. -/
theorem cut_body_occurs (h64 : env.usizeBits = 64) (check : CrcCheck) {h : Header}
    (hh : HeaderOk h) {k : I32} (hk : headerInt h "NumFrames" = some k) (hk0 : 0 < k.toInt)
    (hk8 : k.toNat ≤ 8) {name : String} (hm : (name, .rigidBody) ∈ attributesTable)
    {more : List Str} (hmore : ListOk TextOk more) (hl : more.length ≤ 24998)
    {c : Ctx} (hc : CtxOf h (probeBody name.toList more []) c) {b : RigidBody}
    (hb : CutBodyOf c b) (hs : (encFile h (probeBody name.toList more [])).length ≤ 2 ^ 30) :
    ∃ data r f x u, parseWith check .always env data = .ok r ∧ r.networkFrames = some ⟨[f]⟩ ∧
      f.updatedActors = [x, u] ∧ u.attr = .rigidBody b ∧
      r.objects[u.objectId.toNat]? = some name.toList ∧ headerOf r = h ∧ data.length < 2 ^ 31 := by
  have ht : (attributeTag name.toList).getD .notImplemented = .rigidBody := by
    rw [attributeTag_of_mem hm]; rfl
  obtain ⟨n, hn0⟩ := net_exists h (probeBody name.toList more []) c
  have hcls : n.cls 0 = some (probeClass .rigidBody) := (hn0.cls _ _).2 (probe_class ht _ _)
  have hsp : n.spawn 0 = some .none := (hn0.spawn _ _).2 (probe_spawn _ _ _)
  have hch : n.channels < 2 ^ 32 := by rw [hn0.channels]; exact BitVec.isLt _
  have ha : (actorId n 0).length ≤ 33 := by
    unfold actorId
    refine Nat.le_trans (bounded_length_le _ _) ?_
    by_cases h0 : n.channels = 0
    · rw [h0]; decide
    · have := (Nat.log2_lt h0).2 hch
      omega
  obtain ⟨w', rb, hw', hrb, htr⟩ := cut_written hb
  have hlen : ∀ w, (cutBits n w w').length = (cutBits n [] w').length + w.length := by
    intro w
    unfold cutBits
    simp only [List.length_append, List.length_cons, List.length_nil]
    omega
  obtain ⟨v, w, hv, hw, hmod⟩ := sleeping_written hrb (cutBits n [] w').length
  rw [← hlen] at hmod
  have hf : ∀ x : BitVec 32, (Spec.field 32 x).length = 32 := fun x => bits_length _ _
  have h9 : (bounded 9 0).length = 4 := by decide
  have hnm : (if n.named = true then Spec.field 32 (0 : I32) else []).length ≤ 32 := by
    split
    · rw [hf]
    · exact Nat.zero_le _
  have hbd : 64 ≤ (cutBits n w w').length ∧ (cutBits n w w').length ≤ 1000 := by
    unfold cutBits
    simp only [List.length_append, List.length_cons, List.length_nil, hf, h9]
    omega
  obtain ⟨blob, hb1, hb2⟩ := bytes_of_bits ((cutBits n w w').length / 8) (cutBits n w w') (by omega)
  have hlt : (encFile h (probeBody name.toList more blob)).length < 2 ^ 31 := by
    rw [probe_length, hb1]; omega
  have hbig := small64 h64 hlt
  have hcap := hbig.cap (n := blob.length) (by rw [probe_length]; omega) (by omega)
  have hkk : k.toNat = k.toNat - 1 + 1 := by
    have : 0 < k.toNat := by
      have := BitVec.toInt_eq_toNat_cond k
      split at this <;> omega
    omega
  have hrel := cutBits_frames hcls hsp hv (.inr ⟨rfl, b, rfl, htr false false⟩) (k.toNat - 1)
  rw [← hkk, ← hb2] at hrel
  have hp := (network_iff env h (probeBody name.toList more blob)
    (by show more.length + 1 + 1 ≤ _; omega) (by show blob.length < _; omega) hcap _).2
    ⟨probe_range _ _ _, by
      rw [hk]
      exact ⟨by omega, (by show k.toNat ≤ blob.length; omega), c, n, _,
        ⟨hc.major, hc.minor, hc.net, hc.color, hc.painted, hc.titleId, hc.special, hc.team, hc.rl223⟩,
        ⟨hn0.net, hn0.channels, hn0.named, hn0.sticky, hn0.spawn, hn0.cls⟩, hrel⟩⟩
  have := file_round_trip_network check .always env h _ hh
    (probeBody_ok (textOk_short (Nat.le_trans (attribute_short hm) (by decide))) hmore hl (by omega))
    [] hlt (by rw [List.append_nil]; exact hbig.1.1) _ hp (by simp)
  rw [List.append_nil] at this
  exact ⟨_, _, _, _, _, this, rfl, rfl, rfl, rfl, rfl, hlt⟩

/-- A header of any net version. -/
def netHeader (net : I32) : Header := ⟨868, 32, some net, "G".toList, [("NumFrames".toList, .int 1)]⟩

theorem netHeader_ok (net : I32) : HeaderOk (netHeader net) := by
  refine ⟨?_, by show TextOk "G".toList; decide +kernel, ?_⟩
  · exact ⟨fun _ => (by decide : 865 < (868 : I32).toInt ∧ 17 < (32 : I32).toInt), fun _ => rfl⟩
  · simp only [netHeader, isQuirks, PropsOk, PropOk, ValOk, StrOk]
    decide +kernel

theorem netHeader_length (net : I32) : (encHeader (netHeader net)).length ≤ 200 := by
  have h : (encHeader (netHeader net)).length = (encHeader (netHeader 0)).length := by
    unfold encHeader netHeader
    simp only [List.length_append, word_length]
    rfl
  rw [h]
  decide +kernel

/-- C93. Exactly the described bodies occur with a velocity missing although they are awake. -/
theorem cut_body_iff (d : Ctx) {b : RigidBody} (hsl : b.sleeping = false)
    (hn : b.linearVelocity = none ∨ b.angularVelocity = none) :
    (∃ check data r fs f u, Small Env.default64 data ∧
      parseWith check .always Env.default64 data = .ok r ∧ r.networkFrames = some ⟨fs⟩ ∧ f ∈ fs ∧
      u ∈ f.updatedActors ∧ u.attr = .rigidBody b ∧ r.netVersion.getD 0#32 = d.net) ↔
    CutBodyOf d b := by
  have same : ∀ {c : Ctx}, c.net = d.net → (CutBodyOf c b ↔ CutBodyOf d b) := by
    intro c h
    simp only [CutBodyOf, CutBody, PlacedBody, h]
  constructor
  · rintro ⟨check, data, r, fs, f, u, hs, h, hf, hm, hu, hb, hv⟩
    obtain ⟨c, hc, hr⟩ := value_ranges hs.1.1 h hf
    have hnet : c.net = d.net := by rw [← hv]; exact hc.net
    obtain ⟨name, tag, _, _, h1 | ⟨_, b', h2, h3⟩⟩ := hr f hm u hu
    · rw [hb] at h1
      cases tag <;> try exact h1.elim
      rcases hn with hn | hn
      · have := h1.2.2.2.1.2 hsl
        rw [hn] at this; cases this
      · have := h1.2.2.2.2.2 hsl
        rw [hn] at this; cases this
    · rw [hb] at h2
      cases h2
      exact (same hnet).1 h3
  · intro hb
    have hl := probeFile_length (netHeader d.net) (name := "TAGame.RBActor_TA:ReplicatedRBState".toList)
      (by decide +kernel) []
    have hc := ctxOf_attrDecoderOf (netHeader d.net)
      (probeBody "TAGame.RBActor_TA:ReplicatedRBState".toList [] [])
    obtain ⟨data, r, f, x, u, h1, h2, h3, h4, _, h5, h6⟩ := cut_body_occurs (env := Env.default64) rfl .always
      (netHeader_ok d.net) (k := 1) rfl (by decide) (by decide)
      (name := "TAGame.RBActor_TA:ReplicatedRBState") (more := []) (by decide +kernel)
      ⟨by decide, by simp⟩ (by decide) hc ((same (by exact hc.net)).2 hb) (by
        have := netHeader_length d.net
        simp only [List.length_nil] at hl
        omega)
    refine ⟨.always, data, r, _, f, u, ?_, h1, h2, List.mem_singleton_self f, ?_, h4, ?_⟩
    · exact small64 rfl h6
    · rw [h3]; simp
    · have := congrArg Header.netVersion h5
      have h7 : r.netVersion = some d.net := this
      rw [h7]; rfl

/-- A body at the origin without a linear velocity, with this angular velocity. -/
def skippedBody (w : Vector3f) : RigidBody :=
  ⟨false, ⟨centi 0, centi 0, centi 0⟩, ⟨oldQuatComp 0, oldQuatComp 0, oldQuatComp 0, 0⟩, none, some w⟩

/-- Before net version 7 an angular velocity of 1310.71 is left, with a missing linear one. -/
example : ∃ check data r fs f u, Small Env.default64 data ∧
    parseWith check .always Env.default64 data = .ok r ∧ r.networkFrames = some ⟨fs⟩ ∧ f ∈ fs ∧
    u ∈ f.updatedActors ∧ u.attr = .rigidBody (skippedBody ⟨centi 131071, centi 0, centi 0⟩) ∧
    r.netVersion.getD 0#32 = 5 := by
  have hz : Coord 5 0 := ⟨by decide, by decide⟩
  have hv : Slow 5 ⟨centi 131071, centi 0, centi 0⟩ :=
    ⟨131071, 0, 0, by decide, by decide, by decide, rfl⟩
  have hg : Hundredths 5 ⟨centi 131071, centi 0, centi 0⟩ :=
    ⟨131071, 0, 0, ⟨by decide, by decide⟩, hz, hz, rfl⟩
  refine (cut_body_iff { recentDecoder.ctx with net := 5 } rfl (.inl rfl)).2
    ⟨⟨⟨⟨0, 0, 0, hz, hz, hz, rfl⟩, ?_⟩, fun w h => (by cases h), fun w h => ?_, rfl, .inl rfl⟩,
      fun w _ h => ?_⟩
  · rw [if_neg (by decide)]
    show OldRotation ⟨oldQuatComp 0, oldQuatComp 0, oldQuatComp 0, 0⟩
    exact ⟨0, 0, 0, by decide, by decide, by decide, rfl⟩
  · rw [← Option.some.inj h]; exact hg
  · rw [← Option.some.inj h]; exact hv

end Boxcars.Props
