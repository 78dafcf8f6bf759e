import Verif.Proofs.CutNet
import Verif.Props.Damage
import Verif.Props.CutShort
/-!
# C97: network data that ends too early is recognised
-/
namespace Boxcars.Props
open Spec

theorem continued_ctx {h : Header} {b b' : ReplayBody} (hd : Continued b b') {c : Ctx} {n : Net}
    (hc : CtxOf h b c) (hn : NetOf h b c n) : CtxOf h b' c ∧ NetOf h b' c n := by
  constructor
  · refine ⟨hc.major, hc.minor, hc.net, ?_, ?_, ?_, ?_, ?_, hc.rl223⟩ <;> rw [hd.objects]
    · exact hc.color
    · exact hc.painted
    · exact hc.titleId
    · exact hc.special
    · exact hc.team
  · refine ⟨hn.net, hn.channels, hn.named, hn.sticky, ?_, ?_⟩
    · intro o sp; rw [hn.spawn]; unfold SpawnOf; rw [hd.objects]
    · intro o cd; rw [hn.cls]; unfold ClassOf; rw [hd.objects, hd.netCache]

theorem continued_bits {b b' : ReplayBody} (hd : Continued b b') :
    ∃ t, bytes b'.networkData = bytes b.networkData ++ t := by
  obtain ⟨t, ht⟩ := hd.data
  refine ⟨bytes t, ?_⟩
  rw [← ht]
  unfold bytes
  rw [List.flatMap_append]

theorem continued_resized {b b' : ReplayBody} (hd : Continued b b') :
    Resized (8 * b.networkData.length) b b' := by
  refine ⟨hd.objects, hd.netCache, ?_⟩
  obtain ⟨t, ht⟩ := continued_bits hd
  rw [ht, ← BSpec.bytes_length, List.take_left, List.take_length]

/-- C97. An error that does not ask for more data is that of the continued data as well, unless
the end of the data has made velocities absent. -/
theorem network_final (env : Env) {h : Header} {b b' : ReplayBody} (hd : Continued b b')
    (hl : b.objects.length ≤ 2 ^ 31) (hlen : b'.networkData.length < 2 ^ 31)
    (hcap : b'.networkData.length * env.frameSize ≤ env.isizeMax) {x : NetworkError}
    (hp : Network.parse env h b = .err x) (hx : ¬AwaitsMore x)
    (hm : OutcomeMoves (Network.parse env h b)) : Network.parse env h b' = .err x := by
  have hle := hd.data.length_le
  rw [network_err_iff env h b' (by rw [hd.objects]; exact hl) hlen hcap]
  have ht : tableOf b' = tableOf b := by unfold tableOf; rw [hd.objects, hd.netCache]
  rw [hp] at hm
  rw [ht]
  cases network_err env h b hl (by omega) hp with
  | index h1 h2 h3 =>
    exact .index (by rw [hd.netCache]; exact h1) (by rw [hd.objects]; exact h2)
      (by rw [hd.objects]; exact h3)
  | count h1 h2 h3 =>
    exact .count (by rw [hd.objects, hd.netCache]; exact h1) h2 (fun h => hx h.1)
  | frame h1 h2 h3 h4 h5 h6 h7 h8 h9 =>
    obtain ⟨t, e⟩ := continued_bits hd
    obtain ⟨g1, g2⟩ := continued_ctx hd h5 h6
    refine .frame (by rw [hd.objects, hd.netCache]; exact h1) h2 h3 (by omega) g1 g2 ?_
      (by rw [hd.objects]; exact h8) h9
    rw [e]
    have m1 := hm.1
    have m2 := hm.2
    rw [h8.frames] at m1
    rw [h8.updatedActors] at m2
    exact framesFail_final h7 hx m1 m2 t

/-- The frames reported with an error are those at the start of the data. -/
theorem reported_whole (env : Env) {h : Header} {b : ReplayBody} (hl : b.objects.length ≤ 2 ^ 31)
    (hlen : b.networkData.length < 2 ^ 31) {e : FrameError} {ctx : FrameContext}
    (hp : Network.parse env h b = .err (.frameError e ctx)) :
    ∃ k, headerInt h "NumFrames" = some k ∧ 0 ≤ k.toInt ∧ k.toNat ≤ b.networkData.length ∧
      ctx.frames.length < k.toNat ∧ Whole h b (8 * b.networkData.length) ctx.frames := by
  cases network_err env h b hl hlen hp with
  | frame h1 h2 h3 h4 h5 h6 h7 h8 h9 =>
    obtain ⟨ess, j, g1, g2, g3, g4⟩ := framesFail_iff.1 h7
    rw [h8.frames]
    exact ⟨_, h2, h3, h4, g2, h1, _, _, _, _, _, h5, h6, g1, by rw [BSpec.bytes_length]; omega⟩

/-- C97. What is decoded of data, or reported with the error, is the start of what is decoded of
the continued data, or reported with its error, under the same condition. -/
theorem network_continued (env : Env) {h : Header} {b b' : ReplayBody} (hd : Continued b b')
    (hl : b.objects.length ≤ 2 ^ 31) (hlen : b'.networkData.length < 2 ^ 31)
    (hcap : b'.networkData.length * env.frameSize ≤ env.isizeMax)
    (hm : OutcomeMoves (Network.parse env h b)) :
    outcomeFrames (Network.parse env h b) <+: outcomeFrames (Network.parse env h b') := by
  have hle := hd.data.length_le
  have key : ∀ {fs : List Frame} {k : I32}, headerInt h "NumFrames" = some k → 0 ≤ k.toInt →
      k.toNat ≤ b.networkData.length → fs.length ≤ k.toNat → AllMove fs →
      Whole h b (8 * b.networkData.length) fs →
      fs <+: outcomeFrames (Network.parse env h b') := by
    intro fs k hk h0 hkl hf ha hw
    obtain ⟨more, e⟩ | ⟨x, ctx, e, hpre⟩ :=
      resized_spares env (continued_resized hd) hl hlen hcap hk h0 (by omega) hw ha hf
    · rw [e]; exact List.prefix_append _ _
    · rw [e]; exact hpre
  cases hp : Network.parse env h b with
  | fault f => exact List.nil_prefix
  | ok f =>
    obtain ⟨fs⟩ := f
    rw [hp] at hm
    cases hk : headerInt h "NumFrames" with
    | none =>
      have := network_ok env h b hl (by omega) hp
      unfold NetworkOf at this
      rw [hk] at this
      obtain ⟨_, rfl⟩ := this
      exact List.nil_prefix
    | some k =>
      have hok := network_ok env h b hl (by omega) hp
      unfold NetworkOf at hok
      rw [hk] at hok
      obtain ⟨_, h0, hkl, _, _, _, _, _, hrel⟩ := hok
      exact key hk h0 hkl (framesRel_limit hrel) hm (decoded_whole env hl (by omega) hk hp)
  | err x =>
    rw [hp] at hm
    cases x with
    | streamTooLargeIndex _ _ => exact List.nil_prefix
    | tooManyFrames _ => exact List.nil_prefix
    | frameError e ctx =>
      obtain ⟨k, hk, h0, hkl, hf, hw⟩ := reported_whole env hl (by omega) hp
      exact key hk h0 hkl (Nat.le_of_lt hf) hm.1 hw

/-- C97, as far as it holds: if network data is read and its end is then cut off, what is left
gives the first frames, or an error that asks for more data and reports the first frames. The
full statement is without `hm`: that the cut leaves no awake body without velocities. It fails,
see `cut_misread`. -/
theorem cut_network_partial (env : Env) {h : Header} {b b' : ReplayBody} (hd : Continued b b')
    (hl : b.objects.length ≤ 2 ^ 31) (hlen : b'.networkData.length < 2 ^ 31)
    (hcap : b'.networkData.length * env.frameSize ≤ env.isizeMax) {fs : List Frame}
    (hp : Network.parse env h b' = .ok ⟨fs⟩) (hm : OutcomeMoves (Network.parse env h b)) :
    outcomeFrames (Network.parse env h b) <+: fs ∧
    ((∃ f, Network.parse env h b = .ok f) ∨
      ∃ x, Network.parse env h b = .err x ∧ AwaitsMore x) := by
  have h1 := network_continued env hd hl hlen hcap hm
  have hcap' : b.networkData.length * env.frameSize ≤ env.isizeMax :=
    Nat.le_trans (Nat.mul_le_mul_right _ hd.data.length_le) hcap
  rw [hp] at h1
  refine ⟨h1, ?_⟩
  cases hq : Network.parse env h b with
  | ok f => exact .inl ⟨f, rfl⟩
  | fault x =>
    exact absurd hq ((network_agn env env h b hl
      (Nat.lt_of_le_of_lt hd.data.length_le hlen) hcap' hcap').2 x)
  | err x =>
    refine .inr ⟨x, rfl, Classical.byContradiction fun hx => ?_⟩
    rw [network_final env hd hl hlen hcap hq hx hm] at hp
    cases hp

/-! The condition is needed: data cut within the linear velocity of a body. The size of the
velocity is read and the velocity is taken for absent, as is the other one; the bits after the two
sizes are taken for the next record, that of an actor which was never announced. -/

def misreadData : List Byte :=
  [0, 0, 128, 63, 0, 0, 0, 63, 11, 248, 0, 0, 0, 0, 0, 0, 0, 0, 24, 177, 128, 2, 35, 0, 0, 2, 0, 8,
   0, 96, 173, 14, 16]

set_option maxRecDepth 100000 in
/-- The unrestricted claim of C97 fails: the data is read with more behind it, and without it the
error is a missing actor. -/
theorem cut_misread : ∃ f x,
    Network.parse Env.default64 endHeader (endBody (misreadData ++ List.replicate 30 0)) = .ok f ∧
    Network.parse Env.default64 endHeader (endBody misreadData) = .err x ∧ ¬AwaitsMore x := by
  have h1 : (match Network.parse Env.default64 endHeader
      (endBody (misreadData ++ List.replicate 30 0)) with
      | .ok _ => true
      | _ => false) = true := by decide +kernel
  have h2 : (match Network.parse Env.default64 endHeader (endBody misreadData) with
      | .err (.frameError (.missingActor 3) _) => true
      | _ => false) = true := by decide +kernel
  cases p1 : Network.parse Env.default64 endHeader
      (endBody (misreadData ++ List.replicate 30 0)) with
  | err x => rw [p1] at h1; cases h1
  | fault f => rw [p1] at h1; cases h1
  | ok f =>
    cases p2 : Network.parse Env.default64 endHeader (endBody misreadData) with
    | ok a => rw [p2] at h2; cases h2
    | fault f => rw [p2] at h2; cases h2
    | err x =>
      refine ⟨f, x, rfl, rfl, ?_⟩
      rw [p2] at h2
      split at h2
      · next heq => cases heq; exact id
      · cases h2

/-! Instances: an update of an actor that was not announced is an error whatever follows, and
frames cut off ask for more data. -/

def strayData : List Byte := [0, 0, 128, 63, 0, 0, 0, 63, 7, 8]

set_option maxRecDepth 100000 in
example (more : List Byte) (hm : more.length ≤ 1000000) : ∃ ctx,
    Network.parse Env.default64 endHeader (endBody (strayData ++ more)) =
      .err (.frameError (.missingActor 3) ctx) := by
  have h2 : (match Network.parse Env.default64 endHeader (endBody strayData) with
      | .err (.frameError (.missingActor 3) ctx) =>
        ctx.frames.isEmpty && ctx.updatedActors.isEmpty
      | _ => false) = true := by decide +kernel
  have hd : Continued (endBody strayData) (endBody (strayData ++ more)) :=
    ⟨rfl, rfl, List.prefix_append _ _⟩
  have hlen : (endBody (strayData ++ more)).networkData.length ≤ 1000010 := by
    change (strayData ++ more).length ≤ _
    rw [List.length_append]
    have : strayData.length = 10 := rfl
    omega
  split at h2
  · next ctx heq =>
    simp only [Bool.and_eq_true, List.isEmpty_iff] at h2
    refine ⟨ctx, network_final Env.default64 hd (by decide) (by omega) ?_ heq id ?_⟩
    · exact Nat.le_trans (Nat.mul_le_mul_right _ hlen) (by decide)
    · rw [heq]
      refine ⟨?_, ?_⟩
      · rw [h2.1]; exact fun _ h => by cases h
      · rw [h2.2]; exact fun _ h => by cases h
  · cases h2

set_option maxRecDepth 100000 in
/-- Two frames; cut within the second one, the first one is reported and more data asked for; cut
within the first one, none is; a single byte does not hold the announced frames. -/
example :
    ([20, 12, 9, 1].map fun j =>
      match Network.parse Env.default64 endHeader (endBody (damageData.take j)) with
      | .ok f => (f.frames.length, none)
      | .err (.frameError (.notEnoughDataFor s) ctx) => (ctx.frames.length, some s)
      | .err (.tooManyFrames k) => (k.toNat, some "frames")
      | _ => (99, none)) =
    [(2, none), (1, some "Time"), (0, some "Actor Id"), (2, some "frames")] := by
  decide +kernel

end Boxcars.Props
