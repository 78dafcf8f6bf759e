import Verif.Proofs.NetFail
import Verif.Proofs.AttrErr
import Verif.Proofs.AttrFail
import Verif.Proofs.NetworkSpec
/-!
# `network::parse` fails exactly as `Spec.NetworkFail` says
-/
namespace Boxcars
open Spec Network

theorem attrErrors_of (ad : AttrDecoder) (hp : ad.product.version = ad.version) :
    AttrErrors ad.ctx (FrameDecoder.attrFail ad) where
  total tag i := ESpec.total (N := i.length) (decode_spec ad hp tag)
    (ESpec.self (decode_spec ad hp tag)) (Nat.le_refl _)
  unique tag _ _ i h h' := ESpec.func (N := i.length)
    (ESpec.self (decode_spec ad hp tag)) (Nat.le_refl _) h h'
  unimplemented tag i := by
    constructor
    · rintro ⟨env, r, r', _, _, h⟩
      exact Classical.byContradiction fun hn => Impl.decode ad tag hn _ _ _ h
    · rintro rfl
      exact ⟨Env.default64, ⟨i, 0⟩, ⟨i, 0⟩, ⟨by simp, by simp⟩, rfl, rfl⟩

theorem attrFail_eq (ad : AttrDecoder) (hp : ad.product.version = ad.version) :
    FrameDecoder.attrFail ad = AttrFails ad.ctx := by
  funext tag e i
  refine propext ⟨?_, ?_⟩
  · rintro ⟨env, r, r', hv, rfl, hx⟩
    exact (decodeE ad hp tag env r hv (Nat.le_refl _) e).1 ⟨r', hx⟩
  · intro h
    have hv : (Reader.mk i 0).Valid := ⟨Nat.zero_le _, by simp⟩
    obtain ⟨r', hx⟩ := (decodeE ad hp tag Env.default64 ⟨i, 0⟩ hv (Nat.le_refl _) e).2 h
    exact ⟨Env.default64, ⟨i, 0⟩, r', hv, rfl, hx⟩

/-- Every context is that of a decoder. -/
theorem ctx_surj (c : Ctx) : ∃ ad : AttrDecoder, ad.product.version = ad.version ∧ ad.ctx = c := by
  obtain ⟨major, minor, net, color, painted, titleId, special, team, rl⟩ := c
  exact ⟨⟨⟨major, minor, net⟩, ⟨⟨major, minor, net⟩, color, painted, special, team, titleId⟩, rl⟩, rfl, rfl⟩

theorem attrErrors (c : Ctx) : AttrErrors c (AttrFails c) := by
  obtain ⟨ad, h, rfl⟩ := ctx_surj c
  rw [← attrFail_eq ad h]
  exact attrErrors_of ad h

/-- The attribute decoder for a replay. -/
def attrDecoderOf (h : Header) (body : ReplayBody) : AttrDecoder :=
  ⟨version h, productDecoder (version h) body.objects, isRl223 h⟩

/-- The attributes per object reported with errors. -/
def tableOf (body : ReplayBody) : List (Option CacheInfo) :=
  match cacheTable Env.default64 body.objects body.netCache with
  | .ok t => t
  | _ => []

theorem ctxOf_attrDecoderOf (h : Header) (body : ReplayBody) :
    CtxOf h body (attrDecoderOf h body).ctx := ctx_of h body 0 [] []

theorem network_err_iff (env : Env) (h : Header) (body : ReplayBody)
    (hl : body.objects.length ≤ 2 ^ 31) (hn : body.networkData.length < 2 ^ 31)
    (hcap : body.networkData.length * env.frameSize ≤ env.isizeMax) (x : NetworkError) :
    Network.parse env h body = .err x ↔
      NetworkFail h body (tableOf body) x := by
  obtain ⟨spawns, hs, _⟩ := spawnTable_run (ε := NetworkError) env body.objects hl
  have hnf := (headerInt_eq h).1
  unfold Network.parse
  rw [hs, Res.ok_bind]
  by_cases hr : InRange body.objects body.netCache
  · obtain ⟨caches, hc, _⟩ := cacheTable_run env body.objects hl body.netCache hr
    have htab : tableOf body = caches := by
      unfold tableOf
      rw [cacheTable_env Env.default64 env body.objects hl, hc]
    rw [hc, Res.ok_bind]
    have hix : ∀ a p b, body.netCache.flatMap (·.properties) = a ++ p :: b →
        ¬(0 ≤ p.objectInd.toInt ∧ p.objectInd.toNat < body.objects.length) → False := by
      intro a p b he hp
      have hm : p ∈ body.netCache.flatMap (·.properties) := by rw [he]; simp
      obtain ⟨c, hc1, hc2⟩ := List.mem_flatMap.1 hm
      exact hp (hr c hc1 p hc2)
    cases hk : h.numFrames with
    | none =>
      rw [hk] at hnf
      constructor
      · intro h; cases h
      · intro h
        cases h with
        | index h1 h2 h3 => exact (hix _ _ _ h1 h3).elim
        | count _ h2 _ => rw [hnf] at h2; cases h2
        | frame _ h2 => rw [hnf] at h2; cases h2
    | some k =>
      rw [hk] at hnf
      have hcount : ¬(0 ≤ k.toInt ∧ k.toNat ≤ body.networkData.length) →
          ((Res.err (NetworkError.tooManyFrames k) : Res NetworkError NetworkFrames) = .err x ↔
          NetworkFail h body (tableOf body) x) := by
        intro hno
        constructor
        · intro h; cases h; exact .count hr hnf hno
        · intro h
          cases h with
          | index h1 h2 h3 => exact (hix _ _ _ h1 h3).elim
          | count _ h2 _ => rw [hnf] at h2; cases h2; rfl
          | frame _ h2 h3 h4 => rw [hnf] at h2; cases h2; exact (hno ⟨h3, h4⟩).elim
      simp only
      by_cases hneg : k.toInt < 0
      · have := usizeOfI32_neg env hneg
        rw [if_pos (by omega)]
        exact hcount (by omega)
      · rw [usizeOfI32_nonneg env (by omega)]
        by_cases hbig : k.toNat > body.networkData.length
        · rw [if_pos hbig]
          exact hcount (by omega)
        · rw [if_neg hbig]
          obtain ⟨hw, hnet⟩ := frameDecoder_of env h body k.toNat hl hs hr hc
          have hctx := ctx_of h body k.toNat spawns caches
          have hmain := FrameDecoder.decodeFrames_err_iff _ hw env (by
            refine Nat.le_trans (Nat.mul_le_mul_right _ ?_) hcap
            show k.toNat ≤ _
            omega) x
          rw [bytes_new] at hmain
          simp only [attrFail_eq (frameDecoder h body k.toNat spawns caches).attrDecoder rfl] at hmain
          have hstep : ((do
              let frames ← runBM env (frameDecoder h body k.toNat spawns caches).decodeFrames
                (Reader.new body.networkData)
              Res.ok ⟨frames⟩ : Res NetworkError NetworkFrames) = .err x) ↔
              runBM env (frameDecoder h body k.toNat spawns caches).decodeFrames
                (Reader.new body.networkData) = .err x := by
            cases runBM env (frameDecoder h body k.toNat spawns caches).decodeFrames
                (Reader.new body.networkData) with
            | ok a =>
              rw [Res.ok_bind]
              constructor <;> intro h <;> cases h
            | err e => constructor <;> intro h <;> cases h <;> rfl
            | fault e => constructor <;> intro h <;> cases h
          rw [hstep]
          refine hmain.trans ?_
          constructor
          · rintro ⟨fs, kn, es, us, e, ctx, h1, rfl, h3⟩
            exact .frame hr hnf (by omega) (by omega) hctx hnet h1 h3.of (by rw [htab]; exact h3.attributes)
          · intro hf
            cases hf with
            | index h1 h2 h3 => exact (hix _ _ _ h1 h3).elim
            | count _ h2 h3 => rw [hnf] at h2; cases h2; omega
            | @frame k' c n fs kn es us e ctx _ h2 h3 h4 h5 h6 h7 h8 h9 =>
              rw [hnf] at h2
              cases h2
              cases ctxOf_unique h5 hctx
              cases netOf_unique h6 hnet
              exact ⟨fs, kn, es, us, e, ctx, h7, rfl, h8, by rw [h9, htab]; rfl⟩
  · obtain ⟨a, p, b, g1, g2, g3, he⟩ := cacheTable_err env body.objects hl body.netCache hr
    rw [he]
    constructor
    · intro h; cases h; exact .index g1 g2 g3
    · intro h
      cases h with
      | @index a' p' b' k1 k2 k3 =>
        have : p = p' := by
          rw [g1] at k1
          clear g1 he hnf
          induction a generalizing a' with
          | nil =>
            cases a' with
            | nil => simp at k1; exact k1.1
            | cons q a' =>
              simp at k1
              rw [k1.1] at g3
              exact absurd (k2 q List.mem_cons_self) g3
          | cons q a ih =>
            cases a' with
            | nil =>
              simp at k1
              rw [← k1.1] at k3
              exact absurd (g2 q List.mem_cons_self) k3
            | cons q' a' =>
              simp at k1
              exact ih (fun r hr => g2 r (List.mem_cons_of_mem _ hr)) k1.2
                (fun r hr => k2 r (List.mem_cons_of_mem _ hr))
        rw [this]; rfl
      | count h1 => exact absurd h1 hr
      | frame h1 => exact absurd h1 hr

/-- An error of `network::parse` is as described, whatever the environment. -/
theorem network_err (env : Env) (h : Header) (body : ReplayBody)
    (hl : body.objects.length ≤ 2 ^ 31) (hn : body.networkData.length < 2 ^ 31) {x : NetworkError}
    (hp : Network.parse env h body = .err x) : NetworkFail h body (tableOf body) x := by
  rcases network_roomy env h body hl hn with he | he
  · rw [he] at hp; cases hp
  · rw [he] at hp
    exact (network_err_iff env.roomy h body hl hn (env.roomy_cap _) x).1 hp

end Boxcars
