import Verif.Proofs.Work
import Verif.Proofs.WorkNet
import Verif.Proofs.WorkTables
import Verif.Proofs.Replay
/-!
# Step counts of the whole parser
-/
namespace Boxcars.Work
open Boxcars Spec

/-! ## Sizes of the lists of a body -/

theorem concat_length {α : Type} {g : α → Bytes → Prop} (j : Nat) (hg : ∀ x b, g x b → j ≤ b.length)
    {xs : List α} {bs : Bytes} (h : Concat g xs bs) : j * xs.length ≤ bs.length := by
  induction h with
  | nil => exact Nat.zero_le _
  | cons hx _ ih =>
    have := hg _ _ hx
    simp only [List.length_cons, List.length_append, Nat.mul_add, Nat.mul_one]
    omega

theorem textField_length {s : Str} {bs : Bytes} (h : TextField s bs) : 4 ≤ bs.length := by
  rcases h with ⟨_, rfl⟩ | ⟨_, _, _, _, rfl⟩ | ⟨_, _, _, _, rfl⟩ <;>
    simp only [List.length_append, word_length] <;> omega

theorem decls_length {cs : List ClassNetCache} {bs : Bytes} (h : Concat ClassNetCacheEnc cs bs) :
    16 * cs.length + 8 * (decls cs).length ≤ bs.length := by
  induction h with
  | nil => exact Nat.zero_le _
  | @cons c cs b bs hx _ ih =>
    obtain ⟨b1, ⟨b2, _, hc, rfl⟩, rfl⟩ := hx
    have := concat_length 8 (fun x b hb => by rw [hb]; simp [word_length]) hc
    simp only [decls, List.flatMap_cons, List.length_cons, List.length_append, word_length,
      Nat.mul_add, Nat.mul_one] at ih ⊢
    omega

/-- What the step counts of the network part depend on. -/
structure BodySize (T : Nat) (b : ReplayBody) : Prop where
  small : b.objects.length ≤ 25000
  bytes : b.networkData.length + 4 * b.objects.length + 16 * b.netCache.length +
    8 * (decls b.netCache).length ≤ T

theorem bodySec_size {b : ReplayBody} {bs : Bytes} (h : BodySec b bs) : BodySize bs.length b := by
  obtain ⟨b1, b2, b3, b4, b5, b6, b7, b8, b9, _, _, _, _, _, _, ⟨c6, hs, ho, rfl⟩, _, _,
    ⟨c9, _, hc, rfl⟩, rfl⟩ := h
  have h1 := concat_length 4 (fun x b hb => textField_length hb) ho
  have h2 := decls_length hc
  refine ⟨hs, ?_⟩
  simp only [List.length_append, word_length]
  omega

/-! ## The network part -/

theorem run_meas {ε α : Type} {mt : BT ε α} {m : BM ε α} {k K B : Int} (h : BMeas mt m k K) (env : Env)
    (data : List Byte) (hk : 96 * (data.length : Int) + k ≤ B) (hK : 96 * (data.length : Int) + K ≤ B)
    (hf : ∀ x, Network.runBM env m (Reader.new data) ≠ .fault x) :
    CMeas (Work.run env mt (Reader.new data)) (Network.runBM env m (Reader.new data)) B.toNat := by
  have hv : (Reader.new data).Valid := FrameDecoder.reader_new_valid data
  have hl := FrameDecoder.reader_new_length data
  have he := h.erase env (Reader.new data)
  have ho := h.ok env (Reader.new data)
  have hr := h.err env (Reader.new data)
  unfold Network.runBM at hf ⊢
  unfold Work.run
  rcases ht : mt env (Reader.new data) with ⟨x, t⟩
  rw [ht] at he ho hr
  simp only at he ho hr
  rw [← he] at hf ho hr ⊢
  cases x with
  | ok a r =>
    have := (ho a r hv rfl).2
    refine ⟨rfl, ?_⟩
    simp only
    omega
  | err e r =>
    have := hr e r hv rfl
    refine ⟨rfl, ?_⟩
    simp only
    omega
  | fault y => exact absurd rfl (hf y)

/-- Steps of the network part. -/
def netBound (b : ReplayBody) : Nat :=
  135 * b.objects.length + spawnStats.length + b.netCache.length + (decls b.netCache).length +
    233 * (b.objects.length * (decls b.netCache).length) + 96 * b.networkData.length + 3

theorem network_meas (env : Env) (h : Header) (body : ReplayBody) (hl : body.objects.length ≤ 2 ^ 31)
    (hf : ∀ x, Network.parse env h body ≠ .fault x) :
    CMeas (Work.networkParse env h body) (Network.parse env h body) (netBound body) := by
  unfold Work.networkParse Network.parse
  unfold Network.parse at hf
  refine ((spawnTable_meas env body.objects).bind fun spawns hs =>
    (cacheTable_meas env body.objects hl body.netCache).bind
    (B := body.objects.length + (96 * body.networkData.length + 3)) fun caches hc => ?_).mono ?_
  · rw [hs, Res.ok_bind, hc, Res.ok_bind] at hf
    cases hn : h.numFrames with
    | none => exact (CMeas.pure _).mono (Nat.zero_le _)
    | some n =>
      rw [hn] at hf
      simp only at hf ⊢
      split
      · exact (CMeas.cost _ _).mono (Nat.zero_le _)
      · rename_i hgt
        rw [if_neg hgt] at hf
        refine CMeas.costThen (((run_meas (B := 96 * body.networkData.length + 3)
          (decodeFrames_meas (Network.frameDecoder h body (env.usizeOfI32 n) spawns caches) rfl) env
          body.networkData (by omega) (by omega) ?_).bind fun _ _ => CMeas.pure _).mono (by omega))
        intro x hx
        rw [hx] at hf
        exact hf x rfl
  · unfold netBound
    rw [Nat.mul_add, Nat.mul_comm body.objects.length 98, Nat.mul_left_comm]
    omega

/-! ## The whole parser -/

/-- On an input of `T` bytes: the counted parser computes what the parser computes, in at most
`B` steps, and `Q` holds of what it returns. -/
def TCost {α : Type} (T : Nat) (env : Env) (mt : PT α) (m : P α) (Q : α → Prop) (B : Nat) : Prop :=
  ∀ s, CoreInv env T s → (mt env s).1 = m env s ∧ (mt env s).2 ≤ B ∧
    ∀ a s', m env s = .ok a s' → CoreInv env T s' ∧ Q a

namespace TCost

variable {α β : Type} {T : Nat} {env : Env}

theorem mono {mt : PT α} {m : P α} {Q : α → Prop} {A B : Nat} (h : TCost T env mt m Q A) (hB : A ≤ B) :
    TCost T env mt m Q B := fun s hs =>
  ⟨(h s hs).1, Nat.le_trans (h s hs).2.1 hB, (h s hs).2.2⟩

theorem pure (a : α) : TCost T env (Pure.pure a : PT α) (Pure.pure a : P α) (fun _ => True) 0 :=
  fun s hs => ⟨rfl, Nat.le_refl _, fun b s' h => by cases h; exact ⟨hs, trivial⟩⟩

theorem usize (x : I32) : TCost T env (PT.free (P.usize x)) (P.usize x) (fun _ => True) 0 :=
  fun s hs => ⟨rfl, Nat.le_refl _, fun b s' h => by cases h; exact ⟨hs, trivial⟩⟩

theorem bind {mt : PT α} {m : P α} {ft : α → PT β} {f : α → P β} {Q : α → Prop} {Q' : β → Prop}
    {A B : Nat} (h : TCost T env mt m Q A) (h' : ∀ a, Q a → TCost T env (ft a) (f a) Q' B) :
    TCost T env (mt >>= ft) (m >>= f) Q' (A + B) := by
  intro s hs
  obtain ⟨h1, h2, h3⟩ := h s hs
  show (PT.bind mt ft env s).1 = P.bind m f env s ∧ (PT.bind mt ft env s).2 ≤ _ ∧
    ∀ b s', P.bind m f env s = .ok b s' → _
  unfold PT.bind P.bind
  rcases ht : mt env s with ⟨x, t⟩
  rw [ht] at h1 h2
  simp only at h1 h2
  rw [← h1] at h3 ⊢
  cases x with
  | ok a s1 =>
    obtain ⟨i1, q⟩ := h3 a s1 rfl
    obtain ⟨k1, k2, k3⟩ := h' a q s1 i1
    exact ⟨k1, by simp only; omega, k3⟩
  | err e s1 => exact ⟨rfl, by simp only; omega, fun b s' hb => by cases hb⟩
  | fault e => exact ⟨rfl, by simp only; omega, fun b s' hb => by cases hb⟩

theorem ofMeas {mt : PT α} {m : P α} {R : PRel α} {k K : Int} (hT : Room env T) (h : Meas mt m k K)
    (hr : PSpec T m R) (B : Nat) (hk : k ≤ B) (hK : K ≤ B) :
    TCost T env mt m (fun a => ∃ d d', d.length ≤ T ∧ R a d d') (3 * T + B) := by
  intro s hs
  have hl := hs.1
  refine ⟨h.erase env s, ?_, fun a s' hm => ?_⟩
  · cases hm : m env s with
    | ok a s' => have := h.ok env s a s' hm; omega
    | err e s' => have := h.err env s e s' hm; omega
    | fault f => exact absurd hm (hr.noFault T env s hT hs hl f)
  · have := (hr.okIff T env s hT.1 hs hl a s').1 hm
    exact ⟨this.2, s.data, s'.data, hl, this.1⟩

theorem section_ {mt : PT α} {m : P α} {Q : α → Prop} {B : Nat} (check : CrcCheck) (data : List Byte)
    (crc : U32) (sec : String) (h : TCost T env mt m Q B) (hf : ∀ s, CoreInv env T s → ∀ f, m env s ≠ .fault f) :
    TCost T env (Work.crcSection check data crc sec mt) (Boxcars.crcSection check data crc sec m) Q
      (B + data.length) := by
  intro s hs
  obtain ⟨h1, h2, h3⟩ := h s hs
  unfold Work.crcSection Boxcars.crcSection
  rw [h1]
  refine ⟨by dsimp only; rw [h1], ?_, ?_⟩
  · dsimp only
    split <;> omega
  · intro a s' ha
    cases hm : m env s with
    | ok b s1 =>
      rw [hm] at ha
      obtain ⟨i, q⟩ := h3 b s1 hm
      cases check <;> simp only at ha <;> (try split at ha) <;> cases ha <;> exact ⟨i, q⟩
    | err e s1 =>
      rw [hm] at ha
      cases check <;> simp only at ha <;> (try split at ha) <;> cases ha
    | fault f => exact absurd hm (hf s hs f)

end TCost

variable {T : Nat} {env : Env}

theorem read_cost {α : Type} {m : P α} {R : PRel α} (hT : Room env T) (he : Eats 0 m)
    (hr : PSpec T m R) :
    TCost T env (PT.read m) m (fun a => ∃ d d', d.length ≤ T ∧ R a d d') (3 * T + 1) :=
  TCost.ofMeas hT (Meas.read he) hr 1 (by omega) (by omega)

theorem spawnStats_length : spawnStats.length ≤ 200 := by decide

/-- The tables cost at most 728125 steps per byte, because there are at most 25000 objects. -/
theorem netBound_le {b : ReplayBody} (h : BodySize T b) : netBound b ≤ 728300 * T + 203 := by
  have h1 := h.bytes
  have h2 : b.objects.length * (decls b.netCache).length ≤ 25000 * (decls b.netCache).length :=
    Nat.mul_le_mul_right _ h.small
  have h3 := spawnStats_length
  unfold netBound
  omega

theorem networkStep_cost (np : NetworkParse) (h : Header) (b : ReplayBody) (hb : BodySize T b)
    (hnet : ∀ x, Network.parse env h b ≠ .fault x) :
    TCost T env (Work.networkStep np h b) (Boxcars.networkStep np h b) (fun _ => True)
      (728300 * T + 203) := by
  intro s hs
  have hm := (network_meas env h b (by have := hb.small; omega) hnet).2
  refine ⟨rfl, ?_, ?_⟩
  · unfold Work.networkStep
    have := netBound_le hb
    cases np <;> simp only <;> omega
  · intro a s' ha
    refine ⟨?_, trivial⟩
    unfold Boxcars.networkStep at ha
    cases np with
    | never => cases ha; exact hs
    | always =>
      cases hp : Network.parse env h b with
      | ok f => rw [hp] at ha; cases ha; exact hs
      | err e => rw [hp] at ha; cases ha
      | fault x => rw [hp] at ha; cases ha
    | ignoreOnError =>
      cases hp : Network.parse env h b with
      | ok f => rw [hp] at ha; cases ha; exact hs
      | err e => rw [hp] at ha; cases ha; exact hs
      | fault x => rw [hp] at ha; cases ha

theorem parserParse_cost (check : CrcCheck) (np : NetworkParse) (hT : Room env T)
    (hnet : ∀ h b, BodySize T b → b.networkData.length < 2 ^ 31 → ∀ x, Network.parse env h b ≠ .fault x) :
    TCost T env (Work.parserParse check np) (Boxcars.parserParse check np) (fun _ => True)
      (728400 * T + 300) := by
  unfold Work.parserParse Boxcars.parserParse
  have int (sec : String) := read_cost (env := env) hT ((Eats.takeI32 sec).mono (Nat.zero_le _))
    (takeI32_spec (N := T) sec)
  have view (sec : String) (n : Nat) := read_cost (env := env) hT ((Eats.viewData n).wrap sec)
    ((viewData_spec (N := T) n).wrap sec)
  have head := TCost.ofMeas (env := env) hT header_meas (parseHeader_spec (N := T)) 1 (by omega) (by omega)
  have body := TCost.ofMeas (env := env) hT body_meas (parseBody_spec (N := T)) 2 (by omega) (by omega)
  refine ((int _).bind fun _ _ => (int _).bind fun _ _ => (TCost.usize _).bind fun _ _ =>
    (view _ _).bind fun hd hh => ((TCost.section_ check hd _ _ head ?_).mono (B := 4 * T + 1) ?_).bind
      fun header _ => (int _).bind fun _ _ => (int _).bind fun _ _ => (TCost.usize _).bind fun _ _ =>
    (view _ _).bind fun cd hc => ((TCost.section_ check cd _ _ body ?_).mono (B := 4 * T + 2) ?_).bind
      fun b hb => (networkStep_cost np header b ?_ ?_).bind fun net _ => TCost.pure _).mono (by omega)
  · exact fun s hs => parseHeader_spec.noFault T env s hT hs hs.1
  · obtain ⟨d, d', hl, rfl, hn, rfl⟩ := hh
    rw [List.length_take]
    omega
  · exact fun s hs => parseBody_spec.noFault T env s hT hs hs.1
  · obtain ⟨d, d', hl, rfl, hn, rfl⟩ := hc
    rw [List.length_take]
    omega
  · obtain ⟨d, d', hl, bs, hb, rfl⟩ := hb
    have := bodySec_size hb
    rw [List.length_append] at hl
    exact ⟨this.small, by have := this.bytes; omega⟩
  · obtain ⟨d, d', hl, bs, hb, rfl⟩ := hb
    have := bodySec_size hb
    rw [List.length_append] at hl
    obtain ⟨_, _, _, _, _, _, _, _, _, _, _, hnd, _⟩ := hb
    exact hnet header b ⟨this.small, by have := this.bytes; omega⟩ hnd

theorem network_noFault {data : List Byte} (hs : Small env data) (h : Header) (b : ReplayBody)
    (hb : BodySize data.length b) (hd : b.networkData.length < 2 ^ 31) (x : Fault) : Network.parse env h b ≠ .fault x := by
  have h1 := hb.bytes
  have h2 := hb.small
  have hc := hs.cap (n := b.networkData.length) (by omega) hd
  exact (network_agn env env h b (by omega) hd hc hc).2 x

theorem parse_cost {data : List Byte} (b : ParserBuilder) (hs : Small env data) :
    (Work.parse b env data).1 = b.parse env data ∧
    (Work.parse b env data).2 ≤ 728400 * data.length + 300 := by
  obtain ⟨h1, h2, _⟩ := parserParse_cost (env := env) (b.crcCheck.getD .onError)
    (b.networkParse.getD .ignoreOnError) hs.1 (fun h b hb hd => network_noFault hs h b hb hd)
    (CoreSt.init data) CoreInv.init
  unfold Work.parse ParserBuilder.parse
  rw [← h1]
  rcases ht : Work.parserParse (b.crcCheck.getD .onError) (b.networkParse.getD .ignoreOnError) env
    (CoreSt.init data) with ⟨x, t⟩
  rw [ht] at h2
  cases x <;> exact ⟨rfl, h2⟩

end Boxcars.Work
