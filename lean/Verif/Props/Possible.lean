import Verif.Proofs.Possible
import Verif.Proofs.Alive
import Verif.Props.Times
import Verif.Props.Frames
/-!
# C94: exactly which frames occur
-/
namespace Boxcars.Props
open Boxcars Spec

variable {data : Bytes} {env : Env} {check : CrcCheck} {np : NetworkParse} {r : Replay}
  {fs : List Frame}

/-- C94. The frames of an accepted replay are possible for its tables, unless they have a body that
is cut (`cut_last`). -/
theorem frames_possible (hs : data.length ≤ env.isizeMax) (h : parseWith check np env data = .ok r)
    (hf : r.networkFrames = some ⟨fs⟩) (hm : AllMove fs) :
    ∃ c n, CtxOf (headerOf r) (bodyOf r []) c ∧ NetOf (headerOf r) (bodyOf r []) c n ∧
      Possible n c fs ∧ ∀ k, headerInt (headerOf r) "NumFrames" = some k → fs.length ≤ k.toNat := by
  have hctx : ∀ {blob c}, CtxOf (headerOf r) (bodyOf r blob) c → CtxOf (headerOf r) (bodyOf r []) c :=
    fun h => ⟨h.1, h.2, h.3, h.4, h.5, h.6, h.7, h.8, h.9⟩
  have hnet : ∀ {blob c n}, NetOf (headerOf r) (bodyOf r blob) c n →
      NetOf (headerOf r) (bodyOf r []) c n := fun h => ⟨h.1, h.2, h.3, h.4, h.5, h.6⟩
  obtain ⟨blob', c', n', _, _, hc', hn', _⟩ := replay_history hs h hf
  obtain ⟨blob, ⟨_, hn⟩, _⟩ := parse_network hs h hf
  cases hk : headerInt (headerOf r) "NumFrames" with
  | none =>
    rw [hk] at hn
    simp only at hn
    subst hn
    exact ⟨c', n', hctx hc', hnet hn', ⟨[], trivial⟩, fun k e => by cases e⟩
  | some k =>
    rw [hk] at hn
    obtain ⟨_, _, c, n, o, h1, h2, h3⟩ := hn
    obtain ⟨ess, kn, o', h4⟩ := framesRel_at h3
    refine ⟨c, n, hctx h1, hnet h2, ⟨ess, read_frames h4 ((allMove_iff fs).1 hm)⟩, fun k' e => ?_⟩
    cases e
    exact framesRel_limit h3

theorem netOf_narrowed {h : Header} {body : ReplayBody} {c : Ctx} {n : Net}
    (hn : NetOf h body c n) : Narrowed n := by
  refine ⟨by rw [hn.channels]; exact BitVec.isLt _, fun o cd h => ?_⟩
  obtain ⟨_, _, _, _, _, _, h⟩ := (hn.cls _ _).1 h
  rcases h with ⟨_, h⟩ | ⟨s, _, _, h⟩ <;> omega

/-- C94. In terms of bits: frames without cut bodies have a representation if and only if they are
possible. -/
theorem possible_iff {h : Header} {body : ReplayBody} {c : Ctx} {n : Net} (hn : NetOf h body c n)
    (fs : List Frame) :
    Possible n c fs ↔
      AllMove fs ∧ ∃ w o, FramesRel n (AttrAccepts c) fs.length Known.none fs w o := by
  constructor
  · rintro ⟨ess, h⟩
    obtain ⟨w, _, hw⟩ := write_frames (netOf_narrowed hn) h
    obtain ⟨o', hw⟩ := hw fs.length [] (.inr (.inl rfl))
    exact ⟨moves_of h, _, _, hw⟩
  · rintro ⟨hm, w, o, h⟩
    obtain ⟨ess, kn, o', h⟩ := framesRel_at h
    exact ⟨ess, read_frames h ((allMove_iff fs).1 hm)⟩

/-- Network data: some bits, an end marker, and zeros. -/
def ended (w : Bits) (k : Nat) : List Byte := pack (w ++ List.replicate (64 + 8 * k) false)

theorem ended_spec (w : Bits) {m k : Nat} (h : m ≤ k) :
    ∃ o, bytes (ended w k) = w ++ o ∧ Ending m k o ∧ k ≤ (ended w k).length ∧
      (ended w k).length ≤ w.length / 8 + k + 9 := by
  obtain ⟨h1, h2, h3⟩ := bytes_pack (w ++ List.replicate (64 + 8 * k) false)
  refine ⟨List.replicate (64 + 8 * k) false ++ List.replicate
    (8 * (pack (w ++ List.replicate (64 + 8 * k) false)).length -
      (w ++ List.replicate (64 + 8 * k) false).length) false, ?_, ?_, ?_, ?_⟩
  · unfold ended
    rw [h1, List.append_assoc]
  · by_cases e : m = k
    · exact .inr (.inl e)
    · refine .inr (.inr ⟨by omega, 0, 0, List.replicate (8 * k) false ++ List.replicate
        (8 * (pack (w ++ List.replicate (64 + 8 * k) false)).length -
          (w ++ List.replicate (64 + 8 * k) false).length) false,
        ⟨by decide, by decide⟩, ⟨by decide, by decide⟩, ?_⟩)
      have e : Spec.field 32 (0 : F32) = List.replicate 32 false := by decide
      rw [e, ← List.append_assoc, ← List.append_assoc, List.replicate_append_replicate,
        List.replicate_append_replicate, List.replicate_append_replicate,
        List.replicate_append_replicate]
  · unfold ended
    simp only [List.length_append, List.length_replicate] at h2
    omega
  · unfold ended
    simp only [List.length_append, List.length_replicate] at h3
    omega

/-- C94. Possible frames are read from some network data, for every announced number that is large
enough. -/
theorem possible_read (env : Env) {h : Header} {body : ReplayBody} {c : Ctx} {n : Net}
    (hc : CtxOf h body c) (hn : NetOf h body c n) (hr : InRange body.objects body.netCache)
    (hl : body.objects.length ≤ 2 ^ 31) {ess : List (List Event)}
    (hp : FramesOf n c Known.none fs ess) {k : I32}
    (hk : headerInt h "NumFrames" = some k) (h0 : 0 ≤ k.toInt) (hle : fs.length ≤ k.toNat)
    (hd : recordsCost ess / 8 + k.toNat + 9 < 2 ^ 31)
    (hcap : (recordsCost ess / 8 + k.toNat + 9) * env.frameSize ≤ env.isizeMax) :
    ∃ blob, blob.length ≤ recordsCost ess / 8 + k.toNat + 9 ∧
      Network.parse env h { body with networkData := blob } = .ok ⟨fs⟩ := by
  obtain ⟨w, hw, hrel⟩ := write_frames (netOf_narrowed hn) hp
  obtain ⟨o, h1, h2, h3, h4⟩ := ended_spec w hle
  have hlen : (ended w k.toNat).length ≤ recordsCost ess / 8 + k.toNat + 9 := by omega
  refine ⟨ended w k.toNat, hlen, ?_⟩
  rw [network_iff env h { body with networkData := ended w k.toNat } hl (Nat.lt_of_le_of_lt hlen hd)
    (Nat.le_trans (Nat.mul_le_mul_right _ hlen) hcap)]
  obtain ⟨o', ho'⟩ := hrel k.toNat o h2
  unfold NetworkOf
  rw [hk]
  exact ⟨hr, h0, h3, c, n, o', ctxOf_data hc _, netOf_data hn _, h1 ▸ ho'⟩

theorem encFile_blob (h : Header) (body : ReplayBody) (blob : List Byte) :
    (encFile h { body with networkData := blob }).length =
      (encFile h { body with networkData := [] }).length + blob.length := by
  have hw : ∀ x : BitVec 32, (word x).length = 4 := fun x => by simp [word, le]
  unfold encFile encSection encBody
  simp only [List.length_append, hw, List.length_nil]
  omega

/-- C94 for whole files: if the rest of the file and the records leave space, there is a file with
the given header and tables and with the frames. -/
theorem possible_file {env : Env} (h64 : env.usizeBits = 64) {h : Header} {body : ReplayBody}
    (hh : HeaderOk h) (hb : BodyOk body) {c : Ctx} {n : Net}
    (hc : CtxOf h body c) (hn : NetOf h body c n) (hr : InRange body.objects body.netCache)
    {ess : List (List Event)} (hp : FramesOf n c Known.none fs ess) {k : I32}
    (hk : headerInt h "NumFrames" = some k) (h0 : 0 ≤ k.toInt) (hle : fs.length ≤ k.toNat)
    (hsz : (encFile h { body with networkData := [] }).length +
      (recordsCost ess / 8 + k.toNat + 9) < 2 ^ 31) :
    ∃ blob, ∀ check, ∃ r,
      parseWith check .always env (encFile h { body with networkData := blob }) = .ok r ∧
        r.networkFrames = some ⟨fs⟩ ∧ headerOf r = h ∧ r.objects = body.objects ∧
        r.netCache = body.netCache := by
  have hl : body.objects.length ≤ 25000 := hb.2.2.2.2.2.2.1.1
  have hcap : (recordsCost ess / 8 + k.toNat + 9) * env.frameSize ≤ env.isizeMax := by
    have := (small64 h64 (data := List.replicate (recordsCost ess / 8 + k.toNat + 9) 0)
      (by rw [List.length_replicate]; omega)).cap (n := recordsCost ess / 8 + k.toNat + 9)
      (by rw [List.length_replicate]) (by omega)
    exact this
  obtain ⟨blob, hlen, hw⟩ := possible_read env hc hn hr (by omega) hp hk h0 hle (by omega) hcap
  refine ⟨blob, fun check => ?_⟩
  have hlt : (encFile h { body with networkData := blob }).length < 2 ^ 31 := by
    rw [encFile_blob]; omega
  have hbo : BodyOk { body with networkData := blob } :=
    ⟨hb.1, hb.2.1, (by show blob.length < 2 ^ 31; omega), hb.2.2.2⟩
  have := file_round_trip_network check .always env h _ hh hbo [] hlt
    (by rw [List.append_nil]; exact (small64 h64 hlt).1.1) _ hw (by simp)
  rw [List.append_nil] at this
  exact ⟨_, this, rfl, rfl, rfl, rfl⟩

/-! ## Instances -/

/-- The frames of the demo, in which an actor is updated after its deletion. -/
example : ∃ r, parseWith .always .always Env.default64 demo = .ok r ∧
    ∃ c n, NetOf (headerOf r) (bodyOf r []) c n ∧ Possible n c demoFrames := by
  obtain ⟨r, h1, h2, h3, _⟩ := demo_ok
  obtain ⟨c, n, _, hn, hp, _⟩ := frames_possible demo_small.len h1 h2 (by
    intro f hf u hu b hb
    simp only [demoFrames, List.mem_cons, List.not_mem_nil, or_false] at hf
    rcases hf with rfl | rfl | rfl <;> simp only [List.mem_cons, List.not_mem_nil, or_false] at hu
    · rcases hu with rfl | rfl <;> cases hb
    · subst hu; cases hb)
  exact ⟨r, h1, c, n, hn, hp⟩

/-- One frame: an actor is deleted, announced, updated twice, and deleted; deleted actors below 200
may be updated. -/
def onceFrame : Frame :=
  ⟨0x3f800000, 0x3f000000, [demoNew 5], [5, 5],
    [⟨5, 0, 2, .boolean true⟩, ⟨5, 1, 3, .byte 200⟩]⟩

def onceRecords : List Event :=
  [.delete 5, .new (demoNew 5), .update 5 [⟨5, 0, 2, .boolean true⟩], .delete 5,
    .update 5 [⟨5, 1, 3, .byte 200⟩]]

theorem once_possible : FramesOf wroteNet wroteCtx Known.none [onceFrame] [onceRecords] := by
  have ht : TimeOk 0x3f800000 ∧ TimeOk 0x3f000000 ∧ ¬(IsZero 0x3f800000 ∧ IsZero 0x3f000000) :=
    ⟨(outOfRange_iff _).1 (by decide +kernel), (outOfRange_iff _).1 (by decide +kernel),
      fun h => absurd h.1.1 (by decide +kernel)⟩
  have hin : InChannels wroteNet 5 := (by decide : (5 : ActorId).toNat < max 1023 1)
  refine ⟨ht.1, ht.2.1, ht.2.2, rfl, rfl, rfl, ?_, trivial⟩
  refine ⟨hin, ⟨hin, by decide, by decide, .locationAndRotation, rfl, _, _, ?_, rfl⟩,
    ⟨hin, 0, wroteClass, rfl, rfl, ?_⟩, hin, ⟨hin, 0, wroteClass, rfl, rfl, ?_⟩, trivial⟩
  · unfold Whole3 Coord
    decide
  · intro u hu
    cases List.mem_singleton.1 hu
    exact ⟨rfl, by decide, .boolean, rfl, trivial⟩
  · intro u hu
    cases List.mem_singleton.1 hu
    exact ⟨rfl, by decide, .byte, rfl, trivial⟩

/-- They are read from some data. -/
example : ∃ blob, Network.parse Env.default64 (timesHeader 7)
    { wroteBody with networkData := blob } = .ok ⟨[onceFrame]⟩ := by
  obtain ⟨w, _, h⟩ := possible_read Env.default64 (times_ctx 7) (times_net 7)
    (by unfold InRange; decide +kernel) (by decide +kernel) once_possible (timesHeader_frames 7)
    (by decide) (by decide) (by decide) (by decide +kernel)
  exact ⟨w, h⟩

theorem nothing_announced {n : Net} {c : Ctx} {es : List Event} {known : Known}
    (hk : ∀ id, known id = none) (h : EventsOf n c known es) (hn : news es = []) :
    updates es = [] := by
  induction es generalizing known with
  | nil => rfl
  | cons e es ih =>
    cases e with
    | new a => cases hn
    | delete id =>
      refine ih (known := known.after n (.delete id)) (fun i => ?_) h.2 hn
      simp only [Known.after]
      split
      · rfl
      · exact hk i
    | update id us =>
      obtain ⟨⟨_, obj, _, h, _⟩, _⟩ := h
      rw [hk id] at h
      cases h

/-- A first frame that updates but does not announce is impossible, whatever the tables. -/
example (n : Net) (c : Ctx) (t d : F32) (del : List ActorId) (u : UpdatedAttribute)
    (fs : List Frame) : ¬Possible n c (⟨t, d, [], del, [u]⟩ :: fs) := by
  rintro ⟨ess, h⟩
  cases ess with
  | nil => exact h
  | cons es ess =>
    obtain ⟨_, _, _, e1, _, e3, h, _⟩ := h
    have := nothing_announced (fun _ => rfl) h e1.symm
    rw [this] at e3
    cases e3

end Boxcars.Props
