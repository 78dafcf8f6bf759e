import Verif.Proofs.Damage
import Verif.Props.NumFrames
import Verif.Proofs.Alive
import Verif.Props.NetData
import Verif.Props.Failure
/-!
# C88: damage to the network data leaves the frames before it as they are
-/
namespace Boxcars.Props
open Spec

theorem Damaged_symm {m : Nat} {b b' : ReplayBody} (h : Damaged m b b') : Damaged m b' b :=
  ⟨h.objects.symm, h.netCache.symm, h.length.symm, h.start.symm⟩

/-- C88. Frames that end before the damage are still there. -/
theorem whole_damaged {h : Header} {b b' : ReplayBody} {m : Nat} (hd : Damaged m b b')
    {fs : List Frame} (hw : Whole h b m fs) : Whole h b' m fs := by
  obtain ⟨hin, c, n, ess, known, j, hc, hn, hf, hl⟩ := hw
  refine ⟨by rw [hd.objects, hd.netCache]; exact hin, c, n, ess, known, ?_⟩
  obtain ⟨w, hw, hw'⟩ := framesAt_same hf
  have hm : w.length ≤ m := by rw [hw, List.length_append] at hl; omega
  have hlen : (bytes b'.networkData).length = (bytes b.networkData).length := by
    rw [BSpec.bytes_length, BSpec.bytes_length, hd.length]
  have hstart : (bytes b'.networkData).take w.length = w := by
    have := congrArg (List.take w.length) hd.start
    rw [List.take_take, List.take_take, Nat.min_eq_left hm] at this
    rw [this, hw, List.take_left]
  have hsplit : bytes b'.networkData = w ++ (bytes b'.networkData).drop w.length := by
    rw [← List.take_append_drop w.length (bytes b'.networkData), hstart, List.drop_left]
  have hj : ((bytes b'.networkData).drop w.length).length = j.length := by
    rw [List.length_drop, hlen, hw, List.length_append]; omega
  have key := hw' _ hj
  rw [← hsplit] at key
  refine ⟨_, ?_, ?_, key, by rw [hj, hlen]; exact hl⟩
  · refine ⟨hc.major, hc.minor, hc.net, ?_, ?_, ?_, ?_, ?_, hc.rl223⟩ <;> rw [hd.objects]
    · exact hc.color
    · exact hc.painted
    · exact hc.titleId
    · exact hc.special
    · exact hc.team
  · refine ⟨hn.net, hn.channels, hn.named, hn.sticky, ?_, ?_⟩
    · intro o sp; rw [hn.spawn]; unfold SpawnOf; rw [hd.objects]
    · intro o cd; rw [hn.cls]; unfold ClassOf; rw [hd.objects, hd.netCache]

/-- C88. The frames within the first bits are a function of these bits, the length and the
tables. -/
theorem whole_damaged_iff {h : Header} {b b' : ReplayBody} {m : Nat} (hd : Damaged m b b')
    (fs : List Frame) : Whole h b' m fs ↔ Whole h b m fs :=
  ⟨whole_damaged (Damaged_symm hd), whole_damaged hd⟩

theorem ofNat_small {k : Nat} (hk : k < 2 ^ 31) :
    (BitVec.ofNat 32 k).toNat = k ∧ (BitVec.ofNat 32 k).toInt = k := by
  have h1 : (BitVec.ofNat 32 k).toNat = k := by
    rw [BitVec.toNat_ofNat]; exact Nat.mod_eq_of_lt (by omega)
  refine ⟨h1, ?_⟩
  rw [BitVec.toInt_eq_toNat_cond, h1, if_pos (by omega)]

/-- The parameters for a header that announces another number of frames. -/
theorem announce_of {h : Header} {b : ReplayBody} {c : Ctx} {n : Net} (k : I32)
    (hc : CtxOf h b c) (hn : NetOf h b c n) :
    CtxOf (announce h k) b c ∧ NetOf (announce h k) b c n := by
  have hi : headerInt (announce h k) "MaxChannels" = headerInt h "MaxChannels" := by
    unfold headerInt
    rw [announce_find h k (by decide)]
  have hs : ∀ s, "NumFrames" ≠ s → headerStr (announce h k) s = headerStr h s := by
    intro s hs
    unfold headerStr
    rw [announce_find h k hs]
  refine ⟨⟨hc.major, hc.minor, hc.net, hc.color, hc.painted, hc.titleId, hc.special, hc.team, ?_⟩,
    ⟨hn.net, ?_, ?_, hn.sticky, hn.spawn, hn.cls⟩⟩
  · rw [hs _ (by decide)]; exact hc.rl223
  · rw [hi]; exact hn.channels
  · rw [hs _ (by decide)]; exact hn.named

/-- Frames at the start of the network data are the first ones of what is decoded, or are
reported with the error. -/
theorem whole_outcome (env : Env) {h : Header} {b : ReplayBody} (hl : b.objects.length ≤ 2 ^ 31)
    (hlen : b.networkData.length < 2 ^ 31)
    (hcap : b.networkData.length * env.frameSize ≤ env.isizeMax) {k : I32}
    (hk : headerInt h "NumFrames" = some k) (h0 : 0 ≤ k.toInt)
    (hle : k.toNat ≤ b.networkData.length) {m : Nat} {fs : List Frame} (hw : Whole h b m fs)
    (hf : fs.length ≤ k.toNat) :
    (∃ more, Network.parse env h b = .ok ⟨fs ++ more⟩) ∨
    ∃ e ctx, Network.parse env h b = .err (.frameError e ctx) ∧ fs <+: ctx.frames := by
  obtain ⟨hin, c, n, ess, known, j, hc, hn, hf', _⟩ := hw
  obtain ⟨e1, e2⟩ := ofNat_small (k := fs.length) (by omega)
  have hk' : k.toInt = k.toNat := by
    rw [BitVec.toInt_eq_toNat_cond] at h0 ⊢
    split at h0 <;> split <;> omega
  have hp : Network.parse env (announce h (BitVec.ofNat 32 fs.length)) b = .ok ⟨fs⟩ := by
    rw [network_iff env _ b hl hlen hcap]
    unfold NetworkOf
    rw [announce_int]
    obtain ⟨hc', hn'⟩ := announce_of (BitVec.ofNat 32 fs.length) hc hn
    refine ⟨hin, by omega, by omega, c, n, j, hc', hn', ?_⟩
    rw [e1]
    exact framesAt_rel hf'
  have key := parse_fewer env (announce_same h (BitVec.ofNat 32 fs.length)) (b := b) (b' := b)
    ⟨rfl, rfl, rfl⟩ hl hcap hin hk (announce_int h _) (by omega) (by omega) hle
  have nf := (network_agn env env h b hl hlen hcap hcap).2
  rw [hp, e1] at key
  cases hq : Network.parse env h b with
  | ok f =>
    rw [hq] at key
    have e := congrArg NetworkFrames.frames (Res.ok.inj key)
    simp only at e
    refine .inl ⟨f.frames.drop fs.length, ?_⟩
    have : f.frames = fs ++ f.frames.drop fs.length := by
      calc f.frames = f.frames.take fs.length ++ f.frames.drop fs.length :=
            (List.take_append_drop _ _).symm
        _ = _ := by rw [← e]
    rw [← this]
  | err x =>
    rw [hq] at key
    cases x with
    | frameError x ctx =>
      simp only at key
      refine .inr ⟨x, ctx, rfl, ?_⟩
      by_cases hx : ctx.frames.length < fs.length
      · rw [if_pos hx] at key; cases key
      · rw [if_neg hx] at key
        have e := congrArg NetworkFrames.frames (Res.ok.inj key)
        simp only at e
        rw [e]
        exact List.take_prefix _ _
    | streamTooLargeIndex _ _ => exact key.elim
    | tooManyFrames _ => exact key.elim
  | fault x => exact absurd hq (nf x)

/-- Every frame that is decoded is one of the network data, in the sense of `Whole`. -/
theorem decoded_whole (env : Env) {h : Header} {b : ReplayBody} (hl : b.objects.length ≤ 2 ^ 31)
    (hlen : b.networkData.length < 2 ^ 31) {fs : List Frame} {k : I32}
    (hk : headerInt h "NumFrames" = some k) (hp : Network.parse env h b = .ok ⟨fs⟩) :
    Whole h b (8 * b.networkData.length) fs := by
  have hok := network_ok env h b hl hlen hp
  unfold NetworkOf at hok
  rw [hk] at hok
  obtain ⟨hin, _, _, c, n, o, hc, hn, hr⟩ := hok
  obtain ⟨ess, kn, j, hf⟩ := framesRel_at hr
  exact ⟨hin, c, n, ess, kn, j, hc, hn, hf, by rw [BSpec.bytes_length]; omega⟩

/-- The frames before a position are among those of the whole. -/
theorem whole_prefix {h : Header} {b : ReplayBody} {m : Nat} {f g : List Frame}
    (hw : Whole h b m (f ++ g)) : Whole h b m f := by
  obtain ⟨hin, c, n, ess, known, j, hc, hn, hf, hj⟩ := hw
  have key : ∀ {kn : Known} {i j : Bits} {ess : List (List Event)}, FramesAt n (AttrAccepts c) kn (f ++ g) ess known i j →
      ∃ ess' known' j', FramesAt n (AttrAccepts c) kn f ess' known' i j' ∧ j.length ≤ j'.length := by
    clear hf hj
    induction f with
    | nil =>
      intro kn i j ess hf
      obtain ⟨w, rfl, _⟩ := framesAt_same hf
      exact ⟨_, _, _, .nil, by rw [List.length_append]; omega⟩
    | cons x f ih =>
      intro kn i j ess hf
      cases hf with
      | cons h1 h2 =>
        obtain ⟨_, _, _, h3, h4⟩ := ih h2
        exact ⟨_, _, _, .cons h1 h3, h4⟩
  obtain ⟨ess', known', j', h1, h2⟩ := key hf
  exact ⟨hin, c, n, ess', known', j', hc, hn, h1, by omega⟩

/-- C88. Damage that starts after the frames `fs` of some network data, as many as announced or
fewer, leaves them the first frames of the outcome: those decoded, or those reported with an
error. No other error arises. -/
theorem damage_spares (env : Env) {h : Header} {b b' : ReplayBody} {m : Nat}
    (hd : Damaged m b b') (hl : b.objects.length ≤ 2 ^ 31)
    (hlen : b.networkData.length < 2 ^ 31)
    (hcap : b.networkData.length * env.frameSize ≤ env.isizeMax) {k : I32}
    (hk : headerInt h "NumFrames" = some k) (h0 : 0 ≤ k.toInt)
    (hle : k.toNat ≤ b.networkData.length) {fs : List Frame} (hw : Whole h b m fs)
    (hf : fs.length ≤ k.toNat) :
    (∃ more, Network.parse env h b' = .ok ⟨fs ++ more⟩) ∨
    ∃ e ctx, Network.parse env h b' = .err (.frameError e ctx) ∧ fs <+: ctx.frames := by
  refine whole_outcome env ?_ ?_ ?_ hk h0 ?_ (whole_damaged hd hw) hf
  · rw [hd.objects]; exact hl
  · rw [hd.length]; exact hlen
  · rw [hd.length]; exact hcap
  · rw [hd.length]; exact hle

/-- C88. Bodies are cut within the last 66 bits only. -/
theorem whole_move {h : Header} {b : ReplayBody} {m : Nat} {fs : List Frame} (hw : Whole h b m fs)
    (hm : m + 67 ≤ 8 * b.networkData.length) : AllMove fs := by
  obtain ⟨_, c, n, ess, known, j, _, _, hf, hl⟩ := hw
  rw [BSpec.bytes_length] at hl
  exact framesAt_allMove hf (by omega)

/-- C88. Frames that end before the place where the data are altered, cut or continued are still
there, unless one of their bodies is cut. -/
theorem whole_resized {h : Header} {b b' : ReplayBody} {m : Nat} (hd : Resized m b b')
    {fs : List Frame} (hm : AllMove fs) (hw : Whole h b m fs) : Whole h b' m fs := by
  obtain ⟨hin, c, n, ess, known, j, hc, hn, hf, hl⟩ := hw
  refine ⟨by rw [hd.objects, hd.netCache]; exact hin, c, n, ess, known, ?_⟩
  obtain ⟨w, hw, hw'⟩ := framesAt_moved hf hm
  have hm : w.length ≤ m := by rw [hw, List.length_append] at hl; omega
  have hstart : (bytes b'.networkData).take w.length = w := by
    have := congrArg (List.take w.length) hd.start
    rw [List.take_take, List.take_take, Nat.min_eq_left hm] at this
    rw [this, hw, List.take_left]
  have hsplit : bytes b'.networkData = w ++ (bytes b'.networkData).drop w.length := by
    rw [← List.take_append_drop w.length (bytes b'.networkData), hstart, List.drop_left]
  have key := hw' ((bytes b'.networkData).drop w.length)
  rw [← hsplit] at key
  refine ⟨_, ?_, ?_, key, by rw [List.length_drop]; omega⟩
  · refine ⟨hc.major, hc.minor, hc.net, ?_, ?_, ?_, ?_, ?_, hc.rl223⟩ <;> rw [hd.objects]
    · exact hc.color
    · exact hc.painted
    · exact hc.titleId
    · exact hc.special
    · exact hc.team
  · refine ⟨hn.net, hn.channels, hn.named, hn.sticky, ?_, ?_⟩
    · intro o sp; rw [hn.spawn]; unfold SpawnOf; rw [hd.objects]
    · intro o cd; rw [hn.cls]; unfold ClassOf; rw [hd.objects, hd.netCache]

/-- C88. If the length changes as well, the frames before are the first ones of the outcome all the
same, unless one of their bodies is cut. -/
theorem resized_spares (env : Env) {h : Header} {b b' : ReplayBody} {m : Nat}
    (hd : Resized m b b') (hl : b.objects.length ≤ 2 ^ 31)
    (hlen : b'.networkData.length < 2 ^ 31)
    (hcap : b'.networkData.length * env.frameSize ≤ env.isizeMax) {k : I32}
    (hk : headerInt h "NumFrames" = some k) (h0 : 0 ≤ k.toInt)
    (hle : k.toNat ≤ b'.networkData.length) {fs : List Frame} (hw : Whole h b m fs)
    (hm : AllMove fs) (hf : fs.length ≤ k.toNat) :
    (∃ more, Network.parse env h b' = .ok ⟨fs ++ more⟩) ∨
    ∃ e ctx, Network.parse env h b' = .err (.frameError e ctx) ∧ fs <+: ctx.frames :=
  whole_outcome env (by rw [hd.objects]; exact hl) hlen hcap hk h0 hle (whole_resized hd hm hw) hf

/-- C88 for files, with checksums not verified. If a
replay is read and the network data is then damaged after the first `m` bits, of which the first
`i` frames need no more, then what is read differs in the later frames only, or there is an error
that reports these frames. -/
theorem file_damage {env : Env} {pre net net' suf : Bytes} (hu : UpToNetwork net.length pre)
    (hl : net'.length = net.length) (hs : Small env (pre ++ (net ++ suf))) {r : Replay}
    {fs : List Frame} (hp : parseWith .never .always env (pre ++ (net ++ suf)) = .ok r)
    (hr : r.networkFrames = some ⟨fs⟩) {m i : Nat} (hm : (bytes net').take m = (bytes net).take m)
    (hw : Whole (headerOf r) (bodyOf r net) m (fs.take i)) :
    (∃ more, parseWith .never .always env (pre ++ (net' ++ suf)) =
      .ok { r with networkFrames := some ⟨fs.take i ++ more⟩ }) ∨
    ∃ e ctx, parseWith .never .always env (pre ++ (net' ++ suf)) =
      .err (.networkError (.frameError e ctx)) ∧ fs.take i <+: ctx.frames := by
  rw [parseWith_eq] at hp ⊢
  obtain ⟨e, s, s', e1, e2⟩ | ⟨f, e1, e2⟩ | ⟨x, s, hx, e1, e2⟩ := front_same (env := env) hu hl hs.1
  · rw [e1] at hp; cases hp
  · rw [e1] at hp; cases hp
  rw [e1] at hp
  rw [e2]
  simp only [networkStep] at hp ⊢
  obtain ⟨rest, hsec, _⟩ := (front_ok_iff .never env _ hs.len x).1 ⟨s, e1⟩
  obtain ⟨z1, z2, z3⟩ := fileSecs_sizes hsec
  have hcap := hs.cap z1 z3
  cases hq : Network.parse env x.header x.body with
  | err e => rw [hq] at hp; cases hp
  | fault f => rw [hq] at hp; cases hp
  | ok g =>
    rw [hq] at hp
    cases hp
    cases hr
    have hd : Damaged m x.body { x.body with networkData := net' } :=
      ⟨rfl, rfl, by rw [hx]; exact hl, by rw [hx]; exact hm⟩
    have hw' : Whole x.header x.body m (fs.take i) := by subst hx; exact hw
    have hok := network_ok env _ _ (by omega) z3 hq
    unfold NetworkOf at hok
    cases hk : headerInt x.header "NumFrames" with
    | none =>
      rw [hk] at hok
      obtain ⟨hin, rfl⟩ := hok
      have : Network.parse env x.header { x.body with networkData := net' } = .ok ⟨[]⟩ := by
        rw [network_iff env _ _ (by simp only; omega) (by simp only; rw [hl, ← hx]; exact z3)
          (by simp only; rw [hl, ← hx]; exact hcap)]
        unfold NetworkOf
        rw [hk]
        exact ⟨hin, rfl⟩
      rw [this]
      exact .inl ⟨[], by rw [List.take_nil]; rfl⟩
    | some k =>
      rw [hk] at hok
      obtain ⟨hin, h0, hle, c, n, o, _, _, hrel⟩ := hok
      have hfl : (fs.take i).length ≤ k.toNat :=
        Nat.le_trans (List.length_take_le' ..) (framesRel_limit hrel)
      obtain ⟨more, h1⟩ | ⟨e, ctx, h1, h2⟩ :=
        damage_spares env hd (by omega) z3 hcap hk h0 hle hw' hfl
      · rw [h1]; exact .inl ⟨more, rfl⟩
      · rw [h1]; exact .inr ⟨e, ctx, rfl, h2⟩

/-! An instance: two frames, and damage in the second. -/

theorem framesRel_full {n : Net} {A : AttrRel} {limit : Nat} {known : Known} {fs : List Frame}
    {i o : Bits} (h : FramesRel n A limit known fs i o) (hl : fs.length = limit) (ho : limit ≠ 0) :
    ∃ ess k, FramesAt n A known fs ess k i o := by
  induction h with
  | full => exact (ho rfl).elim
  | empty => exact (ho hl.symm).elim
  | stop => cases hl
  | @frame limit known f es fs i j o h1 h2 ih =>
    by_cases h0 : limit = 0
    · subst h0
      rw [List.length_cons] at hl
      obtain rfl := List.eq_nil_of_length_eq_zero (by omega : fs.length = 0)
      have : j = o := by
        cases h2 with
        | full => rfl
        | empty => rfl
      subst this
      exact ⟨_, _, .cons h1 .nil⟩
    · obtain ⟨ess, k, h⟩ := ih (by rw [List.length_cons] at hl; omega) h0
      exact ⟨_, _, .cons h1 h⟩

/-- Where the first frames end, from a run that decodes no more. -/
theorem whole_run (env : Env) {h : Header} {b : ReplayBody} (hl : b.objects.length ≤ 2 ^ 31)
    (hin : InRange b.objects b.netCache) {spawns : List (Option SpawnTrajectory)}
    {caches : List (Option CacheInfo)}
    (hs : (Network.spawnTable env b.objects : Res NetworkError _) = .ok spawns)
    (hc : Network.cacheTable env b.objects b.netCache = .ok caches) {fs : List Frame} {r : Reader}
    (h0 : fs ≠ []) (hr : (Network.frameDecoder h b fs.length spawns caches).allFrames env
      (Reader.new b.networkData) = .ok fs r) {m : Nat}
    (hm : 8 * b.networkData.length ≤ m + r.bits.length) : Whole h b m fs := by
  obtain ⟨hw, hn⟩ := frameDecoder_of env h b fs.length hl hs hin hc
  have hctx := ctx_of h b fs.length spawns caches
  have key := (FrameDecoder.allFrames_spec _ hw).okIff env (Reader.new b.networkData)
    (FrameDecoder.reader_new_valid _) (by rw [FrameDecoder.reader_new_length]; exact Nat.le_refl _)
    fs r.bits
  have hrel := key.1 ⟨r, hr, rfl⟩
  rw [bytes_new] at hrel
  obtain ⟨ess, k, hf⟩ := framesRel_full hrel rfl (fun h => h0 (List.eq_nil_of_length_eq_zero h))
  exact ⟨hin, _, _, ess, k, _, hctx, hn, hf, by rw [BSpec.bytes_length]; exact hm⟩

def damageData : List Byte :=
  [0, 0, 128, 63, 0, 0, 0, 63, 11, 0, 0, 0, 248, 7, 0, 0, 224, 167, 1, 0]

def damageFrame : Frame := ⟨0x3f800000, 0x3f000000, [], [5], []⟩

set_option maxRecDepth 100000 in
/-- The first of two frames takes 77 bits. -/
theorem damage_whole : Whole endHeader (endBody damageData) 77 [damageFrame] := by
  have hin : InRange (endBody damageData).objects (endBody damageData).netCache := by
    intro c hc p hp
    obtain rfl : c = ⟨1, 0, 0, [⟨2, 0⟩]⟩ := by simpa [endBody] using hc
    obtain rfl : p = ⟨2, 0⟩ := by simpa using hp
    decide
  obtain ⟨spawns, hs, _⟩ := spawnTable_run (ε := NetworkError) Env.default64
    (endBody damageData).objects (by decide)
  obtain ⟨caches, hc, _⟩ := cacheTable_run Env.default64 (endBody damageData).objects (by decide)
    (endBody damageData).netCache hin
  have key : (match (Network.spawnTable Env.default64 (endBody damageData).objects : Res NetworkError _),
      Network.cacheTable Env.default64 (endBody damageData).objects (endBody damageData).netCache with
    | .ok sp, .ok ca =>
      match (Network.frameDecoder endHeader (endBody damageData) 1 sp ca).allFrames Env.default64
        (Reader.new damageData) with
      | .ok fs r => decide (fs = [damageFrame] ∧ r.bits.length = 83)
      | _ => false
    | _, _ => false) = true := by decide +kernel
  rw [hs, hc] at key
  simp only at key
  cases hr : (Network.frameDecoder endHeader (endBody damageData) 1 spawns caches).allFrames
      Env.default64 (Reader.new damageData) with
  | ok fs r =>
    rw [hr] at key
    obtain ⟨rfl, hb⟩ := of_decide_eq_true key
    exact whole_run Env.default64 (by decide) hin hs hc (by simp) hr (by rw [hb]; decide)
  | err e r => rw [hr] at key; cases key
  | fault x => rw [hr] at key; cases key

/-- Whatever happens to the remaining 83 bits, the first frame stays. -/
theorem damage_any {b' : ReplayBody} (hd : Damaged 77 (endBody damageData) b') :
    (∃ more, Network.parse Env.default64 endHeader b' = .ok ⟨[damageFrame] ++ more⟩) ∨
    ∃ e ctx, Network.parse Env.default64 endHeader b' = .err (.frameError e ctx) ∧
      [damageFrame] <+: ctx.frames :=
  damage_spares Env.default64 hd (by decide) (by decide) (by decide +kernel) (k := 2)
    (by decide +kernel) (by decide) (by decide) damage_whole (by decide)

/-- The first frame is the first one of every network data that starts with these 77 bits. -/
theorem resized_any {b' : ReplayBody} (hd : Resized 77 (endBody damageData) b')
    (h2 : 2 ≤ b'.networkData.length) (hl : b'.networkData.length < 2 ^ 20) :
    (∃ more, Network.parse Env.default64 endHeader b' = .ok ⟨[damageFrame] ++ more⟩) ∨
    ∃ e ctx, Network.parse Env.default64 endHeader b' = .err (.frameError e ctx) ∧
      [damageFrame] <+: ctx.frames :=
  resized_spares Env.default64 hd (by decide) (by omega)
    (by have : Env.default64.frameSize * 2 ^ 20 ≤ Env.default64.isizeMax := by decide
        calc _ ≤ 2 ^ 20 * Env.default64.frameSize := Nat.mul_le_mul_right _ (by omega)
          _ ≤ _ := by rw [Nat.mul_comm]; exact this)
    (k := 2) (by decide +kernel) (by decide) h2 damage_whole
    (whole_move damage_whole (by decide)) (by decide)

set_option maxRecDepth 100000 in
/-- Undamaged there are two frames; with another exponent of the second time there is an error; with
the last bit of the first frame set that frame is another one. -/
theorem damage_demo :
    (match Network.parse Env.default64 endHeader (endBody damageData) with
      | .ok f => f.frames == [damageFrame, ⟨0x3fc00000, 0x3f000000, [], [6], []⟩]
      | _ => false) = true ∧
    (match Network.parse Env.default64 endHeader (endBody ((damageData.set 12 8).set 13 0)) with
      | .err (.frameError (.timeOutOfRange _) ctx) => ctx.frames == [damageFrame]
      | _ => false) = true ∧
    (match Network.parse Env.default64 endHeader (endBody (damageData.set 9 16)) with
      | .err (.frameError _ ctx) => !(ctx.frames.take 1 == [damageFrame])
      | _ => false) = true := by
  decide +kernel

end Boxcars.Props
