import Verif.Props.Depends
/-!
# C73: the announced number of frames
-/
namespace Boxcars
open FrameDecoder

/-- The decoder with another number of frames. -/
def FrameDecoder.withLen (d : FrameDecoder) (n : Nat) : FrameDecoder := { d with framesLen := n }

namespace FrameDecoder

variable (d : FrameDecoder) (n : Nat)

theorem actorLoop_len (ad : AttrDecoder) (fuel : Nat) (st : FrameSt) :
    (d.withLen n).actorLoop ad fuel st = d.actorLoop ad fuel st := by
  induction fuel generalizing st with
  | zero => rfl
  | succ fuel ih =>
    rw [actorLoop, actorLoop]
    simp only [ih]
    rfl

theorem decodeFrame_len (ad : AttrDecoder) (fuel : Nat) (a : SegArray (ObjectId × CacheInfo)) :
    (d.withLen n).decodeFrame ad fuel a = d.decodeFrame ad fuel a := by
  unfold decodeFrame
  simp only [actorLoop_len]

theorem context_len (fs : List Frame) (st : FrameSt) :
    (d.withLen n).context fs st = d.context fs st := rfl

/-- One round of the loop. -/
theorem loop_step (ad : AttrDecoder) (bf fuel : Nat) (frames : List Frame)
    (actors : SegArray (ObjectId × CacheInfo)) (env : Env) (r : Reader) :
    (d.withLen n).framesLoop ad bf (fuel + 1) frames actors env r =
      if r.isEmpty = false ∧ frames.length < n then
        match d.decodeFrame ad bf actors env r with
        | .ok none r' => .ok frames r'
        | .ok (some (f, a)) r' => (d.withLen n).framesLoop ad bf fuel (frames ++ [f]) a env r'
        | .err (e, st) r' => .err (.frameError e (d.context frames st)) r'
        | .fault x => .fault x
      else .ok frames r := by
  rw [framesLoop]
  show BM.bind isEmptyBM _ env r = _
  unfold BM.bind isEmptyBM
  simp only
  cases hr : r.isEmpty with
  | true => simp; rfl
  | false =>
    by_cases hn : frames.length < n
    · have h1 : (!false && decide (frames.length < (d.withLen n).framesLen)) = true := by
        rw [Bool.not_false, Bool.true_and, decide_eq_true_eq]; exact hn
      rw [if_pos h1, if_pos ⟨rfl, hn⟩, decodeFrame_len]
      show BM.bind _ _ env r = _
      unfold BM.bind BM.mapErr
      simp only
      cases d.decodeFrame ad bf actors env r with
      | ok o r' =>
        cases o with
        | none => rfl
        | some p => rfl
      | err e r' => rfl
      | fault x => rfl
    · have h1 : ¬(!false && decide (frames.length < (d.withLen n).framesLen)) = true := by
        rw [Bool.not_false, Bool.true_and, decide_eq_true_eq]; exact hn
      rw [if_neg h1, if_neg (fun h => hn h.2)]
      rfl

/-- The frames decoded so far are the first ones of the outcome. -/
theorem loop_prefix (ad : AttrDecoder) (bf fuel : Nat) (frames : List Frame)
    (actors : SegArray (ObjectId × CacheInfo)) (env : Env) (r : Reader) :
    match (d.withLen n).framesLoop ad bf fuel frames actors env r with
    | .ok fs _ => frames <+: fs
    | .err (.frameError _ c) _ => frames <+: c.frames
    | .err _ _ => False
    | .fault _ => True := by
  induction fuel generalizing frames actors r with
  | zero => exact trivial
  | succ fuel ih =>
    rw [loop_step]
    by_cases hc : r.isEmpty = false ∧ frames.length < n
    · rw [if_pos hc]
      cases d.decodeFrame ad bf actors env r with
      | ok o r' =>
        cases o with
        | none => exact List.prefix_refl _
        | some p =>
          have h := ih (frames ++ [p.1]) p.2 r'
          revert h
          show _ → match (d.withLen n).framesLoop ad bf fuel (frames ++ [p.1]) p.2 env r' with
            | .ok fs _ => frames <+: fs
            | .err (.frameError _ c) _ => frames <+: c.frames
            | .err _ _ => False
            | .fault _ => True
          cases (d.withLen n).framesLoop ad bf fuel (frames ++ [p.1]) p.2 env r' with
          | ok fs _ => exact fun h => (List.prefix_append _ _).trans h
          | err e _ =>
            cases e with
            | frameError e c => exact fun h => (List.prefix_append _ _).trans h
            | streamTooLargeIndex a b => exact id
            | tooManyFrames a => exact id
          | fault _ => exact id
      | err e r' => exact List.prefix_refl _
      | fault x => exact trivial
    · rw [if_neg hc]

/-- With fewer frames announced. -/
theorem loop_fewer (ad : AttrDecoder) (bf : Nat) {k : Nat} (hk : k ≤ n) (fuel fuel' : Nat)
    (frames : List Frame) (hf : frames.length ≤ k) (h1 : n < fuel + frames.length)
    (h2 : k < fuel' + frames.length)
    (actors : SegArray (ObjectId × CacheInfo)) (env : Env) (r : Reader) :
    match (d.withLen n).framesLoop ad bf fuel frames actors env r with
    | .ok fs _ => ∃ r', (d.withLen k).framesLoop ad bf fuel' frames actors env r = .ok (fs.take k) r'
    | .err (.frameError e c) r1 =>
      if c.frames.length < k then
        (d.withLen k).framesLoop ad bf fuel' frames actors env r = .err (.frameError e c) r1
      else ∃ r', (d.withLen k).framesLoop ad bf fuel' frames actors env r =
        .ok (c.frames.take k) r'
    | .err _ _ => False
    | .fault _ => True := by
  induction fuel generalizing fuel' frames actors r with
  | zero => omega
  | succ fuel ih =>
    obtain ⟨fuel', rfl⟩ : ∃ m, fuel' = m + 1 := ⟨fuel' - 1, by omega⟩
    by_cases hlt : frames.length < k
    · rw [loop_step, loop_step]
      by_cases hr : r.isEmpty = false
      · rw [if_pos ⟨hr, by omega⟩, if_pos ⟨hr, hlt⟩]
        cases d.decodeFrame ad bf actors env r with
        | ok o r' =>
          cases o with
          | none => exact ⟨r', by rw [List.take_of_length_le (by omega)]⟩
          | some p =>
            exact ih fuel' (frames ++ [p.1]) (by simp; omega) (by simp; omega) (by simp; omega) p.2 r'
        | err e r' =>
          simp only
          rw [if_pos (show (d.context frames e.2).frames.length < k from hlt)]
          trivial
        | fault x => exact trivial
      · rw [if_neg (fun h => hr h.1), if_neg (fun h => hr h.1)]
        exact ⟨r, by rw [List.take_of_length_le (by omega)]⟩
    · have hl : frames.length = k := by omega
      have hp := loop_prefix d n ad bf (fuel + 1) frames actors env r
      have hk' : (d.withLen k).framesLoop ad bf (fuel' + 1) frames actors env r = .ok frames r := by
        rw [loop_step, if_neg (fun h => hlt h.2)]
      rw [hk']
      revert hp
      cases (d.withLen n).framesLoop ad bf (fuel + 1) frames actors env r with
      | ok fs _ =>
        rintro ⟨t, rfl⟩
        exact ⟨r, by rw [← hl, List.take_left]⟩
      | err e _ =>
        cases e with
        | frameError e c =>
          rintro ⟨t, ht⟩
          simp only
          rw [if_neg (by rw [← ht, List.length_append]; omega)]
          exact ⟨r, by rw [← ht, ← hl, List.take_left]⟩
        | streamTooLargeIndex a b => exact id
        | tooManyFrames a => exact id
      | fault _ => exact id

theorem allFrames_len : (d.withLen n).allFrames = (d.withLen n).framesLoop d.attrDecoder
    (8 * d.networkData.length + 1) (n + 1) [] (SegArray.new 200) := rfl

/-- `decode_frames` with fewer frames. -/
theorem decodeFrames_fewer {k : Nat} (hk : k ≤ n) (env : Env) (r : Reader)
    (hc : n * env.frameSize ≤ env.isizeMax) :
    match Network.runBM env (d.withLen n).decodeFrames r with
    | .ok fs => Network.runBM env (d.withLen k).decodeFrames r = .ok (fs.take k)
    | .err (.frameError e c) => Network.runBM env (d.withLen k).decodeFrames r =
      if c.frames.length < k then .err (.frameError e c) else .ok (c.frames.take k)
    | .err _ => False
    | .fault _ => True := by
  have hc' : k * env.frameSize ≤ env.isizeMax := Nat.le_trans (Nat.mul_le_mul_right _ hk) hc
  rw [decodeFrames_run (d.withLen n) env hc, decodeFrames_run (d.withLen k) env hc']
  have h := loop_fewer d n d.attrDecoder (8 * d.networkData.length + 1) hk (n + 1) (k + 1) []
    (Nat.zero_le _) (by simp) (by simp) (SegArray.new 200) env r
  unfold Network.runBM
  rw [allFrames_len, allFrames_len]
  revert h
  cases (d.withLen n).framesLoop d.attrDecoder (8 * d.networkData.length + 1) (n + 1) []
    (SegArray.new 200) env r with
  | ok fs _ =>
    rintro ⟨r', h⟩
    simp only [h]
  | err e _ =>
    cases e with
    | frameError e c =>
      intro h
      by_cases hl : c.frames.length < k
      · simp only [if_pos hl] at h ⊢
        rw [h]
      · simp only [if_neg hl] at h ⊢
        obtain ⟨r', h⟩ := h
        rw [h]
    | streamTooLargeIndex a b => exact id
    | tooManyFrames a => exact id
  | fault _ => exact id

end FrameDecoder

namespace Props
open Spec

/-- Headers that differ in the number of frames build the same decoder but for this number. -/
theorem frameDecoder_but {h h' : Header} {b b' : ReplayBody} (hh : SameButFrames h h')
    (hb : SameBody b b') (n : Nat) (sp : List (Option SpawnTrajectory))
    (ca : List (Option CacheInfo)) :
    Network.frameDecoder h b n sp ca = Network.frameDecoder h' b' n sp ca := by
  have e0 : Network.version h = Network.version h' := by
    unfold Network.version
    rw [hh.major, hh.minor]
    exact congrArg _ hh.net
  have e1 : Network.maxChannels h = Network.maxChannels h' := by
    have := hh.channels
    rw [(headerInt_eq h).2, (headerInt_eq h').2] at this
    exact this
  have e3 : Network.isLan h = Network.isLan h' := by
    have := hh.lan
    rw [(headerStr_eq h).1, (headerStr_eq h').1] at this
    have k : ∀ g : Header, Network.isLan g = true ↔ g.matchType = some "Lan".toList := by
      intro g
      unfold Network.isLan lit
      generalize "Lan".toList = l
      cases g.matchType <;> simp
    rw [Bool.eq_iff_iff, k, k]
    exact this
  have e4 : Network.isRl223 h = Network.isRl223 h' := by
    have := hh.build
    rw [(headerStr_eq h).2, (headerStr_eq h').2] at this
    have k : ∀ g : Header, Network.isRl223 g = true ↔
        ∃ x, g.buildVersion = some x ∧ "221120.42953.406184".toList ≤ x := by
      intro g
      unfold Network.isRl223
      cases g.buildVersion with
      | none => simp
      | some x => simp only [strGe_iff, Option.some.injEq, exists_eq_left']
    rw [Bool.eq_iff_iff, k, k]
    exact this
  unfold Network.frameDecoder Network.channelBits
  rw [e0, e1, e3, e4, hb.objects, hb.data]

/-- `network::parse` for a header with a number of frames. -/
theorem parse_counted (env : Env) {h : Header} {b : ReplayBody} {n : I32}
    (hn : headerInt h "NumFrames" = some n) (h0 : 0 ≤ n.toInt)
    {spawns : List (Option SpawnTrajectory)} {caches : List (Option CacheInfo)}
    (hs : (Network.spawnTable env b.objects : Res NetworkError _) = .ok spawns)
    (hc : Network.cacheTable env b.objects b.netCache = .ok caches) :
    Network.parse env h b = if n.toNat > b.networkData.length then .err (.tooManyFrames n) else
      match Network.runBM env (Network.frameDecoder h b n.toNat spawns caches).decodeFrames
        (Reader.new b.networkData) with
      | .ok fs => .ok ⟨fs⟩
      | .err e => .err e
      | .fault x => .fault x := by
  rw [(headerInt_eq h).1] at hn
  unfold Network.parse
  rw [hs, Res.ok_bind, hc, Res.ok_bind, hn]
  simp only
  rw [usizeOfI32_nonneg env h0]
  split
  · rfl
  · cases Network.runBM env (Network.frameDecoder h b n.toNat spawns caches).decodeFrames
      (Reader.new b.networkData) <;> rfl

/-- The same for two headers with different numbers of frames. -/
theorem parse_fewer (env : Env) {h h' : Header} {b b' : ReplayBody} (hh : SameButFrames h h')
    (hb : SameBody b b') (hl : b.objects.length ≤ 2 ^ 31)
    (hcap : b.networkData.length * env.frameSize ≤ env.isizeMax) (hr : InRange b.objects b.netCache)
    {n k : I32} (hn : headerInt h "NumFrames" = some n) (hk : headerInt h' "NumFrames" = some k)
    (h0 : 0 ≤ k.toInt) (hkn : k.toInt ≤ n.toInt) (hle : n.toNat ≤ b.networkData.length) :
    match Network.parse env h b with
    | .ok f => Network.parse env h' b' = .ok ⟨f.frames.take k.toNat⟩
    | .err (.frameError e c) => Network.parse env h' b' =
      if c.frames.length < k.toNat then .err (.frameError e c) else .ok ⟨c.frames.take k.toNat⟩
    | .err _ => False
    | .fault _ => True := by
  have e6 : Network.cacheTable env b.objects b.netCache =
      Network.cacheTable env b'.objects b'.netCache := by
    unfold Network.cacheTable
    rw [hb.objects, netProperties_same env b'.objects hb.cache]
  obtain ⟨spawns, hs, _⟩ := spawnTable_run (ε := NetworkError) env b.objects hl
  obtain ⟨caches, hc, _⟩ := cacheTable_run env b.objects hl b.netCache hr
  have hkn' : k.toNat ≤ n.toNat := by
    rw [BitVec.toInt_eq_toNat_cond] at h0 hkn
    rw [BitVec.toInt_eq_toNat_cond] at hkn
    split at h0 <;> split at hkn <;> omega
  rw [parse_counted env hn (by omega) hs hc, parse_counted env hk h0 (b := b') (hb.objects ▸ hs) (e6 ▸ hc),
    ← hb.data, if_neg (by omega), if_neg (by omega), ← frameDecoder_but hh hb]
  have key := FrameDecoder.decodeFrames_fewer (Network.frameDecoder h b 0 spawns caches) n.toNat hkn' env
    (Reader.new b.networkData) (Nat.le_trans (Nat.mul_le_mul_right _ hle) hcap)
  have e1 : (Network.frameDecoder h b 0 spawns caches).withLen n.toNat =
    Network.frameDecoder h b n.toNat spawns caches := rfl
  have e2 : (Network.frameDecoder h b 0 spawns caches).withLen k.toNat =
    Network.frameDecoder h b k.toNat spawns caches := rfl
  rw [e1, e2] at key
  revert key
  cases Network.runBM env (Network.frameDecoder h b n.toNat spawns caches).decodeFrames
      (Reader.new b.networkData) with
  | ok fs => intro h; simp only at h ⊢; rw [h]
  | err e =>
    cases e with
    | frameError e c =>
      intro h
      simp only at h ⊢
      rw [h]
      by_cases hl : c.frames.length < k.toNat
      · rw [if_pos hl, if_pos hl]
      · rw [if_neg hl, if_neg hl]
    | streamTooLargeIndex a b => exact id
    | tooManyFrames a => exact id
  | fault _ => exact id

/-- C73. If fewer frames are announced, the first of them are found, and an error only if it was
among them. -/
theorem fewer_frames (env : Env) {h h' : Header} {b b' : ReplayBody} (hh : SameButFrames h h')
    (hb : SameBody b b') (hl : b.objects.length ≤ 2 ^ 31)
    (hcap : b.networkData.length * env.frameSize ≤ env.isizeMax) {n k : I32}
    (hn : headerInt h "NumFrames" = some n) (hk : headerInt h' "NumFrames" = some k)
    (h0 : 0 ≤ k.toInt) (hkn : k.toInt ≤ n.toInt) :
    (∀ fs, Network.parse env h b = .ok ⟨fs⟩ → Network.parse env h' b' = .ok ⟨fs.take k.toNat⟩) ∧
    ∀ e c, Network.parse env h b = .err (.frameError e c) → Network.parse env h' b' =
      if c.frames.length < k.toNat then .err (.frameError e c) else .ok ⟨c.frames.take k.toNat⟩ := by
  by_cases hr : InRange b.objects b.netCache
  · by_cases hle : n.toNat ≤ b.networkData.length
    · have key := parse_fewer env hh hb hl hcap hr hn hk h0 hkn hle
      constructor
      · intro fs e
        rw [e] at key
        exact key
      · intro x c e
        rw [e] at key
        exact key
    · obtain ⟨spawns, hs, _⟩ := spawnTable_run (ε := NetworkError) env b.objects hl
      obtain ⟨caches, hc, _⟩ := cacheTable_run env b.objects hl b.netCache hr
      rw [parse_counted env hn (by omega) hs hc, if_pos (by omega)]
      exact ⟨fun _ e => (by cases e), fun _ _ e => (by cases e)⟩
  · obtain ⟨spawns, hs, _⟩ := spawnTable_run (ε := NetworkError) env b.objects hl
    obtain ⟨_, p, _, _, _, _, hc⟩ := cacheTable_err env b.objects hl b.netCache hr
    have : Network.parse env h b = .err (.streamTooLargeIndex p.streamId p.objectInd) := by
      unfold Network.parse
      rw [hs, Res.ok_bind, hc]
      rfl
    rw [this]
    exact ⟨fun _ e => (by cases e), fun _ _ e => (by cases e)⟩

/-- C73. If a stream ends before the announced number of frames, announcing more changes nothing, up
to the number of bytes. -/
theorem more_frames (env : Env) {h h' : Header} {b b' : ReplayBody} (hh : SameButFrames h h')
    (hb : SameBody b b') (hl : b.objects.length ≤ 2 ^ 31) (hlen : b.networkData.length < 2 ^ 31)
    (hcap : b.networkData.length * env.frameSize ≤ env.isizeMax) {n k : I32}
    (hn : headerInt h "NumFrames" = some n) (hk : headerInt h' "NumFrames" = some k)
    (h0 : 0 ≤ k.toInt) (hkn : k.toInt ≤ n.toInt) (hle : n.toNat ≤ b.networkData.length)
    {fs : List Frame} (hfs : Network.parse env h' b' = .ok ⟨fs⟩) (hshort : fs.length < k.toNat) :
    Network.parse env h b = .ok ⟨fs⟩ := by
  by_cases hr : InRange b.objects b.netCache
  · have key := parse_fewer env hh hb hl hcap hr hn hk h0 hkn hle
    have nf := (network_agn env env h b hl hlen hcap hcap).2
    rw [hfs] at key
    cases hp : Network.parse env h b with
    | ok f =>
      rw [hp] at key
      have e := congrArg NetworkFrames.frames (Res.ok.inj key)
      simp only at e
      rw [e, List.length_take] at hshort
      rw [e, List.take_of_length_le (by omega)]
    | err e =>
      rw [hp] at key
      cases e with
      | frameError e c =>
        simp only at key
        by_cases hc : c.frames.length < k.toNat
        · rw [if_pos hc] at key; cases key
        · rw [if_neg hc] at key
          have e := congrArg NetworkFrames.frames (Res.ok.inj key)
          simp only at e
          rw [e, List.length_take] at hshort
          omega
      | streamTooLargeIndex a b => exact key.elim
      | tooManyFrames a => exact key.elim
    | fault x => exact absurd hp (nf x)
  · obtain ⟨spawns, hs, _⟩ := spawnTable_run (ε := NetworkError) env b.objects hl
    obtain ⟨_, p, _, _, _, _, hc⟩ := cacheTable_err env b.objects hl b.netCache hr
    have e6 : Network.cacheTable env b.objects b.netCache =
        Network.cacheTable env b'.objects b'.netCache := by
      unfold Network.cacheTable
      rw [hb.objects, netProperties_same env b'.objects hb.cache]
    have : Network.parse env h' b' = .err (.streamTooLargeIndex p.streamId p.objectInd) := by
      unfold Network.parse
      rw [← e6, ← hb.objects, hs, Res.ok_bind, hc]
      rfl
    rw [this] at hfs
    cases hfs

/-- The header with another number of frames in front. -/
def announce (h : Header) (n : I32) : Header :=
  { h with properties := ("NumFrames".toList, .int n) :: h.properties }

theorem announce_int (h : Header) (n : I32) : headerInt (announce h n) "NumFrames" = some n := by
  unfold headerInt announce
  rw [List.find?_cons_of_pos (by rw [beq_self_eq_true])]

theorem announce_find (h : Header) (n : I32) {k : String} (hk : "NumFrames" ≠ k) :
    (announce h n).properties.find? (fun p => p.1 == k.toList) =
      h.properties.find? (fun p => p.1 == k.toList) := by
  unfold announce
  rw [List.find?_cons_of_neg]
  intro e
  exact hk (lit_inj.1 (eq_of_beq e))

theorem announce_same (h : Header) (n : I32) : SameButFrames h (announce h n) := by
  have hi : headerInt (announce h n) "MaxChannels" = headerInt h "MaxChannels" := by
    unfold headerInt
    rw [announce_find h n (by decide)]
  have hs : ∀ k, "NumFrames" ≠ k → headerStr (announce h n) k = headerStr h k := by
    intro k hk
    unfold headerStr
    rw [announce_find h n hk]
  exact ⟨rfl, rfl, rfl, by rw [hi], by rw [hs _ (by decide)], by rw [hs _ (by decide)]⟩

theorem SameButFrames.symm_trans {a b c : Header} (h : SameButFrames a b) (h' : SameButFrames a c) :
    SameButFrames b c :=
  ⟨h.major.symm.trans h'.major, h.minor.symm.trans h'.minor, h.net.symm.trans h'.net,
    h.channels.symm.trans h'.channels, h.lan.symm.trans h'.lan, h.build.symm.trans h'.build⟩

/-- C73. The network data hold frames followed by an end or an error, whatever number of frames the
header announces: this number only says how many of them are wanted. -/
theorem frames_announced (env : Env) (h : Header) (b : ReplayBody) (hl : b.objects.length ≤ 2 ^ 31)
    (hlen : b.networkData.length < 2 ^ 31)
    (hcap : b.networkData.length * env.frameSize ≤ env.isizeMax)
    (hr : InRange b.objects b.netCache) : ∃ fs stop, (∀ e c, stop = some (e, c) → c.frames = fs) ∧
      ∀ h' n, SameButFrames h h' → headerInt h' "NumFrames" = some n → 0 ≤ n.toInt →
        n.toNat ≤ b.networkData.length → Network.parse env h' b = announced fs stop n.toNat := by
  have hN : (BitVec.ofNat 32 b.networkData.length).toNat = b.networkData.length := by
    rw [BitVec.toNat_ofNat, Nat.mod_eq_of_lt (by omega)]
  have hI : (BitVec.ofNat 32 b.networkData.length).toInt = b.networkData.length := by
    rw [BitVec.toInt_eq_toNat_cond, hN, if_pos (by omega)]
  have key : ∀ h' n, SameButFrames h h' → headerInt h' "NumFrames" = some n → 0 ≤ n.toInt →
      n.toNat ≤ b.networkData.length → _ := fun h' n hh hn h0 hle =>
    parse_fewer env (SameButFrames.symm_trans (announce_same h (BitVec.ofNat 32 b.networkData.length)) hh)
      (b := b) (b' := b) ⟨rfl, rfl, rfl⟩ hl hcap hr (announce_int _ _) hn h0 (by
        rw [hI]
        rw [BitVec.toInt_eq_toNat_cond] at h0 ⊢
        split at h0 <;> split <;> omega) (by omega)
  have nf := (network_agn env env (announce h (BitVec.ofNat 32 b.networkData.length)) b hl hlen
    hcap hcap).2
  revert key nf
  cases Network.parse env (announce h (BitVec.ofNat 32 b.networkData.length)) b with
  | ok f =>
    intro key _
    refine ⟨f.frames, none, by simp, fun h' n hh hn h0 hle => ?_⟩
    rw [key h' n hh hn h0 hle]
    unfold announced
    split
    · rfl
    · rw [List.take_of_length_le (by omega)]
  | err e =>
    cases e with
    | frameError e c =>
      intro key _
      refine ⟨c.frames, some (e, c), by simp, fun h' n hh hn h0 hle => ?_⟩
      rw [key h' n hh hn h0 hle]
      unfold announced
      by_cases hc : c.frames.length < n.toNat
      · rw [if_pos hc, if_neg (by omega)]
      · rw [if_neg hc, if_pos (by omega)]
    | streamTooLargeIndex x y =>
      intro key _
      exact (key _ _ (announce_same h 0) (announce_int h 0) (by decide) (Nat.zero_le _)).elim
    | tooManyFrames x =>
      intro key _
      exact (key _ _ (announce_same h 0) (announce_int h 0) (by decide) (Nat.zero_le _)).elim
  | fault x => intro _ nf; exact absurd rfl (nf x)

/-- C73 for files. If one file has the frames `fs` and another differs from it in what is said
about the network data only by announcing fewer frames, the other has the first of these. -/
theorem file_fewer {env : Env} {data data' : List Byte} (hs : Small env data)
    (hs' : Room env data'.length) {check check' : CrcCheck} {x x' : Sections} {rest rest' : List Byte}
    (hx : FileSecs (decide (check = .always)) x data rest)
    (hx' : FileSecs (decide (check' = .always)) x' data' rest')
    (hh : SameButFrames x.header x'.header) (hb : SameBody x.body x'.body) {n k : I32}
    (hn : headerInt x.header "NumFrames" = some n) (hk : headerInt x'.header "NumFrames" = some k)
    (h0 : 0 ≤ k.toInt) (hkn : k.toInt ≤ n.toInt) {fs : List Frame}
    (hp : parseWith check .always env data = .ok (x.replay (some ⟨fs⟩))) :
    parseWith check' .always env data' = .ok (x'.replay (some ⟨fs.take k.toNat⟩)) := by
  obtain ⟨y, r, net, hy, ⟨f, hf, rfl⟩, e⟩ := (parseWith_ok_iff check .always env data hs.1 _).1 hp
  obtain ⟨rfl, _⟩ := FileSecs_unique (by have := hs.len; have := isizeMax_lt env; omega) hx hy
  have : f = ⟨fs⟩ := (Option.some.inj (congrArg Replay.networkFrames e)).symm
  subst this
  obtain ⟨h1, h2, h3⟩ := fileSecs_sizes hx
  exact (parseWith_ok_iff check' .always env data' hs' _).2 ⟨x', rest', _, hx', ⟨_,
    (fewer_frames env hh hb (by omega) (hs.cap h1 h3) hn hk h0 hkn).1 fs hf, rfl⟩, rfl⟩

/-! ## The data of three frames -/

theorem wrote_same (n : I32) : SameButFrames wroteHeader (withProps [("NumFrames".toList, .int n)]) := by
  have e1 : headerStr wroteHeader "BuildVersion" = none := by decide +kernel
  have e2 : headerStr (withProps [("NumFrames".toList, .int n)]) "BuildVersion" = none := by
    unfold headerStr withProps
    rw [List.find?_cons_of_neg]
    · rfl
    · intro e
      exact absurd (lit_inj.1 (eq_of_beq e)) (by decide)
  have e3 : headerStr wroteHeader "MatchType" = none := by decide +kernel
  have e4 : headerStr (withProps [("NumFrames".toList, .int n)]) "MatchType" = none := by
    unfold headerStr withProps
    rw [List.find?_cons_of_neg]
    · rfl
    · intro e
      exact absurd (lit_inj.1 (eq_of_beq e)) (by decide)
  have e5 : headerInt wroteHeader "MaxChannels" = none := by decide +kernel
  have e6 : headerInt (withProps [("NumFrames".toList, .int n)]) "MaxChannels" = none := by
    unfold headerInt withProps
    rw [List.find?_cons_of_neg]
    · rfl
    · intro e
      exact absurd (lit_inj.1 (eq_of_beq e)) (by decide)
  exact ⟨rfl, rfl, rfl, by rw [e5, e6], by rw [e3, e4], by rw [e1, e2]⟩

set_option maxRecDepth 100000 in
/-- Announcing two of the three frames gives the first two. -/
example : ∃ fs, fs.length = 3 ∧ Network.parse Env.default64 wroteHeader wroteBody = .ok ⟨fs⟩ ∧
    Network.parse Env.default64 (withProps [("NumFrames".toList, .int 2)]) wroteBody =
      .ok ⟨fs.take 2⟩ := by
  have hc : countOf wroteHeader wroteBody = some 3 := by decide +kernel
  unfold countOf framesOf at hc
  cases hp : Network.parse Env.default64 wroteHeader wroteBody with
  | err e => rw [hp] at hc; cases hc
  | fault f => rw [hp] at hc; cases hc
  | ok f =>
    rw [hp] at hc
    exact ⟨f.frames, Option.some.inj hc, rfl, (fewer_frames Env.default64 (n := 3) (k := 2) (wrote_same 2)
      ⟨rfl, rfl, rfl⟩ (by decide +kernel) (by decide +kernel) (by decide +kernel)
      (by decide +kernel) (by decide) (by decide)).1 f.frames hp⟩

set_option maxRecDepth 100000 in
/-- The data end after these frames with bits that are no frame: a fourth frame is an error. -/
example : framesOf (withProps [("NumFrames".toList, .int 4)]) wroteBody = none := by
  decide +kernel

/-- The first frame, followed by zeros. -/
def oneBody : ReplayBody := { wroteBody with networkData := wroteData.take 38 ++ List.replicate 10 0 }

set_option maxRecDepth 100000 in
/-- If zeros follow the first frame there are no more, and announcing two or forty is the same. -/
example : ∃ fs, fs.length = 1 ∧
    Network.parse Env.default64 (withProps [("NumFrames".toList, .int 2)]) oneBody = .ok ⟨fs⟩ ∧
    Network.parse Env.default64 (withProps [("NumFrames".toList, .int 40)]) oneBody = .ok ⟨fs⟩ := by
  have hc : countOf (withProps [("NumFrames".toList, .int 2)]) oneBody = some 1 := by decide +kernel
  unfold countOf framesOf at hc
  cases hp : Network.parse Env.default64 (withProps [("NumFrames".toList, .int 2)]) oneBody with
  | err e => rw [hp] at hc; cases hc
  | fault f => rw [hp] at hc; cases hc
  | ok f =>
    rw [hp] at hc
    have hl : f.frames.length = 1 := Option.some.inj hc
    refine ⟨f.frames, hl, rfl, more_frames Env.default64 (n := 40) (k := 2)
      (SameButFrames.symm_trans (wrote_same 40) (wrote_same 2)) ⟨rfl, rfl, rfl⟩ (by decide +kernel)
      (by decide +kernel) (by decide +kernel) (by decide +kernel) (by decide +kernel) (by decide)
      (by decide) (by decide +kernel) hp ?_⟩
    rw [hl]
    decide

end Props
end Boxcars
