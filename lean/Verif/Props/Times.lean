import Verif.Proofs.Pack
import Verif.Props.Stream
/-!
# C83: the times of frames

and, for C36, that every sequence of frames can be written.
-/
namespace Boxcars.Props
open Boxcars Spec

theorem ctxOf_data {h : Header} {body : ReplayBody} {x : Ctx} (hx : CtxOf h body x)
    (d : List Byte) : CtxOf h { body with networkData := d } x :=
  ⟨hx.1, hx.2, hx.3, hx.4, hx.5, hx.6, hx.7, hx.8, hx.9⟩

theorem netOf_data {h : Header} {body : ReplayBody} {x : Ctx} {n : Net} (hn : NetOf h body x n)
    (d : List Byte) : NetOf h { body with networkData := d } x n :=
  ⟨hn.1, hn.2, hn.3, hn.4, hn.5, hn.6⟩

theorem writeRecs_pos (n : Net) (k : Known) (rs : List Rec) : 1 ≤ (writeRecs n k rs).length := by
  cases rs <;> simp [writeRecs]

theorem writePlans_length (n : Net) (k : Known) (ps : List Plan) :
    65 * ps.length ≤ (writePlans n k ps).length := by
  induction ps generalizing k with
  | nil => simp
  | cons p ps ih =>
    have := ih (liveAfter k p.recs)
    have := writeRecs_pos n k p.recs
    simp only [writePlans, List.length_append, field_length, List.length_cons]
    omega

/-- C36. Every sequence of frames that makes sense for the class table can be written: packed into
bytes it is read back. -/
theorem stream_written (env : Env) (h : Header) (body : ReplayBody) (x : Ctx) (n : Net)
    (hx : CtxOf h body x) (hn : NetOf h body x n) (hr : InRange body.objects body.netCache)
    (hl : body.objects.length ≤ 2 ^ 31) (ps : List Plan) (hp : PlansOk n x Known.none ps)
    (hd : (pack (writePlans n Known.none ps)).length < 2 ^ 31)
    (hcap : (pack (writePlans n Known.none ps)).length * env.frameSize ≤ env.isizeMax)
    (hk : headerInt h "NumFrames" = some (BitVec.ofNat 32 ps.length)) :
    Network.parse env h { body with networkData := pack (writePlans n Known.none ps) } =
      .ok ⟨planFrames n Known.none ps⟩ := by
  obtain ⟨h1, h2, h3⟩ := bytes_pack (writePlans n Known.none ps)
  have h4 := writePlans_length n Known.none ps
  have e := (size_iff (BitVec.ofNat 32 ps.length) ps.length (by omega)).2 rfl
  exact stream_round_trip env h { body with networkData := pack (writePlans n Known.none ps) } x n
    (ctxOf_data hx _) (netOf_data hn _) hr hl hd hcap ps hp _ hk e.1
    (by rw [← e.2]; show _ ≤ (pack _).length; omega) _ (.inr (.inl e.2)) h1

/-! ## Times -/

/-- The times of a list of frames. -/
def times (fs : List Frame) : List (F32 × F32) := fs.map fun f => (f.time, f.delta)

/-- Frames without records. -/
def still (ts : List (F32 × F32)) : List Plan := ts.map fun t => ⟨t.1, t.2, []⟩

def timesHeader (m : Nat) : Header :=
  ⟨868, 20, some 10, "G".toList, [("NumFrames".toList, .int (BitVec.ofNat 32 m))]⟩

theorem timesHeader_str (m : Nat) (k : String) (hk : "NumFrames".toList ≠ k.toList) :
    headerStr (timesHeader m) k = none ∧ headerInt (timesHeader m) k = none := by
  unfold headerStr headerInt timesHeader
  have : (("NumFrames".toList : Str) == k.toList) = false := by simpa using hk
  simp only [List.find?_cons, this, List.find?_nil]
  exact ⟨trivial, trivial⟩

theorem timesHeader_frames (m : Nat) :
    headerInt (timesHeader m) "NumFrames" = some (BitVec.ofNat 32 m) := by
  unfold headerInt timesHeader
  rw [List.find?_cons_of_pos (by simp)]

theorem times_ctx (m : Nat) : CtxOf (timesHeader m) wroteBody wroteCtx where
  major := rfl
  minor := rfl
  net := rfl
  color := wrote_ctx.color
  painted := wrote_ctx.painted
  titleId := wrote_ctx.titleId
  special := wrote_ctx.special
  team := wrote_ctx.team
  rl223 := by
    rw [(timesHeader_str m "BuildVersion" (by decide +kernel)).1]
    exact ⟨fun h => (by cases h), fun ⟨_, h, _⟩ => (by cases h)⟩

theorem times_net (m : Nat) : NetOf (timesHeader m) wroteBody wroteCtx wroteNet where
  net := rfl
  channels := by
    rw [(timesHeader_str m "MaxChannels" (by decide +kernel)).2]
    rfl
  named := ⟨fun _ => .inl (.inr ⟨by decide, .inr ⟨by decide, by decide⟩⟩), fun _ => rfl⟩
  sticky := rfl
  spawn := wrote_spawn
  cls := wrote_cls

theorem timesHeader_ok (m : Nat) : HeaderOk (timesHeader m) := by
  refine ⟨wroteHeader_ok.1, wroteHeader_ok.2.1, ?_⟩
  have := wroteHeader_ok.2.2
  simp only [wroteHeader, timesHeader, isQuirks, PropsOk, PropOk, ValOk] at this ⊢
  exact this

theorem encBody_data (b : ReplayBody) (d : List Byte) :
    (encBody { b with networkData := d }).length + b.networkData.length =
      (encBody b).length + d.length := by
  simp only [encBody, List.length_append, word_length]
  omega

theorem intHeader_length (g k : Str) (x y : I32) :
    (encHeader ⟨868, 20, some 10, g, [(k, .int x)]⟩).length =
      (encHeader ⟨868, 20, some 10, g, [(k, .int y)]⟩).length := by
  have hk : propKind (.int x) = propKind (.int y) := rfl
  simp only [encHeader, encProps, encProp, encVal, List.length_append, word_length, hk]

theorem timesHeader_length (m : Nat) :
    (encHeader (timesHeader m)).length = (encHeader wroteHeader).length :=
  intHeader_length _ _ _ _

theorem still_ok {n : Net} {x : Ctx} (ts : List (F32 × F32))
    (h : ∀ t ∈ ts, TimeOk t.1 ∧ TimeOk t.2 ∧ ¬(IsZero t.1 ∧ IsZero t.2)) (k : Known) :
    PlansOk n x k (still ts) := by
  induction ts generalizing k with
  | nil => trivial
  | cons t ts ih =>
    obtain ⟨h1, h2, h3⟩ := h t List.mem_cons_self
    exact ⟨h1, h2, h3, trivial, ih (fun t ht => h t (List.mem_cons_of_mem _ ht)) _⟩

theorem still_bits (n : Net) (ts : List (F32 × F32)) (k : Known) :
    (writePlans n k (still ts)).length = 65 * ts.length := by
  induction ts generalizing k with
  | nil => rfl
  | cons t ts ih =>
    have := ih k
    simp only [still, List.map_cons, writePlans, writeRecs, List.length_append, field_length,
      List.length_cons, List.length_nil, liveAfter, List.foldl_nil] at this ⊢
    omega

theorem still_times (n : Net) (ts : List (F32 × F32)) (k : Known) :
    times (planFrames n k (still ts)) = ts := by
  induction ts generalizing k with
  | nil => rfl
  | cons t ts ih =>
    have := ih k
    simp only [still, times, List.map_cons, planFrames, liveAfter, List.foldl_nil] at this ⊢
    rw [this]

/-- C83, what holds: each time and difference is, on its own, one that is accepted.

The full statement, that the times do not decrease and that the difference of a frame is the
difference of its time and that of the frame before, is false: `times_free`, `times_false`. -/
theorem times_partial {check : CrcCheck} {np : NetworkParse} {env : Env} {data : Bytes} {r : Replay}
    {fs : List Frame} (hs : data.length ≤ env.isizeMax) (h : parseWith check np env data = .ok r)
    (hf : r.networkFrames = some ⟨fs⟩) :
    ∀ t ∈ times fs, TimeOk t.1 ∧ TimeOk t.2 ∧ ¬(IsZero t.1 ∧ IsZero t.2) := by
  obtain ⟨_, _, _, _, _, _, _, _, _, ht, _⟩ := replay_history hs h hf
  intro t hm
  obtain ⟨f, hf, rfl⟩ := List.mem_map.1 hm
  exact ht f hf

/-- C83. Otherwise the times are free: every sequence of such times, up to 2^27 of them, is that of
the frames of an accepted replay. -/
theorem times_free (check : CrcCheck) (ts : List (F32 × F32)) (hl : ts.length < 2 ^ 27)
    (h : ∀ t ∈ ts, TimeOk t.1 ∧ TimeOk t.2 ∧ ¬(IsZero t.1 ∧ IsZero t.2)) :
    ∃ data r fs, parseWith check .always Env.default64 data = .ok r ∧
      r.networkFrames = some ⟨fs⟩ ∧ times fs = ts := by
  have hb := still_bits wroteNet ts Known.none
  obtain ⟨_, _, h3⟩ := bytes_pack (writePlans wroteNet Known.none (still ts))
  rw [hb] at h3
  have hlen : (still ts).length = ts.length := by simp [still]
  have hn : Network.parse Env.default64 (timesHeader ts.length)
      { wroteBody with networkData := pack (writePlans wroteNet Known.none (still ts)) } =
      .ok ⟨planFrames wroteNet Known.none (still ts)⟩ := by
    refine stream_written Env.default64 (timesHeader ts.length) wroteBody wroteCtx wroteNet
      (times_ctx _) (times_net _) (by unfold InRange; decide +kernel) (by decide +kernel) (still ts)
      (still_ok ts h _) (by omega) ?_ (by rw [hlen]; exact timesHeader_frames _)
    have e1 : Env.default64.isizeMax = 2 ^ 63 - 1 := rfl
    have e2 := Env.default64.frameSize_le
    rw [e1]
    calc _ ≤ 2 ^ 31 * Env.default64.frameSize := Nat.mul_le_mul_right _ (by omega)
      _ ≤ _ := by omega
  have hbo : BodyOk { wroteBody with
      networkData := pack (writePlans wroteNet Known.none (still ts)) } :=
    ⟨wroteBody_ok.1, wroteBody_ok.2.1, by show (pack _).length < _; omega, wroteBody_ok.2.2.2⟩
  have hlt : (encFile (timesHeader ts.length) { wroteBody with
      networkData := pack (writePlans wroteNet Known.none (still ts)) }).length < 2 ^ 31 := by
    have e1 := encBody_data wroteBody (pack (writePlans wroteNet Known.none (still ts)))
    have e2 := timesHeader_length ts.length
    have e3 : (encBody wroteBody).length < 1000 := by decide +kernel
    have e4 : (encHeader wroteHeader).length < 1000 := by decide +kernel
    simp only [encFile, encSection, List.length_append, word_length]
    omega
  have hfile := file_round_trip_network check .always Env.default64 (timesHeader ts.length) _
    (timesHeader_ok _) hbo [] hlt (Room.of_lt (by rwa [List.append_nil])).1 _ hn (by simp)
  exact ⟨_, _, _, hfile, rfl, still_times _ _ _⟩

/-- C83 is false: a frame before the one before, whose difference is not the difference of the
times. -/
theorem times_false : ∃ data r fs, parseWith .always .always Env.default64 data = .ok r ∧
    r.networkFrames = some ⟨fs⟩ ∧
    times fs = [(0x40000000, 0x3f000000), (0x3f800000, 0x3f000000)] ∧
    fval 0x3f800000 < fval 0x40000000 ∧
    fval 0x3f000000 ≠ fval 0x3f800000 - fval 0x40000000 := by
  have ok : ∀ t d : F32, FrameDecoder.outOfRange t = false → FrameDecoder.outOfRange d = false →
      fexp t ≠ 0 → TimeOk t ∧ TimeOk d ∧ ¬(IsZero t ∧ IsZero d) :=
    fun t d h1 h2 h3 => ⟨(outOfRange_iff _).1 h1, (outOfRange_iff _).1 h2, fun h => h3 h.1.1⟩
  obtain ⟨data, r, fs, h1, h2, h3⟩ := times_free .always
    [(0x40000000, 0x3f000000), (0x3f800000, 0x3f000000)] (by decide) (by
      intro t ht
      simp only [List.mem_cons, List.not_mem_nil, or_false] at ht
      rcases ht with rfl | rfl
      · exact ok _ _ (by decide +kernel) (by decide +kernel) (by decide +kernel)
      · exact ok _ _ (by decide +kernel) (by decide +kernel) (by decide +kernel))
  exact ⟨data, r, fs, h1, h2, h3, by decide +kernel, by decide +kernel⟩

end Boxcars.Props
