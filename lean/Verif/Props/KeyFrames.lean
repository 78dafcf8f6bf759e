import Verif.Spec.Depends
import Verif.Props.Depends
/-!
# C77: key frames and tick marks are not related to the frames
-/
namespace Boxcars.Props
open Boxcars Spec

/-- C77, what holds: key frames and tick marks are returned as they are in the file and have no
influence on the frames, so every list of them goes with every frames. -/
theorem keyframes_free_partial (check : CrcCheck) (env : Env) (h : Header) (b : ReplayBody)
    (hh : HeaderOk h) (hb : BodyOk b) (f : NetworkFrames) (hf : Network.parse env h b = .ok f)
    (ks : List KeyFrame) (hk : ks.length ≤ 25000) (ts : List TickMark)
    (ht : ListOk (fun t => TextOk t.description) ts) (rest : Bytes)
    (hl : (encFile h { b with keyframes := ks, tickMarks := ts }).length < 2 ^ 31)
    (hr : (encFile h { b with keyframes := ks, tickMarks := ts } ++ rest).length ≤ env.isizeMax) :
    ∃ r, parseWith check .always env
        (encFile h { b with keyframes := ks, tickMarks := ts } ++ rest) = .ok r ∧
      r.keyframes = ks ∧ r.tickMarks = ts ∧ r.networkFrames = some f := by
  obtain ⟨h1, -, h3, h4, -, h6⟩ := hb
  refine ⟨(fileSections h { b with keyframes := ks, tickMarks := ts }).replay (some f),
    file_round_trip_network check .always env h { b with keyframes := ks, tickMarks := ts } hh
    ⟨h1, ⟨hk, fun _ _ => trivial⟩, h3, h4, ht, h6⟩ rest hl hr f ?_ (by simp), rfl, rfl, rfl⟩
  rw [← hf]
  exact network_depends env
    ⟨rfl, rfl, rfl, rfl, rfl, Iff.rfl, Iff.rfl⟩ ⟨rfl, rfl, rfl⟩

/-- The frames of the written body, whatever the key frames and tick marks. -/
theorem wrote_network : Network.parse Env.default64 wroteHeader wroteBody =
    .ok ⟨planFrames wroteNet Known.none wrotePlan⟩ :=
  stream_round_trip _ wroteHeader wroteBody wroteCtx wroteNet wrote_ctx wrote_net
    (by unfold InRange; decide +kernel) (by decide +kernel) (by decide +kernel)
    (by decide +kernel) wrotePlan wrote_ok 3 (by decide +kernel) (by decide) (by decide +kernel)
    wroteTail (.inr (.inl rfl)) wrote_bits

/-- A file with three frames, a key frame for the first of them with another time, a key frame
for a frame that does not exist, and a tick mark before the first frame. -/
def strayFile : Bytes :=
  encFile wroteHeader { wroteBody with
    keyframes := [⟨0x40000000, 0, 0⟩, ⟨0x3f800000, 7, 0⟩],
    tickMarks := [⟨"Goal".toList, -1⟩] } ++ []

theorem stray_accepted : ∃ r, parseWith .always .always Env.default64 strayFile = .ok r ∧
    r.keyframes = [⟨0x40000000, 0, 0⟩, ⟨0x3f800000, 7, 0⟩] ∧
    r.tickMarks = [⟨"Goal".toList, -1⟩] ∧
    r.networkFrames = some ⟨planFrames wroteNet Known.none wrotePlan⟩ :=
  keyframes_free_partial .always Env.default64 wroteHeader wroteBody wroteHeader_ok wroteBody_ok _
    wrote_network _ (by decide) _ (by unfold ListOk; decide +kernel) []
    (Nat.lt_of_le_of_lt (m := 10000) (by decide +kernel) (by decide))
    (Room.of_lt (Nat.lt_of_le_of_lt (m := 10000) (by decide +kernel) (by decide))).1

/-- C77 is false of the code.  An accepted file with both checksums right has a key frame with a
time that is not that of its frame, a key frame without a frame and a tick mark without one. -/
theorem keyframes_match_false : ¬ ∀ (data : Bytes) (r : Replay) (fs : NetworkFrames),
    parseWith .always .always Env.default64 data = .ok r → r.networkFrames = some fs →
    (∀ k ∈ r.keyframes, ∃ f, KeyFrameOf fs.frames k f) ∧
    ∀ t ∈ r.tickMarks, ∃ f, FrameAt fs.frames t.frame f := by
  intro h
  obtain ⟨r, h1, h2, h3, h4⟩ := stray_accepted
  obtain ⟨g1, -⟩ := h strayFile r _ h1 h4
  rw [h2] at g1
  obtain ⟨f, hf, -⟩ := g1 ⟨0x3f800000, 7, 0⟩ (by simp)
  have : (planFrames wroteNet Known.none wrotePlan).length = 3 := by decide +kernel
  have := (List.getElem?_eq_some_iff.1 hf.2).1
  have e : (7 : BitVec 32).toNat = 7 := rfl
  simp only [e] at this
  omega

/-- Nor do the times agree where there is a frame. -/
theorem keyframe_times_false : ¬ ∀ (data : Bytes) (r : Replay) (fs : NetworkFrames),
    parseWith .always .always Env.default64 data = .ok r → r.networkFrames = some fs →
    ∀ k ∈ r.keyframes, ∀ f, FrameAt fs.frames k.frame f → f.time = k.time := by
  intro h
  obtain ⟨r, h1, h2, h3, h4⟩ := stray_accepted
  have g := h strayFile r _ h1 h4 ⟨0x40000000, 0, 0⟩ (by rw [h2]; simp)
  have e : ((planFrames wroteNet Known.none wrotePlan)[0]?.map Frame.time) = some 0x3f800000 := by
    decide +kernel
  cases hf : (planFrames wroteNet Known.none wrotePlan)[0]? with
  | none => rw [hf] at e; cases e
  | some f =>
    rw [hf] at e
    have h5 : f.time = 0x40000000 := g f ⟨by decide, hf⟩
    have h6 : f.time = 0x3f800000 := Option.some.inj e
    rw [h5] at h6
    exact absurd h6 (by decide)

end Boxcars.Props
