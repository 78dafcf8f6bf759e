import Verif.Proofs.Size
import Verif.Proofs.Replay
import Verif.Props.PlayerSample
/-!
# C64: a replay is no larger than its file
-/
namespace Boxcars.Props
open Boxcars Spec

variable {check : CrcCheck} {np : NetworkParse} {env : Env} {data : List Byte} {r : Replay}

/-- The parts of the file outside the network section, and that section. -/
theorem size_parts (hs : data.length ≤ env.isizeMax) (h : parseWith check np env data = .ok r) :
    ∃ k, k ≤ data.length ∧ filePartSize r ≤ 3 * (data.length - k) ∧ framesSize r ≤ 8 * k ∧
      k < 2 ^ 31 := by
  obtain ⟨x, rest, net, hx, hn, rfl⟩ := parseWith_ok_of hs h
  refine ⟨x.body.networkData.length, (fileSecs_sizes hx).1, ?_, ?_, ?_⟩
  · obtain ⟨bh, bb, ⟨b1, b2, b3, _, ht, hp, hbh⟩, hb, hd, _⟩ := hx
    obtain ⟨c1, c2, c3, c4, c5, c6, c7, c8, c9, h1, h2, _, h3, h4, h5, h6, h7, h8, h9, hbb⟩ := hb
    have e1 := textField_size ht
    have e2 := propList_size hp
    have e3 := listField_size (f := textSize) (fun _ _ => textField_size) h1
    have e4 := listField_size (f := fun _ => 1) (fun x b (hx : KeyFrameEnc x b) => by
      rw [show b = _ from hx]; simp only [List.length_append, word_length]; omega) h2
    have e5 := listField_size (f := fun d : DebugInfo => textSize d.user + textSize d.text)
      (fun x b (hx : DebugInfoEnc x b) => by
        obtain ⟨_, _, h1, h2, rfl⟩ := hx
        have := textField_size h1
        have := textField_size h2
        simp only [List.length_append]; omega) h3
    have e6 := listField_size (f := fun t : TickMark => textSize t.description)
      (fun x b (hx : TickMarkEnc x b) => by
        obtain ⟨_, h1, rfl⟩ := hx
        have := textField_size h1
        simp only [List.length_append]; omega) h4
    have e7 := listField_size (f := textSize) (fun _ _ => textField_size) h5
    have e8 := listField_size (f := textSize) (fun _ _ => textField_size) h6
    have e9 := listField_size (f := textSize) (fun _ _ => textField_size) h7
    have e10 := listField_size (f := fun c : ClassIndex => textSize c.cls)
      (fun x b (hx : ClassIndexEnc x b) => by
        obtain ⟨_, h1, rfl⟩ := hx
        have := strField_size h1
        simp only [List.length_append]; omega) h8
    have e11 := listField_size (f := fun c : ClassNetCache => 1 + c.properties.length)
      (fun x b (hx : ClassNetCacheEnc x b) => by
        obtain ⟨_, h1, rfl⟩ := hx
        have := listField_size (f := fun _ => 1) (fun x b (hx : CachePropEnc x b) => by
          rw [show b = _ from hx]; simp only [List.length_append, word_length]; omega) h1
        rw [sizes_length] at this
        simp only [List.length_append, word_length]; omega) h9
    rw [sizes_length] at e4
    have hl := congrArg List.length hd
    rw [hbb, hbh] at hl
    simp only [List.length_append, word_length] at hl
    simp only [filePartSize, Sections.replay]
    omega
  · unfold framesSize
    cases net with
    | none => exact Nat.zero_le _
    | some n =>
      obtain ⟨fs⟩ := n
      have hf : Network.parse env x.header x.body = .ok ⟨fs⟩ := by
        unfold NetOutcome at hn
        cases np with
        | never => cases hn
        | always => obtain ⟨f, h3, h4⟩ := hn; cases h4; exact h3
        | ignoreOnError =>
          rcases hn with ⟨f, h3, h4⟩ | ⟨e, _, h4⟩
          · cases h4; exact h3
          · cases h4
      have hnet := (network_ok_of hx hf).2
      show sizes frameSize fs ≤ _
      cases hh : headerInt x.header "NumFrames" with
      | none => rw [hh] at hnet; rw [show fs = [] from hnet]; exact Nat.zero_le _
      | some k =>
        rw [hh] at hnet
        obtain ⟨_, _, c, n, o, _, _, hr⟩ := hnet
        have := frames_size hr
        rw [BSpec.bytes_length] at this
        omega
  · obtain ⟨bh, bb, _, ⟨c1, c2, c3, c4, c5, c6, c7, c8, c9, _, _, hl, _⟩, _⟩ := hx
    exact hl

/-- C64. All lists of a replay have together at most eight entries for each byte of the file,
counting the bytes of texts as entries. -/
theorem size_linear (hs : data.length ≤ env.isizeMax) (h : parseWith check np env data = .ok r) :
    filePartSize r + framesSize r ≤ 8 * data.length := by
  obtain ⟨k, h1, h2, h3⟩ := size_parts hs h
  omega

/-- C64. Without the network data there are at most three, which is what a text of characters like
the euro sign takes. -/
theorem size_linear_file (hs : data.length ≤ env.isizeMax) (h : parseWith check np env data = .ok r) :
    filePartSize r ≤ 3 * data.length := by
  obtain ⟨k, h1, h2, _⟩ := size_parts hs h
  omega

/-- C64. In particular the number of frames and of updates of all frames. -/
theorem updates_linear (hs : data.length ≤ env.isizeMax) (h : parseWith check np env data = .ok r)
    {n : NetworkFrames} (hn : r.networkFrames = some n) :
    n.frames.length + (n.frames.map fun f => f.updatedActors.length).sum ≤ 8 * data.length := by
  have hp := size_linear hs h
  have : ∀ us : List UpdatedAttribute, us.length ≤ sizes (fun u => attrSize u.attr) us := by
    intro us
    induction us with
    | nil => exact Nat.le_refl _
    | cons u us ih =>
      have : 1 ≤ attrSize u.attr := attrSize_pos _
      unfold sizes at ih ⊢
      rw [List.map_cons, List.sum_cons, List.length_cons]
      omega
  have key : ∀ fs : List Frame, fs.length + (fs.map fun f => f.updatedActors.length).sum ≤
      sizes frameSize fs := by
    intro fs
    induction fs with
    | nil => exact Nat.le_refl _
    | cons f fs ih =>
      have := this f.updatedActors
      unfold sizes at ih ⊢
      simp only [List.map_cons, List.sum_cons, List.length_cons, frameSize]
      unfold sizes at this ⊢
      omega
  have := key n.frames
  unfold framesSize at hp
  rw [hn] at hp
  simp only at hp
  omega

set_option maxRecDepth 100000 in
/-- The sample with two players. -/
theorem players_size : (match parseWith .onError .always Env.default64 players with
    | .ok r => (filePartSize r, framesSize r, players.length)
    | _ => (0, 0, 0)) = (212, 14, 562) := by
  decide +kernel

end Boxcars.Props
