import Verif.Props.File
import Verif.Props.Sample
import Mathlib.Data.Fintype.EquivFin
/-!
# C74: four bytes give any checksum
-/
namespace Boxcars.Props
open Boxcars Spec

instance : Finite (BitVec 32) :=
  Finite.of_injective BitVec.toFin fun _ _ h => BitVec.eq_of_toFin_eq h

theorem messageBits_append (a b : Bytes) :
    Crc.messageBits (a ++ b) = Crc.messageBits a ++ Crc.messageBits b := by
  unfold Crc.messageBits
  rw [List.flatMap_append]

/-- C74. The checksum of a longer message depends on its beginning only through the checksum of
the beginning, and determines this checksum. -/
theorem crc_append (a b s : Bytes) :
    Boxcars.Crc.calcCrc (a ++ s) = Boxcars.Crc.calcCrc (b ++ s) ↔
      Boxcars.Crc.calcCrc a = Boxcars.Crc.calcCrc b := by
  simp only [calcCrc_eq_spec]
  unfold Crc.crc
  rw [messageBits_append, messageBits_append, List.foldl_append, List.foldl_append,
    BitVec.not_inj, BitVec.not_inj]
  exact ⟨Proofs.Crc.foldl_step_inj_reg _ _ _, fun h => by rw [h]⟩

theorem messageBits_inj {a b : Bytes} (hl : a.length = b.length)
    (h : Crc.messageBits a = Crc.messageBits b) : a = b := by
  induction a generalizing b with
  | nil => cases b with
    | nil => rfl
    | cons _ _ => cases hl
  | cons x a ih => cases b with
    | nil => cases hl
    | cons y b =>
      have e : ∀ (z : BitVec 8) c, Crc.messageBits (z :: c) = Crc.msbFirst z ++ Crc.messageBits c :=
        fun z c => by unfold Crc.messageBits; rw [List.flatMap_cons]
      rw [e, e] at h
      have hm := List.append_inj h rfl
      have hxy : x = y := by
        have h1 := congrArg Proofs.Crc.place hm.1
        rw [Proofs.Crc.place_msbFirst, Proofs.Crc.place_msbFirst] at h1
        apply BitVec.eq_of_getLsbD_eq
        intro i hi
        have := congrArg (fun v => v.getLsbD (24 + i)) h1
        simp only [Proofs.Crc.getLsbD_top _ (24 + i) (by omega)] at this
        simpa using this
      rw [hxy, ih (by simpa using hl) hm.2]

/-- C74. Four bytes anywhere in a message can be chosen to give it any checksum, in one way. -/
theorem crc_patch (p s : Bytes) (target : BitVec 32) :
    ∃ w, (w.length = 4 ∧ Boxcars.Crc.calcCrc (p ++ w ++ s) = target) ∧
      ∀ w', w'.length = 4 → Boxcars.Crc.calcCrc (p ++ w' ++ s) = target → w' = w := by
  have inj : ∀ w w' : Bytes, w.length = 4 → w'.length = 4 →
      Boxcars.Crc.calcCrc (p ++ w ++ s) = Boxcars.Crc.calcCrc (p ++ w' ++ s) → w = w' := by
    intro w w' hw hw' h
    refine Classical.byContradiction fun hne => ?_
    refine calcCrc_detects_burst _ _ (Crc.messageBits p) (Crc.messageBits w) (Crc.messageBits w')
      (Crc.messageBits s) ?_ ?_ ?_ ?_ ?_ h
    · rw [messageBits_append, messageBits_append]
    · rw [messageBits_append, messageBits_append]
    · rw [messageBits_length, messageBits_length, hw, hw']
    · rw [messageBits_length, hw]
    · exact fun e => hne (messageBits_inj (by rw [hw, hw']) e)
  have surj : Function.Surjective fun v : BitVec 32 => Boxcars.Crc.calcCrc (p ++ word v ++ s) :=
    Finite.injective_iff_surjective.1 fun v v' h =>
      word_injective (inj _ _ (word_length v) (word_length v') h)
  obtain ⟨v, hv⟩ := surj target
  exact ⟨word v, ⟨word_length v, hv⟩, fun w' hw' h => inj _ _ hw' (word_length v) (h.trans hv.symm)⟩

/-- C74 for files. The header, the sizes and the checksums of a file do not tell its body: any body
that is at least four bytes shorter than the size, followed by suitable bytes, makes a file that is
accepted with both checksums verified. -/
theorem body_forged {hsize hcrc csize ccrc : BitVec 32} {h : Header} {bh : Bytes}
    (hh : HeaderSec h bh) (hsz : hsize.toNat = bh.length) (hpos : 0 ≤ hsize.toInt)
    (hc : Crc.crc bh = hcrc) {b : ReplayBody} {bb : Bytes} (hb : BodySec b bb)
    (hfit : bb.length + 4 ≤ csize.toNat) (hcs : 0 ≤ csize.toInt) :
    ∃ pad, (bb ++ pad).length = csize.toNat ∧ FileSecs true ⟨hsize, hcrc, h, csize, ccrc, b⟩
      (word hsize ++ (word hcrc ++ (bh ++ (word csize ++ (word ccrc ++ (bb ++ pad)))))) pad := by
  obtain ⟨w, ⟨hw, hcrc'⟩, -⟩ := crc_patch (bb ++ List.replicate (csize.toNat - bb.length - 4) 0) []
    ccrc
  rw [calcCrc_eq_spec, List.append_nil, List.append_assoc] at hcrc'
  have hl : (bb ++ (List.replicate (csize.toNat - bb.length - 4) 0 ++ w)).length = csize.toNat := by
    rw [List.length_append, List.length_append, List.length_replicate, hw]
    omega
  refine ⟨_, hl, bh, bb, hh, hb, rfl, ⟨hpos, ?_⟩, ⟨hcs, ?_⟩, fun _ => ⟨?_, ?_⟩⟩
  · show hsize.toNat ≤ _
    rw [List.length_append]
    omega
  · exact hl.ge
  · show Crc.crc (List.take hsize.toNat _) = _
    rw [List.take_left' hsz.symm]
    exact hc
  · show Crc.crc (List.take csize.toNat _) = _
    rw [List.take_of_length_le hl.le]
    exact hcrc'

/-- C74. So the strictest check accepts it. -/
theorem forged_accepted (env : Env) {hsize hcrc csize ccrc : BitVec 32} {h : Header} {bh : Bytes}
    (hh : HeaderSec h bh) (hsz : hsize.toNat = bh.length) (hpos : 0 ≤ hsize.toInt)
    (hc : Crc.crc bh = hcrc) {b : ReplayBody} {bb : Bytes} (hb : BodySec b bb)
    (hfit : bb.length + 4 ≤ csize.toNat) (hcs : 0 ≤ csize.toInt)
    (hlen : 16 + bh.length + csize.toNat < 2 ^ 31) :
    ∃ d, d.length = csize.toNat ∧ parseWith .always .never env
      (word hsize ++ (word hcrc ++ (bh ++ (word csize ++ (word ccrc ++ d))))) =
        .ok (Sections.replay ⟨hsize, hcrc, h, csize, ccrc, b⟩ none) := by
  obtain ⟨pad, hl, hf⟩ := body_forged (ccrc := ccrc) hh hsz hpos hc hb hfit hcs
  refine ⟨bb ++ pad, hl, (parseWith_ok_iff .always .never env _ ?_ _).2 ⟨_, pad, none, hf, rfl, rfl⟩⟩
  refine Room.of_lt ?_
  simp only [List.length_append, word_length] at hl ⊢
  omega

/-- A collision stays one when the messages go on. -/
example : Boxcars.Crc.calcCrc ([0, 0, 0, 0, 0] ++ sample) =
    Boxcars.Crc.calcCrc ([1, 0x04, 0xc1, 0x1d, 0xb7] ++ sample) :=
  (crc_append _ _ _).2 (by decide +kernel)

/-- The bytes for the checksum zero after the bytes 1, 2, 3. -/
example : Boxcars.Crc.calcCrc ([1, 2, 3] ++ [77, 87, 178, 39] ++ []) = 0 := by decide +kernel

/-- The header of the sample before another body, with the content size 48 and the checksum 0. -/
example : ∃ d, d.length = 48 ∧ parseWith .always .never Env.default64
    (word 62 ++ (word 0xd007b860 ++ (sampleHeaderBytes ++ (word 48 ++ (word 0 ++ d))))) =
      .ok (Sections.replay ⟨62, 0xd007b860, sampleHeader, 48, 0,
        { sampleBody with levels := [[]] }⟩ none) := by
  have nil : ∀ {α : Type} (g : α → Bytes → Prop), ListField g [] (word 0) :=
    fun g => ⟨[], Nat.zero_le _, .nil, rfl⟩
  have one : ListField TextField [[]] (word 1 ++ word 0) :=
    ⟨word 0 ++ [], by decide, .cons (.inl ⟨rfl, rfl⟩) .nil, rfl⟩
  exact forged_accepted Env.default64 (hsize := 62) (hcrc := 0xd007b860) (csize := 48)
    (ccrc := 0) (b := { sampleBody with levels := [[]] }) (bb := word 1 ++ sampleBodyBytes)
    sample_headerSec (by decide +kernel) (by decide)
    (by decide +kernel) ⟨_, word 0, word 0, word 0, word 0, word 0, word 0, word 0, word 0, one,
      nil _, by decide, nil _, nil _, nil _, nil _, nil _, nil _, nil _, by decide +kernel⟩
    (by decide +kernel) (by decide) (by decide +kernel)

end Boxcars.Props
