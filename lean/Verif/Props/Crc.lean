import Verif.Proofs.Crc
/-!
# C04, C05: the checksum
-/
namespace Boxcars.Props
open Boxcars

/-- C04. `calc_crc` (16 tables, 16 bytes at a time, byte-swapped register) is the
bit-at-a-time checksum of `Spec/Crc.lean`, for every input of every length. -/
theorem calcCrc_eq_spec (data : List Byte) : Crc.calcCrc data = Spec.Crc.crc data := by
  rw [Proofs.Crc.calcCrc_eq_regByte, Spec.Crc.crc, Proofs.Crc.foldl_step_bytes]

/-- The repository's own check value (`src/crc.rs:94`), for the specification and
for the model. -/
example : Spec.Crc.crc [0xa0#8] = 0x76cc8c81#32 ∧ Crc.calcCrc [0xa0#8] = 0x76cc8c81#32 := by
  decide +kernel

/-- All table indices used by `calc_crc` are within the 256 entries: the masked
ones of a chunk and the one of a byte step (the others are bytes). -/
theorem crc_indices_in_range (acc : U32) (x : Byte) (k : Nat) :
    x.toNat < 256 ∧ ((acc >>> k) &&& 0xFF#32).toNat < 256
      ∧ (x.setWidth 32 ^^^ (acc &&& 0xFF#32)).toNat < 256 := by
  have hff : (0xFF#32).toNat = 2 ^ 8 - 1 := by decide
  refine ⟨x.isLt, ?_, ?_⟩
  · rw [BitVec.toNat_and, hff, Nat.and_two_pow_sub_one_eq_mod]
    exact Nat.mod_lt _ (by decide)
  · rw [BitVec.toNat_xor]
    apply Nat.xor_lt_two_pow (n := 8)
    · rw [BitVec.toNat_setWidth]; have := x.isLt; omega
    · rw [BitVec.toNat_and, hff, Nat.and_two_pow_sub_one_eq_mod]
      exact Nat.mod_lt _ (by decide)

/-- C05. Two messages that agree outside a window of at most 32 consecutive bits
(at any bit offset) and differ inside it have different checksums. -/
theorem calcCrc_detects_burst (a b : List Byte) (pre w w' post : List Bool)
    (ha : Spec.Crc.messageBits a = pre ++ w ++ post)
    (hb : Spec.Crc.messageBits b = pre ++ w' ++ post)
    (hlen : w.length = w'.length) (h32 : w.length ≤ 32) (hne : w ≠ w') :
    Crc.calcCrc a ≠ Crc.calcCrc b := by
  intro h
  rw [calcCrc_eq_spec, calcCrc_eq_spec] at h
  unfold Spec.Crc.crc at h
  rw [ha, hb] at h
  simp only [List.foldl_append] at h
  have h1 := BitVec.not_inj.mp h
  exact hne (Proofs.Crc.foldl_step_inj w w' hlen h32 _ (Proofs.Crc.foldl_step_inj_reg _ _ _ h1))

/-- The hypotheses of `calcCrc_detects_burst` are met by an 18-byte message with a
17-bit burst that straddles bytes, and the conclusion is a genuine difference. -/
example : ∃ (a b : List Byte) (pre w w' post : List Bool),
    Spec.Crc.messageBits a = pre ++ w ++ post ∧ Spec.Crc.messageBits b = pre ++ w' ++ post
      ∧ w.length = w'.length ∧ w.length ≤ 32 ∧ w ≠ w' ∧ a.length = 18 :=
  ⟨List.replicate 18 0#8,
   List.replicate 4 0#8 ++ [0x01#8, 0x00#8, 0x80#8] ++ List.replicate 11 0#8,
   List.replicate 39 false, List.replicate 10 false,
   true :: List.replicate 8 false ++ [true], List.replicate 95 false, by decide +kernel⟩

end Boxcars.Props
