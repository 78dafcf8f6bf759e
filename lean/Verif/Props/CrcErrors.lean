import Verif.Proofs.CrcOrder
import Verif.Proofs.CrcPoly
import Verif.Props.File
/-!
# C49, C50: which errors the checksum misses
-/
namespace Boxcars.Props
open Boxcars Spec

/-! ## C49 -/

/-- C49. Two messages of the same length have the same checksum exactly if the generator
polynomial divides their difference. -/
theorem undetected_iff (a b : Bytes) (hl : a.length = b.length) :
    Boxcars.Crc.calcCrc a = Boxcars.Crc.calcCrc b ↔
      Crc.generator ∣ Crc.difference (Crc.messageBits a) (Crc.messageBits b) := by
  rw [calcCrc_eq_spec, calcCrc_eq_spec]
  unfold Crc.crc
  rw [BitVec.not_inj]
  exact Proofs.Crc.foldl_step_eq_iff _ _
    (by rw [messageBits_length, messageBits_length, hl]) _

theorem noticed_iff (a b : Bytes) : Noticed a b ↔ a.length = b.length ∧
    ¬ Crc.generator ∣ Crc.difference (Crc.messageBits a) (Crc.messageBits b) := by
  unfold Noticed
  constructor
  · rintro ⟨hl, h⟩
    refine ⟨hl, fun hd => h ?_⟩
    have := (undetected_iff a b hl).2 hd
    rwa [calcCrc_eq_spec, calcCrc_eq_spec] at this
  · rintro ⟨hl, h⟩
    refine ⟨hl, fun hc => h ((undetected_iff a b hl).1 ?_)⟩
    rwa [calcCrc_eq_spec, calcCrc_eq_spec]

variable (np : NetworkParse) (env : Env)

/-- C49. In an accepted file, a change of the declared header bytes that is no multiple
of the generator is reported as a checksum mismatch. -/
theorem header_error_detected (hsize hcrc : BitVec 32) (d d' t : Bytes) (r : Replay)
    (hl : Room env (word hsize ++ (word hcrc ++ (d ++ t))).length)
    (hd : d.length = hsize.toNat) (hlen : d.length = d'.length)
    (hb : ¬ Crc.generator ∣ Crc.difference (Crc.messageBits d) (Crc.messageBits d'))
    (h : parseWith .always np env (word hsize ++ (word hcrc ++ (d ++ t))) = .ok r) :
    parseWith .always np env (word hsize ++ (word hcrc ++ (d' ++ t))) =
      .err (.crcMismatch hcrc (Crc.crc d')) :=
  header_change_detected np env hsize hcrc d d' t r hl hd ((noticed_iff d d').2 ⟨hlen, hb⟩) h

/-- C49. The same for the body. -/
theorem body_error_detected (hsize hcrc csize ccrc : BitVec 32) (hdr : Header) (bh d d' t : Bytes)
    (r : Replay)
    (hl : Room env
      (word hsize ++ (word hcrc ++ (bh ++ (word csize ++ (word ccrc ++ (d ++ t)))))).length)
    (hh : HeaderSec hdr bh) (hd : d.length = csize.toNat) (hlen : d.length = d'.length)
    (hb : ¬ Crc.generator ∣ Crc.difference (Crc.messageBits d) (Crc.messageBits d'))
    (h : parseWith .always np env
      (word hsize ++ (word hcrc ++ (bh ++ (word csize ++ (word ccrc ++ (d ++ t)))))) = .ok r) :
    ∃ c a, parseWith .always np env
      (word hsize ++ (word hcrc ++ (bh ++ (word csize ++ (word ccrc ++ (d' ++ t)))))) =
        .err (.crcMismatch c a) :=
  body_change_detected np env hsize hcrc csize ccrc hdr bh d d' t r hl hh hd
    ((noticed_iff d d').2 ⟨hlen, hb⟩) h

open Polynomial in
/-- A change that is the generator itself goes unnoticed: these five bytes, taken as
zero or as the generator's coefficients, have the same checksum. -/
example : Crc.difference (Crc.messageBits [0#8, 0#8, 0#8, 0#8, 0#8])
      (Crc.messageBits [1#8, 0x04#8, 0xc1#8, 0x1d#8, 0xb7#8]) = Crc.generator ∧
    Boxcars.Crc.calcCrc [0#8, 0#8, 0#8, 0#8, 0#8] =
      Boxcars.Crc.calcCrc [1#8, 0x04#8, 0xc1#8, 0x1d#8, 0xb7#8] := by
  have h : Crc.difference (Crc.messageBits [0#8, 0#8, 0#8, 0#8, 0#8])
      (Crc.messageBits [1#8, 0x04#8, 0xc1#8, 0x1d#8, 0xb7#8]) = Crc.generator := by
    rw [show Crc.messageBits [0#8, 0#8, 0#8, 0#8, 0#8] = List.replicate 40 false from by
        decide +kernel,
      show Crc.messageBits [1#8, 0x04#8, 0xc1#8, 0x1d#8, 0xb7#8] =
        [false, false, false, false, false, false, false, true,
         false, false, false, false, false, true, false, false,
         true, true, false, false, false, false, false, true,
         false, false, false, true, true, true, false, true,
         true, false, true, true, false, true, true, true] from by decide +kernel]
    simp [Crc.difference, List.replicate, Crc.generator]
    ring
  refine ⟨h, (undetected_iff _ [1#8, 0x04#8, 0xc1#8, 0x1d#8, 0xb7#8] (by decide)).2 ?_⟩
  rw [h]

/-! ## C50 -/

/-- `b` is `a` with two bits inverted, `dist` bits apart. -/
def TwoBits (dist : Nat) (a b : Bytes) : Prop :=
  ∃ pre x mid y post, Crc.messageBits a = pre ++ x :: (mid ++ y :: post) ∧
    Crc.messageBits b = pre ++ (!x) :: (mid ++ (!y) :: post) ∧ dist = mid.length + 1

/-- C50. Two inverted bits go unnoticed exactly if their distance is a multiple of
`2^32 - 1` bits. -/
theorem two_bits_iff (dist : Nat) (a b : Bytes) (h : TwoBits dist a b) :
    Boxcars.Crc.calcCrc a = Boxcars.Crc.calcCrc b ↔ (2 ^ 32 - 1) ∣ dist := by
  obtain ⟨pre, x, mid, y, post, ha, hb, rfl⟩ := h
  rw [calcCrc_eq_spec, calcCrc_eq_spec]
  unfold Crc.crc
  rw [BitVec.not_inj, ha, hb, List.foldl_append, List.foldl_append]
  rw [show x :: (mid ++ y :: post) = (x :: (mid ++ [y])) ++ post by simp,
    show (!x) :: (mid ++ (!y) :: post) = ((!x) :: (mid ++ [!y])) ++ post by simp,
    List.foldl_append, List.foldl_append]
  rw [← Proofs.Crc.two_flips x y mid]
  exact ⟨fun h => Proofs.Crc.foldl_step_inj_reg _ _ _ h, fun h => by rw [h]⟩

theorem TwoBits.length {dist : Nat} {a b : Bytes} (h : TwoBits dist a b) :
    a.length = b.length ∧ 1 ≤ dist ∧ dist < 8 * a.length := by
  obtain ⟨pre, x, mid, y, post, ha, hb, rfl⟩ := h
  have e1 := messageBits_length a
  have e2 := messageBits_length b
  rw [ha] at e1
  rw [hb] at e2
  simp only [List.length_append, List.length_cons] at e1 e2
  omega

/-- C50. In a message shorter than 512 MiB any two inverted bits change the checksum. -/
theorem two_bits_noticed (dist : Nat) (a b : Bytes) (h : TwoBits dist a b)
    (hl : a.length < 2 ^ 29) : Noticed a b := by
  obtain ⟨h1, h2, h3⟩ := h.length
  refine ⟨h1, fun hc => ?_⟩
  have h4 := (two_bits_iff dist a b h).1 (by rwa [calcCrc_eq_spec, calcCrc_eq_spec])
  have := Nat.le_of_dvd h2 h4
  omega

/-- C50. Any two inverted bits in the header of an accepted file are reported. -/
theorem header_two_bits_detected (hsize hcrc : BitVec 32) (d d' t : Bytes) (r : Replay) (dist : Nat)
    (hl : Room env (word hsize ++ (word hcrc ++ (d ++ t))).length)
    (hd : d.length = hsize.toNat) (hb : TwoBits dist d d') (hlen : d.length < 2 ^ 29)
    (h : parseWith .always np env (word hsize ++ (word hcrc ++ (d ++ t))) = .ok r) :
    parseWith .always np env (word hsize ++ (word hcrc ++ (d' ++ t))) =
      .err (.crcMismatch hcrc (Crc.crc d')) :=
  header_change_detected np env hsize hcrc d d' t r hl hd (two_bits_noticed dist d d' hb hlen) h

/-- C50. Any two inverted bits in the body of an accepted file are reported. -/
theorem body_two_bits_detected (hsize hcrc csize ccrc : BitVec 32) (hdr : Header) (bh d d' t : Bytes)
    (r : Replay) (dist : Nat)
    (hl : Room env
      (word hsize ++ (word hcrc ++ (bh ++ (word csize ++ (word ccrc ++ (d ++ t)))))).length)
    (hh : HeaderSec hdr bh) (hd : d.length = csize.toNat) (hb : TwoBits dist d d')
    (hlen : d.length < 2 ^ 29)
    (h : parseWith .always np env
      (word hsize ++ (word hcrc ++ (bh ++ (word csize ++ (word ccrc ++ (d ++ t)))))) = .ok r) :
    ∃ c a, parseWith .always np env
      (word hsize ++ (word hcrc ++ (bh ++ (word csize ++ (word ccrc ++ (d' ++ t)))))) =
        .err (.crcMismatch c a) :=
  body_change_detected np env hsize hcrc csize ccrc hdr bh d d' t r hl hh hd
    (two_bits_noticed dist d d' hb hlen) h

theorem messageBits_zeros (n : Nat) :
    Crc.messageBits (List.replicate n 0#8) = List.replicate (8 * n) false := by
  unfold Crc.messageBits
  induction n with
  | zero => rfl
  | succ n ih =>
    rw [List.replicate_succ, List.flatMap_cons, ih, Nat.mul_succ, Nat.add_comm,
      ← List.replicate_append_replicate]
    rfl

/-- C50. The limit is exact: at 512 MiB there are two messages that differ in two bits,
the first and the last, and have the same checksum. -/
theorem two_bits_limit : ∃ a b : Bytes, a.length = 2 ^ 29 ∧ TwoBits (2 ^ 32 - 1) a b ∧
    Boxcars.Crc.calcCrc a = Boxcars.Crc.calcCrc b := by
  have key : ∀ n : Nat, TwoBits (8 * n + 15) (List.replicate (n + 2) 0#8)
      (0x80#8 :: (List.replicate n 0#8 ++ [0x01#8])) := by
    intro n
    refine ⟨[], false, List.replicate (8 * n + 14) false, false, [], ?_, ?_, by simp⟩
    · rw [messageBits_zeros, show 8 * (n + 2) = 1 + (8 * n + 14) + 1 by omega,
        ← List.replicate_append_replicate, ← List.replicate_append_replicate]
      simp
    · have := messageBits_zeros n
      unfold Crc.messageBits at this ⊢
      rw [List.flatMap_cons, List.flatMap_append, this,
        show 8 * n + 14 = 7 + (8 * n + 7) by omega, ← List.replicate_append_replicate,
        ← List.replicate_append_replicate]
      simp [Crc.msbFirst, List.replicate]
  have h := key (2 ^ 29 - 2)
  have e : 8 * (2 ^ 29 - 2) + 15 = 2 ^ 32 - 1 := by decide
  rw [e] at h
  refine ⟨_, _, ?_, h, (two_bits_iff _ _ _ h).2 (Nat.dvd_refl _)⟩
  rw [List.length_replicate]
  decide

end Boxcars.Props
