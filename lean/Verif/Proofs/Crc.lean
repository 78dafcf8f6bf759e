import Verif.Model.Crc
import Verif.Spec.Crc
/-!
# Lemmas about the checksum
-/
namespace Boxcars.Proofs.Crc
open Boxcars Boxcars.Crc

/-- One register step without a message bit. -/
def L (p r : U32) : U32 := (r <<< 1) ^^^ (if r.msb then p else 0#32)

theorem tableStep_eq (p r : U32) : tableStep p r = L p r := by
  unfold tableStep L
  have e : (0x80000000#32) = BitVec.twoPow 32 31 := by decide
  rw [e, BitVec.and_twoPow, BitVec.msb_eq_getLsbD_last]
  cases r.getLsbD 31 <;> simp

/-- Iterated `L`. -/
def iterL (p : U32) : Nat → U32 → U32
  | 0, r => r
  | n + 1, r => iterL p n (L p r)

theorem tableIter_eq (p : U32) (n : Nat) (r : U32) : tableIter p n r = iterL p n r := by
  induction n generalizing r with
  | zero => rfl
  | succ n ih => simp only [tableIter, iterL, tableStep_eq, ih]

theorem L_xor (p a b : U32) : L p (a ^^^ b) = L p a ^^^ L p b := by
  unfold L
  rw [BitVec.shiftLeft_xor_distrib, BitVec.msb_xor]
  have hp : p ^^^ p = 0#32 := BitVec.xor_self
  cases a.msb <;> cases b.msb <;> simp
  · ac_rfl
  · ac_rfl
  · calc a <<< 1 ^^^ b <<< 1 = (a <<< 1 ^^^ b <<< 1) ^^^ (p ^^^ p) := by rw [hp]; simp
      _ = _ := by ac_rfl

theorem L_zero (p : U32) : L p 0#32 = 0#32 := by simp [L]

theorem iterL_xor (p : U32) (n : Nat) (a b : U32) :
    iterL p n (a ^^^ b) = iterL p n a ^^^ iterL p n b := by
  induction n generalizing a b with
  | zero => rfl
  | succ n ih => simp only [iterL, L_xor, ih]

theorem iterL_zero (p : U32) (n : Nat) : iterL p n 0#32 = 0#32 := by
  induction n with
  | zero => rfl
  | succ n ih => simp only [iterL, L_zero, ih]

theorem iterL_add (p : U32) (m n : Nat) (r : U32) :
    iterL p (m + n) r = iterL p n (iterL p m r) := by
  induction m generalizing r with
  | zero => simp [iterL]
  | succ m ih => rw [Nat.succ_add]; simp only [iterL, ih]

/-- Shifting without feedback while the leading bits are zero. -/
theorem iterL_shift (p : U32) (n : Nat) (r : U32) (h : r.toNat * 2 ^ n < 2 ^ 32) :
    iterL p n r = r <<< n := by
  induction n generalizing r with
  | zero => simp [iterL]
  | succ n ih =>
    have h1 : r.toNat * 2 * 2 ^ n < 2 ^ 32 := by
      rw [Nat.mul_assoc, ← Nat.pow_succ']; exact h
    have hp : 0 < 2 ^ n := Nat.two_pow_pos n
    have hle : r.toNat * 2 < 2 ^ 32 := by
      calc r.toNat * 2 = r.toNat * 2 * 1 := by omega
        _ ≤ r.toNat * 2 * 2 ^ n := Nat.mul_le_mul_left _ hp
        _ < 2 ^ 32 := h1
    have hm : r.msb = false := by
      rw [BitVec.msb_eq_decide]; simp; omega
    have hL : L p r = r <<< 1 := by simp [L, hm]
    have hn : (r <<< 1).toNat = r.toNat * 2 := by
      rw [BitVec.toNat_shiftLeft, Nat.shiftLeft_eq]; omega
    rw [iterL, hL, ih _ (by rw [hn]; exact h1), ← BitVec.shiftLeft_add, Nat.add_comm]

/-- One byte of zeros. -/
def T (p r : U32) : U32 := iterL p 8 r

theorem T_xor (p a b : U32) : T p (a ^^^ b) = T p a ^^^ T p b := iterL_xor p 8 a b
theorem T_zero (p : U32) : T p 0#32 = 0#32 := iterL_zero p 8
theorem T_shift (p r : U32) (h : r.toNat < 2 ^ 24) : T p r = r <<< 8 :=
  iterL_shift p 8 r (by omega)

/-- Iterated `T`. -/
def iterT (p : U32) : Nat → U32 → U32
  | 0, r => r
  | n + 1, r => T p (iterT p n r)

theorem iterT_succ' (p : U32) (n : Nat) (r : U32) : iterT p (n + 1) r = iterT p n (T p r) := by
  induction n with
  | zero => rfl
  | succ n ih => rw [iterT, ih]; rfl

theorem iterT_one (p : U32) (r : U32) : iterT p 1 r = T p r := rfl
theorem iterT_nil (p : U32) (r : U32) : iterT p 0 r = r := rfl
theorem iterT_step (p : U32) (n : Nat) (r : U32) : iterT p (n + 1) r = T p (iterT p n r) := rfl
theorem T_def (p r : U32) : T p r = iterL p 8 r := rfl

theorem iterT_xor (p : U32) (n : Nat) (a b : U32) :
    iterT p n (a ^^^ b) = iterT p n a ^^^ iterT p n b := by
  induction n with
  | zero => rfl
  | succ n ih => simp only [iterT, T_xor, ih]

theorem getLsbD_swapBytes (x : U32) (i : Nat) :
    (swapBytes x).getLsbD i = (decide (i < 32) && x.getLsbD (24 - 8 * (i / 8) + i % 8)) := by
  unfold swapBytes
  simp only [BitVec.getLsbD_append, BitVec.getLsbD_extractLsb']
  by_cases h0 : i < 8
  · have : i / 8 = 0 := by omega
    have : i % 8 = i := by omega
    simp [*]; omega
  · by_cases h1 : i < 16
    · have e1 : i / 8 = 1 := by omega
      have e2 : i % 8 = i - 8 := by omega
      have : i - 8 < 8 := by omega
      simp [*]; omega
    · by_cases h2 : i < 24
      · have e1 : i / 8 = 2 := by omega
        have e2 : i % 8 = i - 16 := by omega
        have : ¬ i - 8 < 8 := by omega
        have : i - 8 - 8 < 8 := by omega
        have e3 : i - 16 = i - 8 - 8 := by omega
        have e4 : i < 32 := by omega
        simp [*]
      · by_cases h3 : i < 32
        · have e1 : i / 8 = 3 := by omega
          have e2 : i % 8 = i - 24 := by omega
          have : ¬ i - 8 < 8 := by omega
          have : ¬ i - 8 - 8 < 8 := by omega
          have : i - 8 - 8 - 8 < 8 := by omega
          have e3 : i - 24 = i - 8 - 8 - 8 := by omega
          simp [*]
        · have : ¬ i - 8 < 8 := by omega
          have : ¬ i - 8 - 8 < 8 := by omega
          have : ¬ i - 8 - 8 - 8 < 8 := by omega
          simp [*]
  
theorem swapBytes_swapBytes (x : U32) : swapBytes (swapBytes x) = x := by
  apply BitVec.eq_of_getLsbD_eq
  intro i hi
  rw [getLsbD_swapBytes, getLsbD_swapBytes]
  have h1 : 24 - 8 * (i / 8) + i % 8 < 32 := by omega
  have h2 : 24 - 8 * ((24 - 8 * (i / 8) + i % 8) / 8) + (24 - 8 * (i / 8) + i % 8) % 8 = i := by
    omega
  rw [h2]; simp [hi, h1]

theorem swapBytes_xor (x y : U32) : swapBytes (x ^^^ y) = swapBytes x ^^^ swapBytes y := by
  apply BitVec.eq_of_getLsbD_eq
  intro i hi
  simp only [getLsbD_swapBytes, BitVec.getLsbD_xor]
  simp [hi]

theorem swapBytes_not (x : U32) : swapBytes (~~~ x) = ~~~ (swapBytes x) := by
  apply BitVec.eq_of_getLsbD_eq
  intro i hi
  have h1 : 24 - 8 * (i / 8) + i % 8 < 32 := by omega
  simp only [getLsbD_swapBytes, BitVec.getLsbD_not]
  simp [hi, h1]

theorem swapBytes_ushiftRight8 (x : U32) : swapBytes (swapBytes x >>> 8) = x <<< 8 := by
  apply BitVec.eq_of_getLsbD_eq
  intro i hi
  simp only [getLsbD_swapBytes, BitVec.getLsbD_ushiftRight, BitVec.getLsbD_shiftLeft]
  by_cases h8 : i < 8
  · have : ¬ 8 + (24 - 8 * (i / 8) + i % 8) < 32 := by omega
    simp [h8, this]
  · have h1 : 8 + (24 - 8 * (i / 8) + i % 8) < 32 := by omega
    have h2 : 24 - 8 * ((8 + (24 - 8 * (i / 8) + i % 8)) / 8)
        + (8 + (24 - 8 * (i / 8) + i % 8)) % 8 = i - 8 := by omega
    rw [h2]; simp [hi, h8, h1]

/-- Byte `i` of a word, counted from the least significant. -/
def byteOf (x : U32) (i : Nat) : Byte := x.extractLsb' (8 * i) 8

/-- A byte in the top position of the register. -/
def top (b : Byte) : U32 := b.setWidth 32 <<< 24

theorem getLsbD_top (b : Byte) (i : Nat) (hi : i < 32) :
    (top b).getLsbD i = (decide (24 ≤ i) && b.getLsbD (i - 24)) := by
  unfold top
  simp only [BitVec.getLsbD_shiftLeft, BitVec.getLsbD_setWidth]
  by_cases h : i < 24
  · have : ¬ 24 ≤ i := by omega
    simp [h, this]
  · have h' : 24 ≤ i := by omega
    have : i - 24 < 32 := by omega
    simp [h, h', hi, this]

theorem top_xor (a b : Byte) : top (a ^^^ b) = top a ^^^ top b := by
  unfold top
  rw [BitVec.setWidth_xor, BitVec.shiftLeft_xor_distrib]

theorem ofNat_shift_top (b : Byte) : BitVec.ofNat 32 b.toNat <<< 24 = top b := by
  have h : BitVec.ofNat 32 b.toNat = b.setWidth 32 := by
    apply BitVec.eq_of_toNat_eq
    simp
  rw [h, top]

attribute [irreducible] T top iterT iterL
attribute [local irreducible] swapBytes

theorem table0_eq (p : U32) (b : Byte) : table0 p b.toNat = swapBytes (T p (top b)) := by
  rw [table0, tableIter_eq, ofNat_shift_top, T_def]

/-- Splitting off the top byte. -/
theorem T_split (p r : U32) : T p r = (r <<< 8) ^^^ T p (top (byteOf r 3)) := by
  have h : r = (r &&& 0x00ffffff#32) ^^^ top (byteOf r 3) := by
    apply BitVec.eq_of_getLsbD_eq
    intro i hi
    have hm : (0x00ffffff#32).getLsbD i = decide (i < 24) := by
      have : ∀ j : Fin 32, (0x00ffffff#32).getLsbD j = decide (j.val < 24) := by decide
      exact this ⟨i, hi⟩
    rw [BitVec.getLsbD_xor, BitVec.getLsbD_and, getLsbD_top _ _ hi, hm, byteOf,
      BitVec.getLsbD_extractLsb']
    by_cases h : i < 24
    · have : ¬ 24 ≤ i := by omega
      simp [h, this]
    · have h' : 24 ≤ i := by omega
      have : i - 24 < 8 := by omega
      have e : 24 + (i - 24) = i := by omega
      simp [h, h', this, e]
  have hlt : (r &&& 0x00ffffff#32).toNat < 2 ^ 24 := by
    rw [BitVec.toNat_and]
    have : (0x00ffffff#32).toNat = 2 ^ 24 - 1 := by decide
    rw [this, Nat.and_two_pow_sub_one_eq_mod]
    exact Nat.mod_lt _ (by decide)
  have hs : (r &&& 0x00ffffff#32) <<< 8 = r <<< 8 := by
    apply BitVec.eq_of_getLsbD_eq
    intro i hi
    have hm : (0x00ffffff#32).getLsbD (i - 8) = decide (i - 8 < 24) := by
      have : ∀ j : Fin 32, (0x00ffffff#32).getLsbD j = decide (j.val < 24) := by decide
      exact this ⟨i - 8, by omega⟩
    simp only [BitVec.getLsbD_shiftLeft, BitVec.getLsbD_and, hm]
    have : i - 8 < 24 := by omega
    simp [this]
  conv => lhs; rw [h, T_xor, T_shift p _ hlt, hs]

theorem ushiftRight24_toNat (r : U32) : (r >>> 24).toNat = (byteOf r 3).toNat := by
  unfold byteOf
  rw [BitVec.extractLsb'_toNat, BitVec.toNat_ushiftRight, Nat.shiftRight_eq_div_pow]
  have := r.isLt
  omega

theorem table1Iter_eq (p : U32) (b : Byte) (j : Nat) :
    table1Iter p b.toNat j = iterT p (j + 1) (top b) := by
  induction j with
  | zero => rw [table1Iter, table0_eq, swapBytes_swapBytes, iterT_one]
  | succ j ih =>
    rw [table1Iter]
    simp only [ih]
    rw [ushiftRight24_toNat, table0_eq, swapBytes_swapBytes]
    conv => rhs; rw [iterT_step, T_split]
    rw [BitVec.xor_comm]

theorem table_eq (p : U32) (j : Nat) (b : Byte) :
    table p j b.toNat = swapBytes (iterT p (j + 1) (top b)) := by
  cases j with
  | zero => rw [table, table0_eq, iterT_one]
  | succ j => rw [table, table1Iter_eq]

/-- Abbreviation for the polynomial in use. -/
abbrev poly : U32 := 0x04c11db7#32

theorem crcTable_eq (j : Nat) (b : Byte) :
    crcTable j b.toNat = swapBytes (iterT poly (j + 1) (top b)) := table_eq poly j b

/-- The register after one message byte, byte at a time. -/
def regByte (r : U32) (b : Byte) : U32 := T poly (r ^^^ top b)

theorem regByte_xor (r s : U32) (a b : Byte) :
    regByte (r ^^^ s) (a ^^^ b) = regByte r a ^^^ regByte s b := by
  unfold regByte
  have h : (r ^^^ s) ^^^ (top a ^^^ top b) = (r ^^^ top a) ^^^ (s ^^^ top b) := by ac_rfl
  rw [top_xor, h, T_xor]

theorem and_ff_toNat (r : U32) : (r &&& 0xFF#32).toNat = (byteOf r 0).toNat := by
  unfold byteOf
  rw [BitVec.extractLsb'_toNat, BitVec.toNat_and]
  have : (0xFF#32).toNat = 2 ^ 8 - 1 := by decide
  rw [this, Nat.and_two_pow_sub_one_eq_mod]; simp

theorem byteOf_swap (r : U32) (i : Nat) (hi : i < 4) :
    byteOf (swapBytes r) i = byteOf r (3 - i) := by
  unfold byteOf
  apply BitVec.eq_of_getLsbD_eq
  intro j hj
  simp only [BitVec.getLsbD_extractLsb', getLsbD_swapBytes]
  have h1 : 8 * i + j < 32 := by omega
  have h2 : 24 - 8 * ((8 * i + j) / 8) + (8 * i + j) % 8 = 8 * (3 - i) + j := by omega
  rw [h2]; simp [h1]

theorem byteStep_eq (r : U32) (b : Byte) :
    byteStep (swapBytes r) b = swapBytes (regByte r b) := by
  unfold byteStep
  have hidx : (BitVec.setWidth 32 b ^^^ (swapBytes r &&& 0xFF#32)).toNat
      = (b ^^^ byteOf r 3).toNat := by
    rw [BitVec.toNat_xor, and_ff_toNat, byteOf_swap r 0 (by omega), BitVec.toNat_xor]
    rw [show (BitVec.setWidth 32 b).toNat = b.toNat by simp; omega]
  rw [hidx, crcTable_eq]
  have h1 : swapBytes (swapBytes (swapBytes r >>> 8)) = swapBytes (r <<< 8) := by
    rw [swapBytes_ushiftRight8]
  rw [swapBytes_swapBytes] at h1
  rw [h1, ← swapBytes_xor]
  congr 1
  unfold regByte
  rw [iterT_one]
  rw [T_xor, T_split poly r, top_xor, T_xor]
  ac_rfl

/-! ### A chunk of 16 bytes -/

theorem byteOf_xor (a b : U32) (i : Nat) : byteOf (a ^^^ b) i = byteOf a i ^^^ byteOf b i := by
  unfold byteOf
  apply BitVec.eq_of_getLsbD_eq
  intro j hj
  simp [hj]

theorem shift_ff_toNat (r : U32) (k : Nat) :
    ((r >>> (8 * k)) &&& 0xFF#32).toNat = (byteOf r k).toNat := by
  unfold byteOf
  rw [BitVec.extractLsb'_toNat, BitVec.toNat_and, BitVec.toNat_ushiftRight]
  have : (0xFF#32).toNat = 2 ^ 8 - 1 := by decide
  rw [this, Nat.and_two_pow_sub_one_eq_mod]

theorem top_shift (b : Byte) (k : Nat) (hk : k < 3) :
    T poly (b.setWidth 32 <<< (8 * k)) = b.setWidth 32 <<< (8 * (k + 1)) := by
  rw [T_shift, ← BitVec.shiftLeft_add]
  · rfl
  · rw [BitVec.toNat_shiftLeft, Nat.shiftLeft_eq]
    have hb := b.isLt
    have : (BitVec.setWidth 32 b).toNat = b.toNat := by simp; omega
    rw [this]
    have : k = 0 ∨ k = 1 ∨ k = 2 := by omega
    rcases this with rfl | rfl | rfl <;> omega

theorem word_split (r : U32) :
    r = top (byteOf r 3) ^^^ (byteOf r 2).setWidth 32 <<< 16 ^^^ (byteOf r 1).setWidth 32 <<< 8
      ^^^ (byteOf r 0).setWidth 32 <<< 0 := by
  apply BitVec.eq_of_getLsbD_eq
  intro i hi
  simp only [BitVec.getLsbD_xor, top, BitVec.getLsbD_shiftLeft, BitVec.getLsbD_setWidth, byteOf,
    BitVec.getLsbD_extractLsb']
  by_cases h0 : i < 8
  · have : i < 16 := by omega
    have : i < 24 := by omega
    simp [*]
  · by_cases h1 : i < 16
    · have : i < 24 := by omega
      have : i - 8 < 8 := by omega
      have : i - 8 < 32 := by omega
      have : 8 + (i - 8) = i := by omega
      simp [*]
    · by_cases h2 : i < 24
      · have : i - 16 < 8 := by omega
        have : i - 16 < 32 := by omega
        have : ¬ i - 8 < 8 := by omega
        have : 16 + (i - 16) = i := by omega
        simp [*]
      · have : i - 24 < 8 := by omega
        have : i - 24 < 32 := by omega
        have : ¬ i - 8 < 8 := by omega
        have : ¬ i - 16 < 8 := by omega
        have : 24 + (i - 24) = i := by omega
        simp [*]

/-- Three bytes of zeros bring the lower bytes of a word to the top. -/
theorem iterT_word (n : Nat) (r : U32) :
    iterT poly (n + 4) r = iterT poly (n + 4) (top (byteOf r 3))
      ^^^ iterT poly (n + 3) (top (byteOf r 2))
      ^^^ iterT poly (n + 2) (top (byteOf r 1))
      ^^^ iterT poly (n + 1) (top (byteOf r 0)) := by
  have e2 : ∀ b : Byte, T poly (b.setWidth 32 <<< 16) = top b := by
    intro b; rw [top]; exact top_shift b 2 (by omega)
  have e1 : ∀ b : Byte, T poly (b.setWidth 32 <<< 8) = b.setWidth 32 <<< 16 :=
    fun b => top_shift b 1 (by omega)
  have e0 : ∀ b : Byte, T poly (b.setWidth 32 <<< 0) = b.setWidth 32 <<< 8 :=
    fun b => top_shift b 0 (by omega)
  conv => lhs; rw [word_split r, iterT_xor, iterT_xor, iterT_xor]
  rw [iterT_succ' poly (n + 3) (BitVec.setWidth 32 (byteOf r 2) <<< 16), e2,
    iterT_succ' poly (n + 3) (BitVec.setWidth 32 (byteOf r 1) <<< 8), e1,
    iterT_succ' poly (n + 2) (BitVec.setWidth 32 (byteOf r 1) <<< 16), e2,
    iterT_succ' poly (n + 3) (BitVec.setWidth 32 (byteOf r 0) <<< 0), e0,
    iterT_succ' poly (n + 2) (BitVec.setWidth 32 (byteOf r 0) <<< 8), e1,
    iterT_succ' poly (n + 1) (BitVec.setWidth 32 (byteOf r 0) <<< 16), e2]

theorem foldl_regByte (r : U32) (bs : List Byte) :
    bs.foldl regByte r = iterT poly bs.length r ^^^ bs.foldl regByte 0#32 := by
  induction bs generalizing r with
  | nil => simp [iterT_nil]
  | cons b bs ih =>
    simp only [List.foldl_cons, List.length_cons]
    rw [ih (regByte r b), ih (regByte 0#32 b), iterT_succ']
    unfold regByte
    rw [T_xor poly r, T_xor poly 0#32, T_zero, iterT_xor]
    simp only [BitVec.zero_xor]
    ac_rfl

theorem regByte_zero (b : Byte) : regByte 0#32 b = iterT poly 1 (top b) := by
  rw [regByte, iterT_one, BitVec.zero_xor]

theorem regByte_cons0 (b : Byte) (bs : List Byte) :
    (b :: bs).foldl regByte 0#32 = iterT poly (bs.length + 1) (top b) ^^^ bs.foldl regByte 0#32 := by
  rw [List.foldl_cons, foldl_regByte, regByte_zero, iterT_one, ← iterT_succ']

theorem byteOf_leU32 (b0 b1 b2 b3 : Byte) :
    byteOf (leU32 b0 b1 b2 b3) 0 = b0 ∧ byteOf (leU32 b0 b1 b2 b3) 1 = b1
      ∧ byteOf (leU32 b0 b1 b2 b3) 2 = b2 ∧ byteOf (leU32 b0 b1 b2 b3) 3 = b3 := by
  unfold byteOf leU32
  refine ⟨?_, ?_, ?_, ?_⟩ <;>
  · apply BitVec.eq_of_getLsbD_eq
    intro j hj
    simp only [BitVec.getLsbD_extractLsb', BitVec.getLsbD_append]
    repeat' split
    all_goals first | omega | skip
    all_goals simp only [hj, decide_true, Bool.true_and]
    all_goals exact congrArg _ (by omega)

theorem chunk16_eq (r : U32) (sl : List Byte) (h : sl.length = 16) :
    chunk16 (swapBytes r) sl = swapBytes (sl.foldl regByte r) := by
  match sl, h with
  | [s0, s1, s2, s3, s4, s5, s6, s7, s8, s9, s10, s11, s12, s13, s14, s15], _ =>
  rw [foldl_regByte]
  simp only [regByte_cons0, List.length_cons, List.length_nil, List.foldl_nil, Nat.zero_add]
  rw [show (1+1+1+1+1+1+1+1+1+1+1+1+1+1+1+1 : Nat) = 12 + 4 from rfl, iterT_word 12 r]
  unfold chunk16
  simp only []
  have g3 := shift_ff_toNat (leU32 s0 s1 s2 s3 ^^^ swapBytes r) 3
  have g2 := shift_ff_toNat (leU32 s0 s1 s2 s3 ^^^ swapBytes r) 2
  have g1 := shift_ff_toNat (leU32 s0 s1 s2 s3 ^^^ swapBytes r) 1
  have g0 := and_ff_toNat (leU32 s0 s1 s2 s3 ^^^ swapBytes r)
  simp only [Nat.reduceMul] at g3 g2 g1
  rw [g3, g2, g1, g0]
  simp only [crcTable_eq, byteOf_xor, byteOf_swap _ 0 (by omega : 0 < 4),
    byteOf_swap _ 1 (by omega : 1 < 4), byteOf_swap _ 2 (by omega : 2 < 4),
    byteOf_swap _ 3 (by omega : 3 < 4)]
  obtain ⟨h0, h1, h2, h3⟩ := byteOf_leU32 s0 s1 s2 s3
  rw [h0, h1, h2, h3]
  simp only [← swapBytes_xor, top_xor, iterT_xor, Nat.reduceAdd, Nat.reduceSub, BitVec.xor_zero]
  apply congrArg
  ac_rfl

theorem chunks16_length (n : Nat) (data : List Byte) (h : 16 * n ≤ data.length) :
    ∀ c ∈ chunks16 n data, c.length = 16 := by
  induction n generalizing data with
  | zero => simp [chunks16]
  | succ n ih =>
    intro c hc
    simp only [chunks16, List.mem_cons] at hc
    rcases hc with rfl | hc
    · simp; omega
    · exact ih _ (by simp; omega) c hc

/-- Every chunk yielded by `chunks_exact(16)` has 16 bytes. -/
theorem chunksExact16_length (data : List Byte) : ∀ c ∈ chunksExact16 data, c.length = 16 :=
  chunks16_length _ _ (by omega)

theorem chunks16_flatten (n : Nat) (data : List Byte) :
    (chunks16 n data).flatten = data.take (16 * n) := by
  induction n generalizing data with
  | zero => simp [chunks16]
  | succ n ih =>
    simp only [chunks16, List.flatten_cons, ih]
    rw [show 16 * (n + 1) = 16 + 16 * n by omega, List.take_add]

theorem foldl_chunk16 (cs : List (List Byte)) (h : ∀ c ∈ cs, c.length = 16) (r : U32) :
    cs.foldl chunk16 (swapBytes r) = swapBytes (cs.flatten.foldl regByte r) := by
  induction cs generalizing r with
  | nil => rfl
  | cons c cs ih =>
    simp only [List.foldl_cons, List.flatten_cons, List.foldl_append]
    rw [chunk16_eq r c (h c (by simp)), ih (fun c hc => h c (by simp [hc]))]

theorem foldl_byteStep (bs : List Byte) (r : U32) :
    bs.foldl byteStep (swapBytes r) = swapBytes (bs.foldl regByte r) := by
  induction bs generalizing r with
  | nil => rfl
  | cons b bs ih => simp only [List.foldl_cons, byteStep_eq, ih]

/-- The code computes the byte-at-a-time register. -/
theorem calcCrc_eq_regByte (data : List Byte) :
    calcCrc data = ~~~ (data.foldl regByte Spec.Crc.initial) := by
  unfold calcCrc
  have hi : ~~~ (swapBytes 0xefcbf201#32) = swapBytes Spec.Crc.initial := by
    rw [← swapBytes_not]; rfl
  simp only [hi]
  rw [foldl_chunk16 _ (chunksExact16_length data), foldl_byteStep, ← List.foldl_append,
    chunksExact16, chunks16_flatten]
  have : 16 * (data.length / 16) = data.length - data.length % 16 := by omega
  rw [this, List.take_append_drop, ← swapBytes_not, swapBytes_swapBytes]

/-! ### Bits -/

theorem step_eq (r : U32) (b : Bool) :
    Spec.Crc.step r b = L poly (r ^^^ (if b then 0x80000000#32 else 0#32)) := by
  unfold Spec.Crc.step
  rw [L_xor]
  cases b
  · simp only [Bool.false_eq_true, if_false, L_zero, BitVec.xor_zero]
    unfold L Spec.Crc.poly
    cases r.msb <;> simp
  · simp only [if_true]
    have : L poly 0x80000000#32 = poly := by decide
    rw [this]
    unfold L Spec.Crc.poly
    cases r.msb <;> simp [BitVec.xor_assoc]

/-- A bit string placed at the top of the register, first bit highest. -/
def place : List Bool → U32
  | [] => 0#32
  | b :: bs => (if b then 0x80000000#32 else 0#32) ^^^ (place bs >>> 1)

theorem getLsbD_top1 (b : Bool) (i : Nat) :
    (if b then 0x80000000#32 else 0#32 : U32).getLsbD i = (decide (i = 31) && b) := by
  have e : (0x80000000#32) = BitVec.twoPow 32 31 := by decide
  cases b
  · simp
  · simp only [if_true, e, BitVec.getLsbD_twoPow, Bool.and_true]
    by_cases h : i = 31
    · subst h; simp
    · have : ¬ 31 = i := by omega
      simp [h, this]

/-- Bit `31 - k` of `place` is the `k`-th bit. -/
theorem getLsbD_place (bs : List Bool) (i : Nat) (hi : i < 32) :
    (place bs).getLsbD i = bs.getD (31 - i) false := by
  induction bs generalizing i with
  | nil => simp [place]
  | cons b bs ih =>
    simp only [place, BitVec.getLsbD_xor, getLsbD_top1, BitVec.getLsbD_ushiftRight]
    by_cases h : i = 31
    · subst h; simp
    · have e : 31 - i = (31 - (1 + i)) + 1 := by omega
      rw [ih _ (by omega), e]; simp [h]

theorem L_shift_place (bs : List Bool) (h : bs.length ≤ 31) :
    L poly (place bs >>> 1) = place bs := by
  have hm : (place bs >>> 1).msb = false := by
    rw [BitVec.msb_eq_getLsbD_last]; simp
  unfold L
  rw [hm]
  simp only [Bool.false_eq_true, if_false, BitVec.xor_zero]
  apply BitVec.eq_of_getLsbD_eq
  intro i hi
  rw [BitVec.getLsbD_shiftLeft, BitVec.getLsbD_ushiftRight]
  by_cases h0 : i = 0
  · subst h0
    rw [getLsbD_place _ _ hi]
    simp [List.getD]
    rw [List.getElem?_eq_none (by omega)]; rfl
  · have e : 1 + (i - 1) = i := by omega
    have : ¬ i < 1 := by omega
    rw [e]; simp [hi, this]

theorem iterL_cons (p : U32) (n : Nat) (r : U32) : iterL p (n + 1) r = iterL p n (L p r) := by
  rw [iterL]

/-- Up to 32 message bits can be added to the register at once. -/
theorem foldl_step (bs : List Bool) (h : bs.length ≤ 32) (r : U32) :
    bs.foldl Spec.Crc.step r = iterL poly bs.length (r ^^^ place bs) := by
  induction bs generalizing r with
  | nil => simp [iterL, place]
  | cons b bs ih =>
    simp only [List.length_cons] at h
    rw [List.foldl_cons, ih (by omega), step_eq, List.length_cons, iterL_cons, place,
      ← BitVec.xor_assoc, L_xor poly _ (place bs >>> 1), L_shift_place bs (by omega)]

theorem place_msbFirst (b : Byte) : place (Spec.Crc.msbFirst b) = top b := by
  apply BitVec.eq_of_getLsbD_eq
  intro i hi
  rw [getLsbD_place _ _ hi, getLsbD_top _ _ hi]
  by_cases h : 24 ≤ i
  · have : i = 24 ∨ i = 25 ∨ i = 26 ∨ i = 27 ∨ i = 28 ∨ i = 29 ∨ i = 30 ∨ i = 31 := by omega
    rcases this with rfl | rfl | rfl | rfl | rfl | rfl | rfl | rfl <;> rfl
  · simp only [h, decide_false, Bool.false_and, List.getD]
    rw [List.getElem?_eq_none (by simp [Spec.Crc.msbFirst]; omega)]; rfl

theorem foldl_step_byte (r : U32) (b : Byte) :
    (Spec.Crc.msbFirst b).foldl Spec.Crc.step r = regByte r b := by
  rw [foldl_step _ (by simp [Spec.Crc.msbFirst]), place_msbFirst, regByte, T_def]; rfl

theorem foldl_step_bytes (bs : List Byte) (r : U32) :
    (Spec.Crc.messageBits bs).foldl Spec.Crc.step r = bs.foldl regByte r := by
  induction bs generalizing r with
  | nil => rfl
  | cons b bs ih =>
    simp only [Spec.Crc.messageBits, List.flatMap_cons, List.foldl_append] at ih ⊢
    rw [foldl_step_byte, ih, List.foldl_cons]

/-! ### Injectivity -/

theorem L_inj (a b : U32) (h : L poly a = L poly b) : a = b := by
  have h0 : L poly (a ^^^ b) = 0#32 := by rw [L_xor, h, BitVec.xor_self]
  have hz : a ^^^ b = 0#32 := by
    generalize a ^^^ b = z at h0
    have hbit0 : (L poly z).getLsbD 0 = z.msb := by
      unfold L
      rw [BitVec.getLsbD_xor, BitVec.getLsbD_shiftLeft]
      cases z.msb <;> simp; decide
    have hm : z.msb = false := by rw [← hbit0, h0]; simp
    unfold L at h0
    rw [hm] at h0
    simp only [Bool.false_eq_true, if_false, BitVec.xor_zero] at h0
    apply BitVec.eq_of_getLsbD_eq
    intro i hi
    by_cases h31 : i = 31
    · subst h31; rw [BitVec.msb_eq_getLsbD_last] at hm; simpa using hm
    · have := congrArg (fun x : U32 => x.getLsbD (i + 1)) h0
      simp only [BitVec.getLsbD_shiftLeft] at this
      have h2 : i + 1 < 32 := by omega
      simpa [h2] using this
  exact BitVec.xor_eq_zero_iff.mp hz

theorem iterL_inj (n : Nat) (a b : U32) (h : iterL poly n a = iterL poly n b) : a = b := by
  induction n generalizing a b with
  | zero => simpa [iterL] using h
  | succ n ih => rw [iterL_cons, iterL_cons] at h; exact L_inj _ _ (ih _ _ h)

theorem xor_right_inj' (a b c : U32) (h : a ^^^ b = a ^^^ c) : b = c := by
  have := congrArg (a ^^^ ·) h
  simpa [← BitVec.xor_assoc] using this

/-- Different windows of at most 32 bits give different registers. -/
theorem foldl_step_inj (w w' : List Bool) (hl : w.length = w'.length) (h32 : w.length ≤ 32)
    (r : U32) (h : w.foldl Spec.Crc.step r = w'.foldl Spec.Crc.step r) : w = w' := by
  rw [foldl_step _ h32, foldl_step _ (by omega), hl] at h
  have hp := xor_right_inj' _ _ _ (iterL_inj _ _ _ h)
  apply List.ext_getElem hl
  intro i h1 h2
  have := congrArg (fun x : U32 => x.getLsbD (31 - i)) hp
  simp only [getLsbD_place _ _ (by omega : 31 - i < 32), List.getD] at this
  rw [show 31 - (31 - i) = i by omega, List.getElem?_eq_getElem h1, List.getElem?_eq_getElem h2] at this
  simpa using this

/-- Different registers stay different under the same message bits. -/
theorem foldl_step_inj_reg (bs : List Bool) (r s : U32)
    (h : bs.foldl Spec.Crc.step r = bs.foldl Spec.Crc.step s) : r = s := by
  induction bs generalizing r s with
  | nil => exact h
  | cons b bs ih =>
    have := ih _ _ h
    rw [step_eq, step_eq] at this
    have h' := L_inj _ _ this
    rw [BitVec.xor_comm r, BitVec.xor_comm s] at h'
    exact xor_right_inj' _ _ _ h'

end Boxcars.Proofs.Crc
