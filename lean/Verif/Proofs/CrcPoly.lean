import Verif.Proofs.Crc
import Verif.Spec.CrcPoly
import Mathlib.Algebra.CharP.Two
import Mathlib.Algebra.Field.ZMod
import Mathlib.Tactic.Ring
import Mathlib.Algebra.Polynomial.Monic
import Mathlib.Algebra.Polynomial.Degree.Operations
import Mathlib.Algebra.Polynomial.FieldDivision
import Mathlib.Tactic.LinearCombination
/-!
# The checksum register as a polynomial
-/
namespace Boxcars.Proofs.Crc
open Boxcars Boxcars.Crc Polynomial

/-- The polynomial of a register. -/
noncomputable def phi (r : U32) : (ZMod 2)[X] :=
  ∑ i ∈ Finset.range 32, if r.getLsbD i then X ^ i else 0

theorem phi_xor (a b : U32) : phi (a ^^^ b) = phi a + phi b := by
  unfold phi
  rw [← Finset.sum_add_distrib]
  apply Finset.sum_congr rfl
  intro i hi
  rw [BitVec.getLsbD_xor]
  cases a.getLsbD i <;> cases b.getLsbD i <;> simp [CharTwo.add_self_eq_zero]

theorem phi_zero : phi 0#32 = 0 := by
  unfold phi
  apply Finset.sum_eq_zero
  intro i _
  simp

theorem phi_shift (r : U32) : phi (r <<< 1) + (if r.msb then X ^ 32 else 0) = X * phi r := by
  unfold phi
  rw [Finset.mul_sum, Finset.sum_range_succ' (fun i => if (r <<< 1).getLsbD i then (X : (ZMod 2)[X]) ^ i else 0) 31,
    Finset.sum_range_succ (fun i => X * (if r.getLsbD i then (X : (ZMod 2)[X]) ^ i else 0)) 31]
  have h0 : (r <<< 1).getLsbD 0 = false := by simp
  have hs : ∀ i ∈ Finset.range 31, (if (r <<< 1).getLsbD (i + 1) then (X : (ZMod 2)[X]) ^ (i + 1) else 0)
      = X * (if r.getLsbD i then X ^ i else 0) := by
    intro i hi
    have hi := Finset.mem_range.1 hi
    have : (r <<< 1).getLsbD (i + 1) = r.getLsbD i := by
      rw [BitVec.getLsbD_shiftLeft]
      have : i + 1 < 32 := by omega
      simp [this]
    rw [this]
    split
    · rw [pow_succ, mul_comm]
    · rw [mul_zero]
  have hm : r.msb = r.getLsbD 31 := BitVec.msb_eq_getLsbD_last ..
  rw [Finset.sum_congr rfl hs, h0, hm]
  simp only [Bool.false_eq_true, if_false, add_zero]
  congr 1
  split
  · rw [pow_succ, mul_comm]
  · rw [mul_zero]

theorem phi_poly : phi poly + X ^ 32 = Spec.Crc.generator := by
  have h : ∀ i : Fin 32,
      poly.getLsbD i = decide (i.val ∈ [26, 23, 22, 16, 12, 11, 10, 8, 7, 5, 4, 2, 1, 0]) := by decide
  have e : phi poly = ∑ i ∈ Finset.range 32,
      if i ∈ [26, 23, 22, 16, 12, 11, 10, 8, 7, 5, 4, 2, 1, 0] then (X : (ZMod 2)[X]) ^ i else 0 := by
    unfold phi
    apply Finset.sum_congr rfl
    intro i hi
    rw [h ⟨i, Finset.mem_range.1 hi⟩]
    simp only [decide_eq_true_eq]
  rw [e]
  unfold Spec.Crc.generator
  simp only [Finset.sum_range_succ, Finset.sum_range_zero, List.mem_cons, List.not_mem_nil]
  norm_num
  ring

theorem phi_L (r : U32) : phi (L poly r) + (if r.msb then Spec.Crc.generator else 0) = X * phi r := by
  unfold L
  rw [phi_xor, ← phi_shift r, ← phi_poly]
  split
  · have := CharTwo.add_self_eq_zero (phi poly)
    linear_combination this
  · rw [phi_zero]; ring

theorem phi_L_mod (r : U32) : Spec.Crc.generator ∣ phi (L poly r) - X * phi r := by
  rw [← phi_L]
  split
  · exact ⟨-1, by ring⟩
  · exact ⟨0, by ring⟩

theorem phi_top (b : Bool) : phi (if b then 0x80000000#32 else 0#32) = if b then X ^ 31 else 0 := by
  unfold phi
  rw [Finset.sum_eq_single 31]
  · rw [getLsbD_top1]; simp
  · intro i _ hi
    rw [getLsbD_top1]; simp [hi]
  · intro h; exact absurd (Finset.mem_range.2 (by omega)) h

/-- The difference of the registers after two messages, modulo the generator. -/
theorem foldl_step_mod (xs ys : List Bool) (hl : xs.length = ys.length) (r s : U32) :
    Spec.Crc.generator ∣ phi (xs.foldl Spec.Crc.step r ^^^ ys.foldl Spec.Crc.step s) -
      (X ^ xs.length * phi (r ^^^ s) + X ^ 32 * Spec.Crc.difference xs ys) := by
  induction xs generalizing ys r s with
  | nil =>
    cases ys with
    | nil => simp [Spec.Crc.difference]
    | cons y ys => simp at hl
  | cons x xs ih =>
    cases ys with
    | nil => simp at hl
    | cons y ys =>
      simp only [List.length_cons, Nat.add_right_cancel_iff] at hl
      simp only [List.foldl_cons, Spec.Crc.difference, List.length_cons]
      have e : Spec.Crc.step r x ^^^ Spec.Crc.step s y =
          L poly ((r ^^^ s) ^^^ (if (x != y) then 0x80000000#32 else 0#32)) := by
        rw [step_eq, step_eq, ← L_xor]
        congr 1
        cases x <;> cases y <;> simp
        · ac_rfl
        · ac_rfl
        · rw [show r ^^^ 2147483648#32 ^^^ (s ^^^ 2147483648#32) =
            (r ^^^ s) ^^^ (2147483648#32 ^^^ 2147483648#32) by ac_rfl, BitVec.xor_self,
            BitVec.xor_zero]
      have h1 := ih ys hl (Spec.Crc.step r x) (Spec.Crc.step s y)
      rw [e] at h1
      have h2 := phi_L_mod ((r ^^^ s) ^^^ (if (x != y) then 0x80000000#32 else 0#32))
      rw [phi_xor (r ^^^ s), phi_top] at h2
      have h3 := dvd_add h1 (Dvd.dvd.mul_left h2 (X ^ xs.length))
      convert h3 using 1
      cases x <;> cases y <;> simp <;> ring

theorem phi_coeff (r : U32) (k : Nat) :
    (phi r).coeff k = if k < 32 ∧ r.getLsbD k = true then 1 else 0 := by
  unfold phi
  rw [Polynomial.finsetSum_coeff]
  by_cases hk : k < 32
  · rw [Finset.sum_eq_single k]
    · simp only [hk, true_and]
      split <;> simp
    · intro i _ hi
      split
      · rw [coeff_X_pow, if_neg (fun h => hi h.symm)]
      · simp
    · intro h; exact absurd (Finset.mem_range.2 hk) h
  · rw [if_neg (fun h => hk h.1)]
    apply Finset.sum_eq_zero
    intro i hi
    have := Finset.mem_range.1 hi
    split
    · rw [coeff_X_pow, if_neg (by omega)]
    · simp

theorem phi_eq_zero {r : U32} (h : phi r = 0) : r = 0#32 := by
  apply BitVec.eq_of_getLsbD_eq
  intro i hi
  have := phi_coeff r i
  rw [h] at this
  by_cases hb : r.getLsbD i = true
  · rw [if_pos ⟨hi, hb⟩] at this; simp at this
  · simpa using hb

theorem phi_degree (r : U32) : (phi r).degree < 32 := by
  rw [show (32 : WithBot ℕ) = ((32 : ℕ) : WithBot ℕ) from rfl, Polynomial.degree_lt_iff_coeff_zero]
  intro k hk
  rw [phi_coeff, if_neg (by omega)]

theorem generator_monic : Spec.Crc.generator.Monic ∧ Spec.Crc.generator.degree = 32 := by
  rw [← phi_poly, add_comm]
  have h := phi_degree poly
  have hx : (X ^ 32 : (ZMod 2)[X]).degree = 32 := by rw [degree_X_pow]; rfl
  exact ⟨Polynomial.Monic.add_of_left (monic_X_pow 32) (by rw [hx]; exact h),
    by rw [Polynomial.degree_add_eq_left_of_degree_lt (by rw [hx]; exact h), hx]⟩

theorem generator_coprime (n : Nat) : IsCoprime Spec.Crc.generator (X ^ n) := by
  apply IsCoprime.pow_right
  refine ⟨1, -(X ^ 31 + X ^ 25 + X ^ 22 + X ^ 21 + X ^ 15 + X ^ 11 + X ^ 10 + X ^ 9 + X ^ 7 + X ^ 6
    + X ^ 4 + X ^ 3 + X + 1), ?_⟩
  unfold Spec.Crc.generator
  ring

theorem generator_dvd_phi {r : U32} : Spec.Crc.generator ∣ phi r ↔ r = 0#32 := by
  constructor
  · intro h
    by_contra hne
    have hne' : phi r ≠ 0 := fun h0 => hne (phi_eq_zero h0)
    exact (generator_monic.1).not_dvd_of_degree_lt hne' (by
      rw [generator_monic.2]; exact phi_degree r) h
  · rintro rfl; rw [phi_zero]; exact dvd_zero _

/-- Two messages of the same length leave the same register exactly if the generator
divides their difference. -/
theorem foldl_step_eq_iff (xs ys : List Bool) (hl : xs.length = ys.length) (r : U32) :
    xs.foldl Spec.Crc.step r = ys.foldl Spec.Crc.step r ↔
      Spec.Crc.generator ∣ Spec.Crc.difference xs ys := by
  have h := foldl_step_mod xs ys hl r r
  rw [BitVec.xor_self, phi_zero, mul_zero, zero_add] at h
  have h1 : Spec.Crc.generator ∣ phi (xs.foldl Spec.Crc.step r ^^^ ys.foldl Spec.Crc.step r) ↔
      Spec.Crc.generator ∣ X ^ 32 * Spec.Crc.difference xs ys := dvd_iff_dvd_of_dvd_sub h
  rw [generator_dvd_phi, BitVec.xor_eq_zero_iff] at h1
  rw [h1]
  exact ⟨fun h => IsCoprime.dvd_of_dvd_mul_left (generator_coprime 32) h, fun h => Dvd.dvd.mul_left h _⟩

end Boxcars.Proofs.Crc
