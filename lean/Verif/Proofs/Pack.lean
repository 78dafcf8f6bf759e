import Verif.Spec.Pack
import Verif.Proofs.BitLeaf
/-!
# Bits as bytes
-/
namespace Boxcars
open Spec

theorem binary_lt (bs : Bits) : binary bs < 2 ^ bs.length := by
  induction bs with
  | nil => simp [binary]
  | cons b bs ih =>
    rw [binary, List.length_cons, Nat.pow_succ]
    have := Bool.toNat_le b
    omega

theorem bits_binary (n : Nat) (bs : Bits) (h : bs.length ≤ n) :
    bits n (binary bs) = bs ++ List.replicate (n - bs.length) false := by
  induction n generalizing bs with
  | zero =>
    have : bs = [] := List.length_eq_zero_iff.1 (by omega)
    subst this
    rfl
  | succ n ih =>
    rw [bits]
    cases bs with
    | nil =>
      have := ih [] (Nat.zero_le _)
      simp only [binary, List.nil_append, List.length_nil, Nat.sub_zero] at this ⊢
      rw [List.replicate_succ, ← this]
      simp
    | cons b bs =>
      have hb := Bool.toNat_le b
      have e1 : (binary (b :: bs)).testBit 0 = b := by
        rw [binary, Nat.testBit_zero]
        cases b <;> simp <;> omega
      have e2 : binary (b :: bs) / 2 = binary bs := by rw [binary]; omega
      rw [e1, e2, ih bs (by simpa using h), List.cons_append, List.length_cons, Nat.add_sub_add_right]

/-- The bits of the bytes are the bits and fewer than eight zeros. -/
theorem bytes_pack (bs : Bits) :
    bytes (pack bs) = bs ++ List.replicate (8 * (pack bs).length - bs.length) false ∧
      bs.length ≤ 8 * (pack bs).length ∧ 8 * (pack bs).length < bs.length + 8 := by
  induction bs using pack.induct with
  | case1 => simp [pack, bytes]
  | case2 b bs ih =>
    obtain ⟨h1, h2, h3⟩ := ih
    have ht : (b :: bs.take 7).length ≤ 8 := by simp; omega
    have hn := binary_lt (b :: bs.take 7)
    have hn' : binary (b :: bs.take 7) < 2 ^ 8 :=
      Nat.lt_of_lt_of_le hn (Nat.pow_le_pow_right (by decide) ht)
    have e : field 8 (BitVec.ofNat 8 (binary (b :: bs.take 7))) =
        (b :: bs.take 7) ++ List.replicate (8 - (b :: bs.take 7).length) false := by
      unfold field
      rw [BitVec.toNat_ofNat, Nat.mod_eq_of_lt hn', bits_binary 8 _ ht]
    rw [pack]
    have hb : ∀ x (xs : List (BitVec 8)), bytes (x :: xs) = field 8 x ++ bytes xs :=
      fun x xs => List.flatMap_cons
    rw [hb, e, h1]
    simp only [List.length_cons, List.length_take, List.length_drop] at *
    by_cases hc : bs.length ≤ 7
    · have hd : bs.drop 7 = [] := List.drop_eq_nil_iff.2 hc
      rw [hd, pack]
      refine ⟨?_, by simp; omega, by simp⟩
      rw [List.take_of_length_le hc]
      simp only [List.length_nil, Nat.min_eq_right hc]
      simp
    · refine ⟨?_, by omega, by omega⟩
      have hm : min 7 bs.length = 7 := by omega
      rw [hm]
      simp only [Nat.sub_self, List.replicate_zero, List.append_nil, List.cons_append]
      rw [← List.append_assoc, List.take_append_drop]
      congr 3
      omega

end Boxcars
