import Verif.Proofs.Crc
import Mathlib.Dynamics.PeriodicPts.Defs
import Mathlib.Tactic.NormNum.Prime
/-!
# The period of the checksum register

The register without input is multiplication by `x` modulo the generator
polynomial.  The period of `1` is `2^32 - 1`: powers with large exponents are computed
by multiplication in that ring, and the exponents `(2^32 - 1) / p` for the five prime
divisors `p` do not give `1`.
-/
namespace Boxcars.Proofs.Crc
open Boxcars Boxcars.Crc

/-- The lowest `k` bits of `a`, as a sum of powers of `x`. -/
def sumBits (a : U32) : Nat → U32
  | 0 => 0#32
  | k + 1 => (if a.getLsbD k then BitVec.twoPow 32 k else 0#32) ^^^ sumBits a k

theorem getLsbD_sumBits (a : U32) (k j : Nat) (hj : j < 32) :
    (sumBits a k).getLsbD j = (decide (j < k) && a.getLsbD j) := by
  induction k with
  | zero => simp [sumBits]
  | succ k ih =>
    rw [sumBits, BitVec.getLsbD_xor, ih]
    by_cases h : j = k
    · subst h
      cases hj' : a.getLsbD j
      · simp
      · simp [hj]
    · have h1 : (j < k + 1) = (j < k) := by apply propext; omega
      have h2 : (BitVec.twoPow 32 k).getLsbD j = false := by
        rw [BitVec.getLsbD_twoPow]; simp; omega
      split <;> simp [h1, h2]

theorem sumBits_32 (a : U32) : sumBits a 32 = a := by
  apply BitVec.eq_of_getLsbD_eq
  intro i hi
  rw [getLsbD_sumBits a 32 i hi]; simp [hi]

/-- The sum of `x^i * b` over the lowest `k` bits of `a`. -/
def mulN (a b : U32) : Nat → U32
  | 0 => 0#32
  | k + 1 => (if a.getLsbD k then iterL poly k b else 0#32) ^^^ mulN a b k

/-- Multiplication modulo the generator polynomial. -/
def mul (a b : U32) : U32 := mulN a b 32

theorem iterL_comm (m n : Nat) (r : U32) :
    iterL poly m (iterL poly n r) = iterL poly n (iterL poly m r) := by
  rw [← iterL_add, ← iterL_add, Nat.add_comm]

theorem iterL_twoPow (k : Nat) (hk : k < 32) : iterL poly k 1#32 = BitVec.twoPow 32 k := by
  rw [iterL_shift]
  · rfl
  · have : 2 ^ k < 2 ^ 32 := Nat.pow_lt_pow_right (by decide) hk
    simpa using this

theorem iterL_sumBits (n : Nat) (a : U32) (k : Nat) (hk : k ≤ 32) :
    iterL poly n (sumBits a k) = mulN a (iterL poly n 1#32) k := by
  induction k with
  | zero => rw [sumBits, mulN, iterL_zero]
  | succ k ih =>
    rw [sumBits, mulN, iterL_xor, ih (by omega)]
    congr 1
    split
    · rw [← iterL_twoPow k (by omega), iterL_comm]
    · rw [iterL_zero]

theorem iterL_eq_mul (n : Nat) (a : U32) : iterL poly n a = mul a (iterL poly n 1#32) := by
  have := iterL_sumBits n a 32 (by omega)
  rwa [sumBits_32] at this

/-- `x^n` -/
def xpow (n : Nat) : U32 := iterL poly n 1#32

theorem xpow_add (m n : Nat) : xpow (m + n) = mul (xpow m) (xpow n) := by
  unfold xpow
  rw [iterL_add, iterL_eq_mul]

/-- `x^n` from the binary digits of `n`, most significant first. -/
def fastPow : List Bool → U32 → U32
  | [], acc => acc
  | b :: bs, acc => fastPow bs (if b then L poly (mul acc acc) else mul acc acc)

def ofDigits : List Bool → Nat → Nat
  | [], acc => acc
  | b :: bs, acc => ofDigits bs (if b then 2 * acc + 1 else 2 * acc)

theorem fastPow_eq (bs : List Bool) (n : Nat) : fastPow bs (xpow n) = xpow (ofDigits bs n) := by
  induction bs generalizing n with
  | nil => rfl
  | cons b bs ih =>
    rw [fastPow, ofDigits, ← xpow_add]
    cases b
    · simp only [Bool.false_eq_true, if_false]
      rw [ih, Nat.two_mul]
    · simp only [if_true]
      have : L poly (xpow (n + n)) = xpow (2 * n + 1) := by
        unfold xpow
        rw [← Nat.two_mul, iterL_add, iterL_cons, iterL]
      rw [this, ih]

theorem xpow_of_digits (bs : List Bool) (n : Nat) (h : ofDigits bs 0 = n) :
    xpow n = fastPow bs 1#32 := by
  rw [← h, ← fastPow_eq]; unfold xpow; rw [iterL]

def digits (n : Nat) : List Bool := (List.range 32).map (fun i => n.testBit (31 - i))

theorem xpow_order : xpow (2 ^ 32 - 1) = 1#32 := by
  rw [xpow_of_digits (digits (2 ^ 32 - 1)) _ (by decide +kernel)]
  decide +kernel

theorem xpow_div (p : Nat) (hp : p = 3 ∨ p = 5 ∨ p = 17 ∨ p = 257 ∨ p = 65537) :
    xpow ((2 ^ 32 - 1) / p) ≠ 1#32 := by
  rcases hp with rfl | rfl | rfl | rfl | rfl
  · rw [xpow_of_digits (digits ((2 ^ 32 - 1) / 3)) _ (by decide +kernel)]
    decide +kernel
  · rw [xpow_of_digits (digits ((2 ^ 32 - 1) / 5)) _ (by decide +kernel)]
    decide +kernel
  · rw [xpow_of_digits (digits ((2 ^ 32 - 1) / 17)) _ (by decide +kernel)]
    decide +kernel
  · rw [xpow_of_digits (digits ((2 ^ 32 - 1) / 257)) _ (by decide +kernel)]
    decide +kernel
  · rw [xpow_of_digits (digits ((2 ^ 32 - 1) / 65537)) _ (by decide +kernel)]
    decide +kernel

theorem prime_divisors (p : Nat) (hp : p.Prime) (h : p ∣ 2 ^ 32 - 1) :
    p = 3 ∨ p = 5 ∨ p = 17 ∨ p = 257 ∨ p = 65537 := by
  have e : 2 ^ 32 - 1 = 3 * 5 * 17 * 257 * 65537 := by decide
  rw [e] at h
  rcases (hp.dvd_mul).1 h with h | h
  · rcases (hp.dvd_mul).1 h with h | h
    · rcases (hp.dvd_mul).1 h with h | h
      · rcases (hp.dvd_mul).1 h with h | h
        · exact .inl ((Nat.prime_dvd_prime_iff_eq hp (by norm_num)).1 h)
        · exact .inr (.inl ((Nat.prime_dvd_prime_iff_eq hp (by norm_num)).1 h))
      · exact .inr (.inr (.inl ((Nat.prime_dvd_prime_iff_eq hp (by norm_num)).1 h)))
    · exact .inr (.inr (.inr (.inl ((Nat.prime_dvd_prime_iff_eq hp (by norm_num)).1 h))))
  · exact .inr (.inr (.inr (.inr ((Nat.prime_dvd_prime_iff_eq hp (by norm_num)).1 h))))

theorem iterate_L (n : Nat) (r : U32) : (L poly)^[n] r = iterL poly n r := by
  induction n generalizing r with
  | zero => rw [iterL]; rfl
  | succ n ih => rw [Function.iterate_succ_apply, ih, iterL]

theorem periodic_iff (n : Nat) : Function.IsPeriodicPt (L poly) n 1#32 ↔ xpow n = 1#32 := by
  unfold Function.IsPeriodicPt Function.IsFixedPt xpow
  rw [iterate_L]

theorem minimalPeriod_L : Function.minimalPeriod (L poly) 1#32 = 2 ^ 32 - 1 := by
  have h1 : Function.minimalPeriod (L poly) 1#32 ∣ 2 ^ 32 - 1 :=
    ((periodic_iff _).2 xpow_order).minimalPeriod_dvd
  obtain ⟨k, hk⟩ := h1
  generalize hm : Function.minimalPeriod (L poly) 1#32 = m at hk ⊢
  by_cases hk1 : k = 1
  · rw [hk, hk1, Nat.mul_one]
  · exfalso
    obtain ⟨p, hp, hpk⟩ := Nat.exists_prime_and_dvd hk1
    obtain ⟨q, rfl⟩ := hpk
    have hpN : p ∣ 2 ^ 32 - 1 := by rw [hk]; exact ⟨m * q, Nat.mul_left_comm _ _ _⟩
    apply xpow_div p (prime_divisors p hp hpN)
    have : (2 ^ 32 - 1) / p = m * q := by
      rw [hk, show m * (p * q) = p * (m * q) from Nat.mul_left_comm _ _ _, Nat.mul_div_cancel_left _ hp.pos]
    rw [this, ← periodic_iff]
    rw [← hm]
    exact (Function.isPeriodicPt_minimalPeriod (L poly) 1#32).mul_const q

/-- A power of `x` is one exactly for the multiples of `2^32 - 1`. -/
theorem xpow_eq_one_iff (n : Nat) : xpow n = 1#32 ↔ (2 ^ 32 - 1) ∣ n := by
  rw [← periodic_iff, ← minimalPeriod_L, Function.isPeriodicPt_iff_minimalPeriod_dvd]

theorem iterL_poly (n : Nat) : iterL poly n poly = iterL poly 32 (xpow n) := by
  unfold xpow
  rw [iterL_comm]
  congr 1
  rw [iterL_add poly 31 1, iterL_twoPow 31 (by omega), iterL_cons, iterL]
  decide

theorem step_not (r : U32) (b : Bool) : Spec.Crc.step r (!b) = Spec.Crc.step r b ^^^ poly := by
  unfold Spec.Crc.step Spec.Crc.poly
  cases r.msb <;> cases b <;> simp [BitVec.xor_assoc]

/-- The same bits move a difference of registers by a power of `x`. -/
theorem foldl_step_diff (bs : List Bool) (r s : U32) :
    bs.foldl Spec.Crc.step (r ^^^ s) = bs.foldl Spec.Crc.step r ^^^ iterL poly bs.length s := by
  induction bs generalizing r s with
  | nil => rw [List.foldl_nil, List.foldl_nil, List.length_nil, iterL]
  | cons b bs ih =>
    rw [List.foldl_cons, List.foldl_cons, List.length_cons, iterL_cons, ← ih, step_eq, step_eq,
      ← L_xor]
    congr 2
    ac_rfl

/-- Two flipped bits cancel exactly if their distance is a multiple of `2^32 - 1`. -/
theorem two_flips (x y : Bool) (mid : List Bool) (r : U32) :
    (x :: (mid ++ [y])).foldl Spec.Crc.step r = ((!x) :: (mid ++ [!y])).foldl Spec.Crc.step r ↔
      (2 ^ 32 - 1) ∣ mid.length + 1 := by
  rw [← xpow_eq_one_iff]
  simp only [List.foldl_cons, List.foldl_append, List.foldl_nil]
  rw [step_not r x, foldl_step_diff, step_not, step_eq (_ ^^^ iterL poly _ _)]
  generalize List.foldl Spec.Crc.step (Spec.Crc.step r x) mid = q
  have e1 : q ^^^ iterL poly mid.length poly ^^^ (if y = true then 0x80000000#32 else 0#32) =
      (q ^^^ (if y = true then 0x80000000#32 else 0#32)) ^^^ iterL poly mid.length poly := by ac_rfl
  have e2 : L poly (iterL poly mid.length poly) = iterL poly 32 (xpow (mid.length + 1)) := by
    rw [← iterL_poly, iterL_add, iterL_cons, iterL]
  have e3 : iterL poly 32 1#32 = poly := by
    have := iterL_poly 0
    unfold xpow at this
    rw [iterL, iterL] at this
    exact this.symm
  rw [e1, L_xor, ← step_eq, e2]
  generalize Spec.Crc.step q y = z
  constructor
  · intro h
    have h1 : iterL poly 32 (xpow (mid.length + 1)) ^^^ poly = 0#32 := by
      have := congrArg (z ^^^ ·) h
      simp only [BitVec.xor_self, ← BitVec.xor_assoc, BitVec.zero_xor] at this
      exact this.symm
    have h2 := BitVec.xor_eq_zero_iff.mp h1
    exact iterL_inj 32 _ _ (h2.trans e3.symm)
  · intro h
    rw [h, e3, BitVec.xor_assoc, BitVec.xor_self, BitVec.xor_zero]

end Boxcars.Proofs.Crc
