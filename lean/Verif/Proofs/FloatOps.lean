import Verif.Proofs.FloatOrder
import Verif.Spec.Quat
import Mathlib.Tactic.Linarith
import Mathlib.Tactic.Positivity
import Mathlib.Tactic.FieldSimp
import Mathlib.Tactic.NormNum
import Mathlib.Tactic.Ring
import Mathlib.Algebra.Order.Archimedean.Basic
import Mathlib.Data.Rat.Floor
/-!
# The binary32 operations of the model are correctly rounded
-/
namespace Boxcars.F32
open Boxcars.Spec

/-- Value of a dyadic. -/
def Dy.val (a : Dy) : ℚ := (a.m : ℚ) * 2 ^ a.e

theorem toDy_val (f : F32) : (toDy f).val = fval f := by
  unfold Dy.val toDy
  simp only
  have h : (num f : ℚ) * 2 ^ (exp f) = fabs f := by
    unfold num exp fabs
    have h1 : expField f = fexp f := rfl
    have h2 : fracField f = ffrac f := rfl
    rw [h1, h2]
    split
    · rfl
    · rfl
  unfold fval
  rw [sign_eq, ← h]
  split
  · push_cast; ring
  · push_cast; ring

theorem Dy.mul_val (a b : Dy) : (Dy.mul a b).val = a.val * b.val := by
  unfold Dy.mul Dy.val
  simp only
  rw [zpow_add₀ (by norm_num)]
  push_cast
  ring

theorem Dy.neg_val (a : Dy) : (Dy.neg a).val = -a.val := by
  unfold Dy.neg Dy.val
  simp only
  push_cast
  ring

theorem Dy.add_val (a b : Dy) : (Dy.add a b).val = a.val + b.val := by
  have key : ∀ (x e : Int), e ≤ x → (2 : ℚ) ^ (x - e).toNat * 2 ^ e = 2 ^ x := by
    intro x e h
    rw [← zpow_natCast, Int.toNat_of_nonneg (by omega), ← zpow_add₀ (by norm_num)]
    congr 1
    omega
  unfold Dy.add Dy.val
  simp only
  push_cast
  rw [add_mul, mul_assoc, mul_assoc, key _ _ (min_le_left _ _), key _ _ (min_le_right _ _)]

/-- The parts of the quotient that is rounded. -/
theorem Dy.round_form (a : Dy) : ∃ p q : Nat, 0 < q ∧ Dy.round a = ofRat (decide (a.m < 0)) p q ∧
    (p : ℚ) / q = |a.val| ∧ a.val = (if decide (a.m < 0) then -((p : ℚ) / q) else (p : ℚ) / q) := by
  have hp : (0 : ℚ) < 2 ^ a.e := by positivity
  have habs : ((a.m.natAbs : ℕ) : ℚ) = |(a.m : ℚ)| := by
    rw [← Int.cast_natCast, Int.natCast_natAbs, Int.cast_abs]
  have sgn : a.val = (if decide (a.m < 0) then -|a.val| else |a.val|) := by
    unfold Dy.val
    rcases lt_or_ge a.m 0 with h | h
    · have : (a.m : ℚ) < 0 := by exact_mod_cast h
      rw [decide_eq_true h, if_pos rfl, abs_mul, abs_of_neg this, abs_of_pos hp]; ring
    · have : (0 : ℚ) ≤ a.m := by exact_mod_cast h
      rw [decide_eq_false (by omega), if_neg (by decide), abs_mul, abs_of_nonneg this, abs_of_pos hp]
  unfold Dy.round
  split
  · rename_i he
    refine ⟨a.m.natAbs * 2 ^ a.e.toNat, 1, by decide, rfl, ?_, ?_⟩
    · unfold Dy.val
      rw [abs_mul, abs_of_pos hp, ← habs]
      push_cast
      rw [div_one, ← zpow_natCast, Int.toNat_of_nonneg he]
    · rw [sgn]
      have : (((a.m.natAbs * 2 ^ a.e.toNat : ℕ)) : ℚ) / ((1 : ℕ) : ℚ) = |a.val| := by
        unfold Dy.val
        rw [abs_mul, abs_of_pos hp, ← habs]
        push_cast
        rw [div_one, ← zpow_natCast, Int.toNat_of_nonneg he]
      rw [this]
  · rename_i he
    have hv : ((a.m.natAbs : ℕ) : ℚ) / ((2 ^ (-a.e).toNat : ℕ) : ℚ) = |a.val| := by
      unfold Dy.val
      rw [abs_mul, abs_of_pos hp, ← habs]
      push_cast
      rw [← zpow_natCast, Int.toNat_of_nonneg (by omega), zpow_neg, div_inv_eq_mul]
    refine ⟨a.m.natAbs, 2 ^ (-a.e).toNat, by positivity, rfl, hv, ?_⟩
    rw [hv]
    exact sgn

theorem Dy.round_nearest (a : Dy) (h : |a.val| < 2 ^ (100 : Int)) : Nearest a.val (Dy.round a) := by
  obtain ⟨p, q, hq, h1, h2, h3⟩ := Dy.round_form a
  rw [h1, h3]
  exact ofRat_nearest hq (roundMag_lt hq (h2 ▸ h))

theorem Dy.round_error (a : Dy) {k : Int} (hk : -125 ≤ k) (hk' : k ≤ 100) (h : |a.val| < 2 ^ k) :
    |fval (Dy.round a) - a.val| ≤ 2 ^ (k - 25) := by
  obtain ⟨p, q, hq, h1, h2, h3⟩ := Dy.round_form a
  rw [h1, h3]
  exact ofRat_error hq hk hk' (h2 ▸ h)

/-! ### Consequences of being nearest -/

theorem neg_parts (f : F32) : fexp (neg f) = fexp f ∧ ffrac (neg f) = ffrac f ∧
    fneg (neg f) = !fneg f := by
  have hx : (neg f).toNat = f.toNat ^^^ 2 ^ 31 := by
    unfold neg
    rw [BitVec.toNat_xor]
    rfl
  have h1 : (neg f).toNat % 2 ^ 31 = f.toNat % 2 ^ 31 := by
    rw [hx, Nat.xor_mod_two_pow, Nat.mod_self, Nat.xor_zero]
  have h2 : (neg f).toNat / 2 ^ 31 = (f.toNat / 2 ^ 31) ^^^ 1 := by
    rw [hx, Nat.xor_div_two_pow, Nat.div_self (by decide)]
  have hf : f.toNat < 2 ^ 32 := f.isLt
  have hn : (neg f).toNat < 2 ^ 32 := (neg f).isLt
  refine ⟨?_, ?_, ?_⟩
  · unfold fexp; omega
  · unfold ffrac; omega
  · unfold fneg
    have h3 : f.toNat / 2 ^ 31 = 0 ∨ f.toNat / 2 ^ 31 = 1 := by omega
    rcases h3 with h3 | h3
    · rw [h3] at h2
      have h2 : (neg f).toNat / 2 ^ 31 = 1 := h2
      rw [decide_eq_true (by omega), decide_eq_false (by omega)]; rfl
    · rw [h3] at h2
      have h2 : (neg f).toNat / 2 ^ 31 = 0 := h2
      rw [decide_eq_false (by omega), decide_eq_true (by omega)]; rfl

theorem fval_neg (f : F32) : fval (neg f) = -fval f := by
  obtain ⟨h1, h2, h3⟩ := neg_parts f
  unfold fval fabs
  rw [h1, h2, h3]
  cases fneg f <;> simp

theorem finite_neg {f : F32} (h : IsFinite f) : IsFinite (neg f) := by
  unfold IsFinite
  rw [(neg_parts f).1]
  exact h

theorem abs_le_of_nearest {x : ℚ} {f b : F32} (h : Nearest x f) (hb : IsFinite b)
    (hx : |x| ≤ fval b) : |fval f| ≤ fval b := by
  obtain ⟨h1, h2⟩ := abs_le.1 hx
  rw [abs_le]
  have hbn : IsFinite (neg b) := finite_neg hb
  constructor
  · by_contra hlt
    push Not at hlt
    have := h.2 (neg b) hbn
    rw [fval_neg] at this
    have e1 : |fval f - x| = x - fval f := by rw [abs_of_neg (by linarith)]; ring
    have e2 : |-fval b - x| = x + fval b := by rw [abs_of_nonpos (by linarith)]; ring
    rw [e1, e2] at this
    rcases this with h | ⟨h, _⟩ <;> linarith
  · by_contra hlt
    push Not at hlt
    have := h.2 b hb
    have e1 : |fval f - x| = fval f - x := abs_of_pos (by linarith)
    have e2 : |fval b - x| = fval b - x := abs_of_nonneg (by linarith)
    rw [e1, e2] at this
    rcases this with h | ⟨h, _⟩ <;> linarith

/-- A value that is a binary32 is rounded to itself. -/
theorem nearest_exact {x : ℚ} {f g : F32} (h : Nearest x f) (hg : IsFinite g) (hx : fval g = x) :
    fval f = x := by
  have := h.2 g hg
  rw [hx, sub_self, abs_zero] at this
  rcases this with h | ⟨h, _⟩
  · exact absurd h (not_lt.2 (abs_nonneg _))
  · exact sub_eq_zero.1 (abs_eq_zero.1 h)

theorem lt_of_abs_le {x : ℚ} (h : |x| ≤ 4) : |x| < 2 ^ (100 : Int) :=
  lt_of_le_of_lt h (by norm_num)

/-! ### Operations -/

theorem mul_nearest {a b : F32} (h : |fval a * fval b| ≤ 4) :
    Nearest (fval a * fval b) (mul a b) := by
  have hv : (Dy.mul (toDy a) (toDy b)).val = fval a * fval b := by
    rw [Dy.mul_val, toDy_val, toDy_val]
  have := Dy.round_nearest (Dy.mul (toDy a) (toDy b)) (by rw [hv]; exact lt_of_abs_le h)
  rw [hv] at this
  exact this

theorem mul_error {a b : F32} (h : |fval a * fval b| < 1) :
    |fval (mul a b) - fval a * fval b| ≤ 2 ^ (-25 : Int) := by
  have hv : (Dy.mul (toDy a) (toDy b)).val = fval a * fval b := by
    rw [Dy.mul_val, toDy_val, toDy_val]
  have := Dy.round_error (Dy.mul (toDy a) (toDy b)) (k := 0) (by decide) (by decide)
    (by rw [hv]; simpa using h)
  rw [hv] at this
  exact this

theorem sub_val (a b : F32) :
    (Dy.add (toDy a) (Dy.neg (toDy b))).val = fval a - fval b := by
  rw [Dy.add_val, Dy.neg_val, toDy_val, toDy_val]; ring

theorem sub_nearest {a b : F32} (h : |fval a - fval b| ≤ 4) :
    Nearest (fval a - fval b) (sub a b) := by
  have := Dy.round_nearest (Dy.add (toDy a) (Dy.neg (toDy b)))
    (by rw [sub_val]; exact lt_of_abs_le h)
  rw [sub_val] at this
  exact this

theorem sub_error {a b : F32} (h : |fval a - fval b| < 1) :
    |fval (sub a b) - (fval a - fval b)| ≤ 2 ^ (-25 : Int) := by
  have := Dy.round_error (Dy.add (toDy a) (Dy.neg (toDy b))) (k := 0) (by decide) (by decide)
    (by rw [sub_val]; simpa using h)
  rw [sub_val] at this
  exact this

theorem fma_val (a c : F32) :
    (Dy.add (Dy.mul (toDy a) (toDy (neg a))) (toDy c)).val = fval c - fval a ^ 2 := by
  rw [Dy.add_val, Dy.mul_val, toDy_val, toDy_val, toDy_val, fval_neg]; ring

theorem fma_nearest {a c : F32} (h : |fval c - fval a ^ 2| ≤ 4) :
    Nearest (fval c - fval a ^ 2) (mulAdd a (neg a) c) := by
  have := Dy.round_nearest (Dy.add (Dy.mul (toDy a) (toDy (neg a))) (toDy c))
    (by rw [fma_val]; exact lt_of_abs_le h)
  rw [fma_val] at this
  exact this

theorem fma_error {a c : F32} (h : |fval c - fval a ^ 2| ≤ 1) :
    |fval (mulAdd a (neg a) c) - (fval c - fval a ^ 2)| ≤ 2 ^ (-24 : Int) := by
  have := Dy.round_error (Dy.add (Dy.mul (toDy a) (toDy (neg a))) (toDy c)) (k := 1) (by decide)
    (by decide) (by rw [fma_val]; refine lt_of_le_of_lt h (by norm_num))
  rw [fma_val] at this
  exact this

/-- The quotient that `div` rounds. -/
theorem div_form (a b : F32) (hb : 0 < fval b) : ∃ p q : Nat, 0 < q ∧
    div a b = ofRat (decide ((toDy a).m < 0)) p q ∧ (p : ℚ) / q = |fval a / fval b| ∧
    fval a / fval b = (if decide ((toDy a).m < 0) then -((p : ℚ) / q) else (p : ℚ) / q) := by
  have ha' := toDy_val a
  have hb' := toDy_val b
  unfold Dy.val at ha' hb'
  have hpb : (0 : ℚ) < 2 ^ (toDy b).e := by positivity
  have hpa : (0 : ℚ) < 2 ^ (toDy a).e := by positivity
  have hbm : 0 < (toDy b).m := by
    have : (0 : ℚ) < (toDy b).m := by
      rw [← hb'] at hb
      exact (pos_iff_pos_of_mul_pos hb).2 hpb
    exact_mod_cast this
  obtain ⟨d, hd⟩ : ∃ d, d = (toDy a).e - (toDy b).e := ⟨_, rfl⟩
  have hq0 : 0 < (toDy b).m.natAbs * 2 ^ (-d).toNat := Nat.mul_pos (by omega) (by positivity)
  have habs : ∀ x : Int, ((x.natAbs : ℕ) : ℚ) = |(x : ℚ)| := by
    intro x
    rw [← Int.cast_natCast, Int.natCast_natAbs, Int.cast_abs]
  have hpq : (((toDy a).m.natAbs * 2 ^ d.toNat : ℕ) : ℚ) /
      (((toDy b).m.natAbs * 2 ^ (-d).toNat : ℕ) : ℚ) = |fval a / fval b| := by
    have key : (2 : ℚ) ^ d.toNat / 2 ^ (-d).toNat = 2 ^ (toDy a).e / 2 ^ (toDy b).e := by
      rw [← zpow_natCast, ← zpow_natCast, ← zpow_sub₀ (by norm_num), ← zpow_sub₀ (by norm_num)]
      congr 1
      omega
    push_cast
    rw [habs, habs, mul_div_mul_comm, key, ← abs_of_pos (div_pos hpa hpb), ← abs_div, ← abs_mul,
      ← mul_div_mul_comm, ha', hb']
  refine ⟨_, _, hq0, ?_, hpq, ?_⟩
  · unfold div
    simp only
    rw [decide_eq_false (show ¬(toDy b).m < 0 by omega), Bool.xor_false, hd]
  · rw [hpq]
    rcases lt_or_ge (toDy a).m 0 with h | h
    · have : ((toDy a).m : ℚ) < 0 := by exact_mod_cast h
      have : fval a < 0 := by rw [← ha']; exact mul_neg_of_neg_of_pos this hpa
      rw [decide_eq_true h, if_pos rfl, abs_of_neg (div_neg_of_neg_of_pos this hb), neg_neg]
    · have : (0 : ℚ) ≤ (toDy a).m := by exact_mod_cast h
      have : 0 ≤ fval a := by rw [← ha']; exact mul_nonneg this hpa.le
      rw [decide_eq_false (by omega), if_neg (by decide), abs_of_nonneg (div_nonneg this hb.le)]

theorem div_nearest {a b : F32} (hb : 0 < fval b) (h : |fval a / fval b| ≤ 4) :
    Nearest (fval a / fval b) (div a b) := by
  obtain ⟨p, q, hq, h1, h2, h3⟩ := div_form a b hb
  rw [h1, h3]
  exact ofRat_nearest hq (roundMag_lt hq (by rw [h2]; exact lt_of_abs_le h))

theorem div_error {a b : F32} (hb : 0 < fval b) (h : |fval a / fval b| ≤ 1) :
    |fval (div a b) - fval a / fval b| ≤ 2 ^ (-24 : Int) := by
  obtain ⟨p, q, hq, h1, h2, h3⟩ := div_form a b hb
  rw [h1, h3]
  exact ofRat_error (k := 1) hq (by decide) (by decide) (by rw [h2]; exact lt_of_le_of_lt h (by norm_num))

/-- Integers of at most 24 bits are exact. -/
theorem fval_ofInt {x : Int} (hx : x.natAbs < 2 ^ 24) : fval (ofInt x) = x := by
  rcases eq_or_ne x 0 with rfl | h0
  · rw [ofInt_zero]
    have h1 : fexp 0#32 = 0 := by decide
    have h2 : ffrac 0#32 = 0 := by decide
    simp [fval, fabs, h1, h2]
  · obtain ⟨k, _, hk⟩ := toDy_ofInt h0 hx
    rw [← toDy_val, hk]
    unfold Dy.val
    simp only
    push_cast
    rw [mul_assoc, ← zpow_natCast, ← zpow_add₀ (by norm_num), add_neg_cancel, zpow_zero, mul_one]

/-! ### Square roots -/

theorem isqrtAux_spec (n : Nat) : ∀ b acc, acc * acc ≤ n → n < (acc + 2 ^ b) * (acc + 2 ^ b) →
    isqrtAux n b acc * isqrtAux n b acc ≤ n ∧
      n < (isqrtAux n b acc + 1) * (isqrtAux n b acc + 1) := by
  intro b
  induction b with
  | zero =>
    intro acc h1 h2
    exact ⟨h1, h2⟩
  | succ b ih =>
    intro acc h1 h2
    unfold isqrtAux
    simp only
    split
    · rename_i h
      refine ih _ h ?_
      rw [Nat.add_assoc, ← Nat.two_mul, ← Nat.pow_succ']
      exact h2
    · rename_i h
      exact ih _ h1 (by omega)

theorem isqrt_spec (n : Nat) : isqrt n * isqrt n ≤ n ∧ n < (isqrt n + 1) * (isqrt n + 1) := by
  refine isqrtAux_spec n _ _ (by omega) ?_
  rw [Nat.zero_add, ← Nat.pow_add]
  refine lt_of_lt_of_le Nat.lt_log2_self (Nat.pow_le_pow_right (by decide) ?_)
  omega

/-- Values of at least `2^(h+31)` are multiples of `2^(h+8)`. -/
theorem grid {g : F32} {h : Int} (hg : (2 : ℚ) ^ (31 : Nat) * 2 ^ h ≤ fval g) :
    ∃ J : Int, fval g = ((256 * J : Int) : ℚ) * 2 ^ h := by
  obtain ⟨j, k, hj, _, hv⟩ := fval_form g
  have hk : h + 8 ≤ k := by
    by_contra hlt
    push Not at hlt
    have h1 : (2 : ℚ) ^ k ≤ 2 ^ (h + 7) := zpow_le_zpow_right₀ (by norm_num) (by omega)
    have h2 : (j : ℚ) < 2 ^ (24 : Nat) := by
      have : j < 2 ^ 24 := lt_of_le_of_lt (le_abs_self j) hj
      exact_mod_cast this
    have h3 : (0 : ℚ) < 2 ^ k := by positivity
    have h4 : fval g < 2 ^ (24 : Nat) * 2 ^ (h + 7) := by
      rw [hv]
      exact lt_of_lt_of_le (mul_lt_mul_of_pos_right h2 h3)
        (mul_le_mul_of_nonneg_left h1 (by positivity))
    have h5 : (2 : ℚ) ^ (24 : Nat) * 2 ^ (h + 7) = 2 ^ (31 : Nat) * 2 ^ h := by
      rw [zpow_add₀ (by norm_num)]
      norm_num
      ring
    rw [h5] at h4
    linarith
  refine ⟨j * 2 ^ (k - (h + 8)).toNat, ?_⟩
  have h6 : (2 : ℚ) ^ (k - (h + 8)).toNat * (2 ^ h * 256) = 2 ^ k := by
    rw [← zpow_natCast, Int.toNat_of_nonneg (by omega),
      show (2 : ℚ) ^ h * 256 = 2 ^ (h + 8) by rw [zpow_add₀ (by norm_num)]; norm_num,
      ← zpow_add₀ (by norm_num)]
    congr 1
    omega
  rw [hv, ← h6]
  push_cast
  ring

theorem round_rel (a : Dy) (h0 : 0 < a.val) (h1 : (2 : ℚ) ^ (-120 : Int) ≤ a.val)
    (h2 : a.val < 2 ^ (99 : Int)) : |fval (Dy.round a) - a.val| ≤ a.val / 2 ^ (24 : Nat) := by
  obtain ⟨k, hk1, hk2⟩ := exists_mem_Ico_zpow (show (0 : ℚ) < a.val from h0) (by norm_num : (1 : ℚ) < 2)
  have hk3 : -121 < k + 1 := by
    have := lt_of_le_of_lt h1 hk2
    have := (zpow_lt_zpow_iff_right₀ (by norm_num : (1 : ℚ) < 2)).1 this
    omega
  have hk4 : k < 99 := (zpow_lt_zpow_iff_right₀ (by norm_num : (1 : ℚ) < 2)).1 (lt_of_le_of_lt hk1 h2)
  have := Dy.round_error a (k := k + 1) (by omega) (by omega) (by rw [abs_of_pos h0]; exact hk2)
  refine le_trans this ?_
  rw [le_div_iff₀ (by positivity)]
  refine le_trans (le_of_eq ?_) hk1
  rw [show k + 1 - 25 = k + (-24) by ring, zpow_add₀ (by norm_num)]
  norm_num
  ring

/-- Nearest in terms of midpoints. -/
theorem nearest_mid {v : ℚ} {f g : F32} (h : Nearest v f) (hg : IsFinite g) :
    (fval f < fval g → v < (fval f + fval g) / 2 ∨ (v = (fval f + fval g) / 2 ∧ ffrac f % 2 = 0)) ∧
    (fval g < fval f → (fval f + fval g) / 2 < v ∨ (v = (fval f + fval g) / 2 ∧ ffrac f % 2 = 0)) := by
  have := h.2 g hg
  constructor
  · intro hlt
    rcases this with h1 | ⟨h1, h2⟩
    · left
      by_contra hle
      push Not at hle
      rw [abs_of_nonpos (by linarith)] at h1
      rcases le_total v (fval g) with h3 | h3
      · rw [abs_of_nonneg (by linarith)] at h1; linarith
      · rw [abs_of_nonpos (by linarith)] at h1; linarith
    · right
      refine ⟨?_, h2.resolve_left (ne_of_lt hlt)⟩
      rcases abs_eq_abs.1 h1 with h3 | h3
      · exfalso; linarith
      · linarith
  · intro hlt
    rcases this with h1 | ⟨h1, h2⟩
    · left
      by_contra hle
      push Not at hle
      rw [abs_of_nonneg (by linarith)] at h1
      rcases le_total v (fval g) with h3 | h3
      · rw [abs_of_nonneg (by linarith)] at h1; linarith
      · rw [abs_of_nonpos (by linarith)] at h1; linarith
    · right
      refine ⟨?_, h2.resolve_left (ne_of_gt hlt)⟩
      rcases abs_eq_abs.1 h1 with h3 | h3
      · exfalso; linarith
      · linarith

/-- The root of a positive number is the rounding of a `v` next to the true root. -/
theorem sqrt_core {a : F32} (ha : IsFinite a) (h0 : 0 < fval a) :
    ∃ (X r : Nat) (hh t : Int) (u v : ℚ), u = 2 ^ hh ∧ 0 < u ∧ fval a = (X : ℚ) * u ^ 2 ∧
      r * r ≤ X ∧ X < (r + 1) * (r + 1) ∧ (2 : ℚ) ^ 32 ≤ r ∧ t = (if r * r = X then 0 else 1) ∧
      v = ((r : ℚ) + t / 2) * u ∧ 0 < v ∧ Nearest v (sqrt a) ∧
      |fval (sqrt a) - v| ≤ v / 2 ^ (24 : Nat) := by
  have hval := toDy_val a
  obtain ⟨m, e, hme⟩ : ∃ m e, toDy a = ⟨m, e⟩ := ⟨_, _, rfl⟩
  have he1 : -149 ≤ e ∧ e ≤ 104 := by
    have : exp a = e := congrArg Dy.e hme
    rw [← this]
    unfold exp
    have h1 : expField a = fexp a := rfl
    have h2 : fexp a < 256 := Nat.mod_lt _ (by decide)
    have h3 : fexp a ≠ 255 := ha
    rw [h1]
    split <;> omega
  have hm1 : m.natAbs < 2 ^ 24 := by
    have h1 : (if sign a then - (num a : Int) else num a) = m := congrArg Dy.m hme
    have h2 : num a < 2 ^ 24 := by
      unfold num
      have : fracField a < 2 ^ 23 := Nat.mod_lt _ (by decide)
      split <;> omega
    rw [← h1]
    split <;> omega
  rw [hme] at hval
  unfold Dy.val at hval
  simp only at hval
  have hpe : (0 : ℚ) < 2 ^ e := by positivity
  have hm0 : 0 ≤ m := by
    by_contra hlt
    push Not at hlt
    have : (m : ℚ) < 0 := by exact_mod_cast hlt
    have := mul_neg_of_neg_of_pos this hpe
    linarith
  have hm : m ≠ 0 := by
    rintro rfl
    simp at hval
    linarith
  unfold sqrt
  simp only [hme]
  rw [if_neg (by omega), if_neg hm]
  obtain ⟨n, rfl⟩ : ∃ n : Nat, m = n := ⟨m.toNat, by omega⟩
  rw [Int.toNat_natCast]
  have hn : 0 < n := by omega
  have hn' : n < 2 ^ 24 := by omega
  obtain ⟨sh, hsh⟩ : ∃ sh : Nat, sh = (if (e - 64) % 2 = 0 then 64 else 65) := ⟨_, rfl⟩
  rw [← hsh]
  have hsh1 : 64 ≤ sh ∧ sh ≤ 65 ∧ (e - (sh : Int)) % 2 = 0 := by
    rw [hsh]
    split
    · omega
    · omega
  obtain ⟨hh, hhe⟩ : ∃ hh : Int, e - (sh : Int) = 2 * hh := ⟨(e - sh) / 2, by omega⟩
  rw [hhe, show (2 * hh) / 2 = hh by omega]
  obtain ⟨X, hX⟩ : ∃ X, X = n * 2 ^ sh := ⟨_, rfl⟩
  rw [← hX]
  obtain ⟨hr1, hr2⟩ := isqrt_spec X
  generalize isqrt X = r at hr1 hr2 ⊢
  obtain ⟨u, hu⟩ : ∃ u : ℚ, u = 2 ^ hh := ⟨_, rfl⟩
  have hup : 0 < u := by rw [hu]; positivity
  have hax : fval a = (X : ℚ) * u ^ 2 := by
    rw [← hval, hX, hu, ← zpow_natCast, ← zpow_mul, show hh * ((2 : ℕ) : ℤ) = 2 * hh by push_cast; ring, ← hhe]
    push_cast
    rw [mul_assoc, ← zpow_natCast, ← zpow_add₀ (by norm_num)]
    congr 2
    omega
  have hXlo : 2 ^ 64 ≤ X := by
    rw [hX]
    calc 2 ^ 64 ≤ 1 * 2 ^ sh := by rw [one_mul]; exact Nat.pow_le_pow_right (by decide) hsh1.1
      _ ≤ n * 2 ^ sh := Nat.mul_le_mul_right _ hn
  have hXhi : X < 2 ^ 89 := by
    rw [hX]
    calc n * 2 ^ sh < 2 ^ 24 * 2 ^ sh := Nat.mul_lt_mul_of_pos_right hn' (by positivity)
      _ ≤ 2 ^ 24 * 2 ^ 65 := Nat.mul_le_mul_left _ (Nat.pow_le_pow_right (by decide) hsh1.2.1)
      _ = 2 ^ 89 := by norm_num
  have hrlo : 2 ^ 32 ≤ r := by
    by_contra hlt
    push Not at hlt
    have : (r + 1) * (r + 1) ≤ 2 ^ 32 * 2 ^ 32 := Nat.mul_le_mul hlt hlt
    norm_num at this hXlo
    omega
  have hrhi : r < 2 ^ 45 := by
    by_contra hle
    push Not at hle
    have : 2 ^ 45 * 2 ^ 45 ≤ r * r := Nat.mul_le_mul hle hle
    norm_num at this hXhi
    omega
  obtain ⟨t, ht⟩ : ∃ t : Int, t = (if r * r = X then 0 else 1) := ⟨_, rfl⟩
  have hdy : (⟨2 * (r : Int) + (if r * r = X then 0 else 1), hh - 1⟩ : Dy) = ⟨2 * r + t, hh - 1⟩ := by
    rw [ht]
  rw [hdy]
  have ht01 : t = 0 ∨ t = 1 := by rw [ht]; split <;> simp
  obtain ⟨v, hv⟩ : ∃ v, v = (⟨2 * (r : Int) + t, hh - 1⟩ : Dy).val := ⟨_, rfl⟩
  have hv' : v = ((r : ℚ) + t / 2) * u := by
    rw [hv, hu]
    unfold Dy.val
    simp only
    rw [zpow_sub₀ (by norm_num)]
    push_cast
    ring
  have htq : 0 ≤ (t : ℚ) ∧ (t : ℚ) ≤ 1 := by rcases ht01 with h | h <;> rw [h] <;> norm_num
  have hrq : (2 : ℚ) ^ 32 ≤ r := by exact_mod_cast hrlo
  have hrq' : (r : ℚ) < 2 ^ 45 := by exact_mod_cast hrhi
  have hulo : (2 : ℚ) ^ (-107 : Int) ≤ u := by
    rw [hu]; exact zpow_le_zpow_right₀ (by norm_num) (by omega)
  have huhi : u ≤ (2 : ℚ) ^ (20 : Int) := by
    rw [hu]; exact zpow_le_zpow_right₀ (by norm_num) (by omega)
  have hvpos : 0 < v := by rw [hv']; exact mul_pos (by linarith [htq.1]) hup
  have hvlo : (2 : ℚ) ^ (-120 : Int) ≤ v := by
    rw [hv']
    have : (1 : ℚ) * 2 ^ (-107 : Int) ≤ ((r : ℚ) + t / 2) * u :=
      mul_le_mul (by linarith [htq.1]) hulo (by positivity) (by linarith [htq.1])
    refine le_trans ?_ this
    norm_num
  have hvhi : v < (2 : ℚ) ^ (99 : Int) := by
    rw [hv']
    have : ((r : ℚ) + t / 2) * u ≤ (2 ^ 45 + 1) * 2 ^ (20 : Int) :=
      mul_le_mul (by linarith [htq.2]) huhi hup.le (by positivity)
    refine lt_of_le_of_lt this ?_
    norm_num
  have hnear : Nearest v (Dy.round ⟨2 * r + t, hh - 1⟩) := by
    rw [hv]
    refine Dy.round_nearest _ ?_
    rw [← hv, abs_of_pos hvpos]
    exact lt_trans hvhi (by norm_num)
  have herr : |fval (Dy.round ⟨2 * r + t, hh - 1⟩) - v| ≤ v / 2 ^ (24 : Nat) := by
    have := round_rel ⟨2 * (r : Int) + t, hh - 1⟩ (by rw [← hv]; exact hvpos)
      (by rw [← hv]; exact hvlo) (by rw [← hv]; exact hvhi)
    rw [← hv] at this
    exact this
  exact ⟨X, r, hh, t, u, v, hu, hup, hax, hr1, hr2, hrq, ht, hv', hvpos, hnear, herr⟩

theorem sqrt_zero {a : F32} (h0 : fval a = 0) : sqrt a = a := by
  have hval := toDy_val a
  obtain ⟨m, e, hme⟩ : ∃ m e, toDy a = ⟨m, e⟩ := ⟨_, _, rfl⟩
  rw [hme, h0] at hval
  unfold Dy.val at hval
  simp only at hval
  have hm : m = 0 := by
    rcases mul_eq_zero.1 hval with h | h
    · exact_mod_cast h
    · exact absurd h (by positivity)
  unfold sqrt
  simp only [hme, hm]
  simp

theorem sqrt_nearest {a : F32} (ha : IsFinite a) (h0 : 0 ≤ fval a) :
    NearestSqrt (fval a) (sqrt a) := by
  rcases eq_or_lt_of_le h0 with hz | hpos
  · have hz : fval a = 0 := hz.symm
    rw [sqrt_zero hz]
    refine ⟨ha, by rw [hz], ?_⟩
    intro g _ hg
    rw [hz]
    constructor
    · intro h
      left
      positivity
    · intro h; exfalso; linarith
  · obtain ⟨X, r, hh, t, u, v, hu, hup, hax, hr1, hr2, hrq, ht, hv', hvpos, hnear, herr⟩ :=
      sqrt_core ha hpos
    generalize sqrt a = f at hnear herr ⊢
    obtain ⟨hf1, hf2⟩ := abs_le.1 herr
    have hfpos : 0 < fval f := by
      have : v / 2 ^ (24 : Nat) < v := div_lt_self hvpos (by norm_num)
      linarith
    refine ⟨hnear.1, hfpos.le, ?_⟩
    intro g hg hg0
    obtain ⟨k1, k2⟩ := nearest_mid hnear hg
    have hM : 0 < (fval f + fval g) / 2 := by linarith
    by_cases hsq : r * r = X
    · -- the root is exact
      have htz : t = 0 := by rw [ht, if_pos hsq]
      have hv2 : fval a = v ^ 2 := by
        rw [hax, hv', htz, ← hsq]
        push_cast
        ring
      rw [hv2]
      constructor
      · intro h
        rcases k1 h with h | ⟨h, h'⟩
        · exact .inl (by nlinarith)
        · exact .inr ⟨by rw [← h], h'⟩
      · intro h
        rcases k2 h with h | ⟨h, h'⟩
        · exact .inl (by nlinarith)
        · exact .inr ⟨by rw [← h], h'⟩
    · have ht1 : t = 1 := by rw [ht, if_neg hsq]
      have hv3 : v = ((r : ℚ) + 1 / 2) * u := by rw [hv', ht1]; norm_num
      have hX1 : (r : ℚ) ^ 2 < X := by
        have : r ^ 2 < X := by rw [pow_two]; omega
        exact_mod_cast this
      have hX2 : (X : ℚ) < (r + 1) ^ 2 := by
        have : X < (r + 1) ^ 2 := by rw [pow_two]; exact hr2
        exact_mod_cast this
      have hflo : (2 : ℚ) ^ (31 : Nat) * 2 ^ hh ≤ fval f := by
        rw [← hu]
        have h1 : v / 2 ^ (24 : Nat) ≤ v / 2 := div_le_div_of_nonneg_left hvpos.le (by norm_num) (by norm_num)
        have h2 : v / 2 ≤ fval f := by linarith
        refine le_trans ?_ h2
        rw [hv3]
        nlinarith
      obtain ⟨F, hF⟩ := grid hflo
      rw [← hu] at hF
      -- compare the midpoint, in units of `u`
      have up : ∀ q : ℚ, (r : ℚ) + 1 ≤ q → fval a < (q * u) ^ 2 := by
        intro q hq
        rw [hax, mul_pow]
        refine mul_lt_mul_of_pos_right ?_ (by positivity)
        nlinarith
      have down : ∀ q : ℚ, 0 ≤ q → q ≤ r → (q * u) ^ 2 < fval a := by
        intro q hq0 hq
        rw [hax, mul_pow]
        refine mul_lt_mul_of_pos_right ?_ (by positivity)
        nlinarith
      by_cases hglo : (2 : ℚ) ^ (31 : Nat) * 2 ^ hh ≤ fval g
      · obtain ⟨G, hG⟩ := grid hglo
        rw [← hu] at hG
        have hmid : (fval f + fval g) / 2 = ((128 * (F + G) : Int) : ℚ) * u := by
          rw [hF, hG]; push_cast; ring
        have hNpos : (0 : Int) < 128 * (F + G) := by
          have : 0 < ((128 * (F + G) : Int) : ℚ) := by
            rw [hmid] at hM
            exact (pos_iff_pos_of_mul_pos hM).2 hup
          exact_mod_cast this
        rw [hmid] at k1 k2 ⊢
        generalize 128 * (F + G) = Nn at *
        rw [hv3] at k1 k2
        constructor
        · intro h
          left
          apply up
          have hle : (r : ℚ) + 1 / 2 ≤ Nn := by
            rcases k1 h with h | ⟨h, _⟩
            · exact (lt_of_mul_lt_mul_right h hup.le).le
            · exact (mul_right_cancel₀ hup.ne' h).le
          have : (r : Int) < Nn := by
            have : ((r : Int) : ℚ) < Nn := by push_cast; linarith
            exact_mod_cast this
          have : (r : Int) + 1 ≤ Nn := this
          exact_mod_cast this
        · intro h
          left
          apply down
          · exact_mod_cast hNpos.le
          have hle : (Nn : ℚ) ≤ (r : ℚ) + 1 / 2 := by
            rcases k2 h with h | ⟨h, _⟩
            · exact (lt_of_mul_lt_mul_right h hup.le).le
            · exact (mul_right_cancel₀ hup.ne' h).ge
          have : Nn < (r : Int) + 1 := by
            have : (Nn : ℚ) < ((r : Int) : ℚ) + 1 := by push_cast; linarith
            exact_mod_cast this
          have : Nn ≤ (r : Int) := by omega
          exact_mod_cast this
      · push Not at hglo
        rw [← hu] at hglo
        rw [← hu] at hflo
        constructor
        · intro h; exfalso; linarith
        · intro _
          left
          have hfu : fval f ≤ ((r : ℚ) + 1 / 2) * (1 + 1 / 2 ^ 24) * u := by
            have : v / 2 ^ (24 : Nat) = v * (1 / 2 ^ 24) := by ring
            rw [this] at hf2
            have : fval f ≤ v * (1 + 1 / 2 ^ 24) := by linarith
            rw [hv3] at this
            linarith
          have hmid : (fval f + fval g) / 2 ≤ (r : ℚ) * u := by
            have h1 : (((r : ℚ) + 1 / 2) * (1 + 1 / 2 ^ 24) + 2 ^ 31) ≤ 2 * r := by
              clear * - hrq
              generalize (r : ℚ) = q at hrq ⊢
              norm_num at hrq ⊢
              linarith
            have h3 := mul_le_mul_of_nonneg_right h1 hup.le
            linarith
          have h2 := down r (by linarith) le_rfl
          refine lt_of_le_of_lt ?_ h2
          exact pow_le_pow_left₀ hM.le hmid 2

theorem sqrt_error {a : F32} (ha : IsFinite a) (h0 : 0 ≤ fval a) :
    |fval (sqrt a) ^ 2 - fval a| ≤ fval a * 2 ^ (-22 : Int) := by
  rcases eq_or_lt_of_le h0 with hz | hpos
  · rw [sqrt_zero hz.symm, ← hz]; norm_num
  · obtain ⟨X, r, hh, t, u, v, hu, hup, hax, hr1, hr2, hrq, ht, hv', hvpos, hnear, herr⟩ :=
      sqrt_core ha hpos
    generalize sqrt a = f at hnear herr ⊢
    obtain ⟨hf1, hf2⟩ := abs_le.1 herr
    have h1 : (r : ℚ) ^ 2 ≤ X := by
      have : r ^ 2 ≤ X := by rw [pow_two]; omega
      exact_mod_cast this
    have h2 : (X : ℚ) ≤ (r + 1) ^ 2 := by
      have : X ≤ (r + 1) ^ 2 := by rw [pow_two]; omega
      exact_mod_cast this
    have htq : 0 ≤ (t : ℚ) ∧ (t : ℚ) ≤ 1 := by rw [ht]; split <;> norm_num
    -- in units of `u`
    obtain ⟨y, hy⟩ : ∃ y, y = fval f / u := ⟨_, rfl⟩
    have hfy : fval f = y * u := by rw [hy]; field_simp
    rw [hfy, hax]
    rw [hfy, hv'] at hf1 hf2
    have h3 : ((r : ℚ) + t / 2) * (1 - 1 / 2 ^ 24) ≤ y := by
      refine le_of_mul_le_mul_right ?_ hup
      linarith
    have h4 : y ≤ ((r : ℚ) + t / 2) * (1 + 1 / 2 ^ 24) := by
      refine le_of_mul_le_mul_right ?_ hup
      linarith
    have hkey : |y ^ 2 - X| ≤ X * 2 ^ (-22 : Int) := by
      clear * - h1 h2 h3 h4 hrq htq
      generalize (r : ℚ) = q at *
      generalize (X : ℚ) = Y at *
      generalize (t : ℚ) = s at *
      obtain ⟨s0, s1⟩ := htq
      have e1 : (q : ℚ) * (1 - 1 / 2 ^ 24) ≤ y := by
        refine le_trans ?_ h3
        norm_num
        linarith
      have e2 : y ≤ (q + 1) * (1 + 1 / 2 ^ 24) := by
        refine le_trans h4 ?_
        norm_num
        linarith
      have q0 : 0 < q := lt_of_lt_of_le (by norm_num) hrq
      have e3 : q * (1 + 1 / 2 ^ 32) ≥ q + 1 := by
        norm_num at hrq ⊢
        linarith
      have y0 : 0 < y := lt_of_lt_of_le (by norm_num; linarith) e1
      have f1 : (q * (1 - 1 / 2 ^ 24)) ^ 2 ≤ y ^ 2 :=
        pow_le_pow_left₀ (by norm_num; linarith) e1 2
      have e4 : y ≤ q * ((1 + 1 / 2 ^ 32) * (1 + 1 / 2 ^ 24)) := by
        refine le_trans e2 ?_
        norm_num at e3 ⊢
        linarith
      have f2 : y ^ 2 ≤ (q * ((1 + 1 / 2 ^ 32) * (1 + 1 / 2 ^ 24))) ^ 2 :=
        pow_le_pow_left₀ y0.le e4 2
      have f3 : Y ≤ (q * (1 + 1 / 2 ^ 32)) ^ 2 :=
        le_trans h2 (pow_le_pow_left₀ (by linarith) e3 2)
      rw [mul_pow] at f1 f2 f3
      rw [abs_le]
      constructor
      · norm_num at f1 f2 f3 ⊢
        linarith
      · norm_num at f1 f2 f3 ⊢
        linarith
    have : (y * u) ^ 2 - (X : ℚ) * u ^ 2 = (y ^ 2 - X) * u ^ 2 := by ring
    rw [this, abs_mul, abs_of_pos (show 0 < u ^ 2 by positivity)]
    have := mul_le_mul_of_nonneg_right hkey (show 0 ≤ u ^ 2 by positivity)
    linarith

/-- The root of a negative number is not a number. -/
theorem sqrt_nan {a : F32} (h0 : fval a < 0) : IsNaN (sqrt a) := by
  have hval := toDy_val a
  obtain ⟨m, e, hme⟩ : ∃ m e, toDy a = ⟨m, e⟩ := ⟨_, _, rfl⟩
  rw [hme] at hval
  unfold Dy.val at hval
  simp only at hval
  have hpe : (0 : ℚ) < 2 ^ e := by positivity
  have hm : m < 0 := by
    by_contra hle
    push Not at hle
    have : (0 : ℚ) ≤ m := by exact_mod_cast hle
    have := mul_nonneg this hpe.le
    linarith
  unfold sqrt
  simp only [hme]
  rw [if_pos hm]
  unfold IsNaN
  decide +kernel

end Boxcars.F32
