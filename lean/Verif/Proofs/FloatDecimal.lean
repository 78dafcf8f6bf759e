import Verif.Spec.Decimal
import Verif.Proofs.FloatOps
import Verif.Proofs.FloatOrder
import Mathlib.Data.Int.Log
import Mathlib.Algebra.Order.Round
import Mathlib.Data.Rat.Floor
import Mathlib.Tactic.Linarith
import Mathlib.Tactic.NormNum
import Mathlib.Tactic.Ring
/-!
# Decimal numbers near a float
-/
namespace Boxcars
open Spec

/-! ## Distances between floats -/

theorem gap_succ (m : Nat) : magVal (m + 1) ≤ 2 ^ 24 * (magVal (m + 1) - magVal m) := by
  have h2 : ∀ k : ℤ, (0 : ℚ) < 2 ^ k := fun k => by positivity
  unfold magVal
  by_cases hr : m % 2 ^ 23 + 1 < 2 ^ 23
  · have h1 : (m + 1) / 2 ^ 23 = m / 2 ^ 23 := by omega
    have h3 : (m + 1) % 2 ^ 23 = m % 2 ^ 23 + 1 := by omega
    have hq : ((m % 2 ^ 23 : ℕ) : ℚ) + 1 ≤ 2 ^ 23 := by exact_mod_cast hr.le
    rw [h1, h3]
    have key : ∀ a b u : ℚ, 0 < u → a = b + 1 → a ≤ 2 ^ 24 → a * u ≤ 2 ^ 24 * (a * u - b * u) := by
      intro a b u hu ha hl
      rw [← sub_mul, show a - b = 1 by linarith, one_mul]
      exact mul_le_mul_of_nonneg_right hl hu.le
    split
    · exact key _ _ _ (h2 _) (by push_cast; ring) (by exact_mod_cast (by omega))
    · exact key _ _ _ (h2 _) (by push_cast; ring) (by exact_mod_cast (by omega))
  · have h1 : (m + 1) / 2 ^ 23 = m / 2 ^ 23 + 1 := by omega
    have h3 : (m + 1) % 2 ^ 23 = 0 := by omega
    have h4 : m % 2 ^ 23 = 2 ^ 23 - 1 := by omega
    rw [h1, h3, h4, if_neg (Nat.succ_ne_zero (m / 2 ^ 23))]
    split
    · rename_i h0
      rw [h0]
      norm_num
    · have : (((m / 2 ^ 23 + 1 : ℕ) : ℤ) - 150) = (((m / 2 ^ 23 : ℕ) : ℤ) - 150) + 1 := by
        push_cast; ring
      rw [this, zpow_add₀ (by norm_num)]
      have := h2 (((m / 2 ^ 23 : ℕ) : ℤ) - 150)
      norm_num
      nlinarith

theorem magVal_nonneg (m : Nat) : 0 ≤ magVal m := by
  rw [← magVal_zero]; exact magVal_strictMono.monotone (Nat.zero_le _)

theorem gap_mag {m n : Nat} (h : m ≠ n) : magVal m ≤ 2 ^ 24 * |magVal n - magVal m| := by
  rcases Nat.lt_or_gt_of_ne h with h | h
  · have h1 := magVal_strictMono.monotone (show m + 1 ≤ n from h)
    have h2 := gap_succ m
    have h3 := magVal_succ m
    rw [abs_of_nonneg (by linarith)]
    linarith
  · obtain ⟨k, rfl⟩ : ∃ k, m = k + 1 := ⟨m - 1, by omega⟩
    have h1 := magVal_strictMono.monotone (show n ≤ k by omega)
    have h2 := gap_succ k
    have h3 := magVal_succ k
    rw [abs_of_nonpos (by linarith)]
    linarith

/-- Floats differ by a part of either. -/
theorem gap {f g : F32} (h : fval f ≠ fval g) : |fval f| ≤ 2 ^ 24 * |fval g - fval f| := by
  have key : ∀ a b : ℚ, 0 ≤ a → 0 ≤ b → a ≤ 2 ^ 24 * |b - a| ∨ a = b → a ≤ 2 ^ 24 * |b + a| := by
    intro a b ha hb _
    rw [abs_of_nonneg (by linarith)]; linarith
  have hf := magVal_nonneg (F32.mag f)
  have hg := magVal_nonneg (F32.mag g)
  have hm : fabs f ≠ fabs g → magVal (F32.mag f) ≤ 2 ^ 24 * |magVal (F32.mag g) - magVal (F32.mag f)| :=
    fun h => gap_mag fun e => h (by rw [fabs_mag, fabs_mag, e])
  unfold fval at h ⊢
  rw [fabs_mag, fabs_mag] at h ⊢
  rw [fabs_mag, fabs_mag] at hm
  generalize magVal (F32.mag f) = a at *
  generalize magVal (F32.mag g) = b at *
  by_cases h1 : fneg f <;> by_cases h2 : fneg g <;> simp only [h1, h2, if_true, if_false, Bool.false_eq_true] at h ⊢
  · rw [abs_neg, abs_of_nonneg hf, show -b - -a = -(b - a) by ring, abs_neg]
    exact hm fun e => h (by rw [e])
  · rw [abs_neg, abs_of_nonneg hf, show b - -a = b + a by ring, abs_of_nonneg (by linarith)]; linarith
  · rw [abs_of_nonneg hf, show -b - a = -(b + a) by ring, abs_neg, abs_of_nonneg (by linarith)]; linarith
  · rw [abs_of_nonneg hf]; exact hm h

/-- A number that is nearer to a float than half its distance from all others. -/
theorem nearest_of_close {f : F32} (hf : IsFinite f) {x δ : ℚ}
    (hd : ∀ g, fval f ≠ fval g → δ ≤ |fval g - fval f|) (hx : 2 * |x - fval f| < δ) : Nearest x f := by
  refine ⟨hf, fun g _ => ?_⟩
  by_cases h : fval f = fval g
  · exact .inr ⟨by rw [h], .inl h⟩
  · left
    have h1 := hd g h
    have h2 := abs_sub_abs_le_abs_sub (fval g - fval f) (x - fval f)
    rw [show fval g - fval f - (x - fval f) = fval g - x by ring] at h2
    rw [abs_sub_comm (fval f) x]
    linarith

theorem fval_max_le {f : F32} (hf : IsFinite f) : |fval f| ≤ 2 ^ 128 - 2 ^ 104 := by
  have h1 : |fval f| = fabs f := by
    have := magVal_nonneg (F32.mag f)
    rw [← fabs_mag] at this
    unfold fval
    split
    · rw [abs_neg, abs_of_nonneg this]
    · exact abs_of_nonneg this
  rw [h1]
  unfold fabs
  have hr : ffrac f < 2 ^ 23 := Nat.mod_lt _ (by decide)
  have hq : (ffrac f : ℚ) + 1 ≤ 2 ^ 23 := by exact_mod_cast hr
  have he : fexp f < 255 := lt_of_le_of_ne (Nat.lt_succ_iff.1 (Nat.mod_lt _ (by decide))) hf
  split
  · have : (2 : ℚ) ^ (-149 : ℤ) ≤ 1 := zpow_le_one_of_nonpos₀ (by norm_num) (by norm_num)
    have h0 : (0 : ℚ) < 2 ^ (-149 : ℤ) := by positivity
    have : (ffrac f : ℚ) * 2 ^ (-149 : ℤ) ≤ 2 ^ 23 * 1 :=
      mul_le_mul (by linarith) this h0.le (by positivity)
    refine this.trans (by norm_num)
  · have h0 : (2 : ℚ) ^ ((fexp f : ℤ) - 150) ≤ 2 ^ (104 : ℤ) :=
      zpow_le_zpow_right₀ (by norm_num) (by omega)
    have h3 : (0 : ℚ) < 2 ^ ((fexp f : ℤ) - 150) := by positivity
    have : ((2 ^ 23 + ffrac f : ℕ) : ℚ) * 2 ^ ((fexp f : ℤ) - 150) ≤ (2 ^ 24 - 1) * 2 ^ (104 : ℤ) :=
      mul_le_mul (by push_cast; linarith) h0 h3.le (by norm_num)
    refine this.trans ?_
    norm_num

/-- A number near a float is read as it. -/
theorem readsAs_of_close {f : F32} (hf : IsFinite f) {x : ℚ}
    (hx : 2 ^ 25 * |x - fval f| < |fval f|) : ReadsAs x f := by
  refine ⟨nearest_of_close hf (δ := |fval f| / 2 ^ 24) (fun g hg => ?_) ?_, ?_⟩
  · rw [div_le_iff₀ (by positivity), mul_comm]; exact gap hg
  · rw [lt_div_iff₀ (by positivity)]; linarith
  · have h1 := fval_max_le hf
    have h2 := abs_sub_abs_le_abs_sub x (fval f)
    norm_num at h1 hx ⊢
    linarith

/-! ## Nine digits -/

/-- Numbers of `n + 1` digits near a positive number. -/
theorem digits_near {v : ℚ} (n : Nat) (e : Int) (hv : 0 < v) (h : v < 10 ^ (e + (n + 1 : ℕ))) :
    ∃ (d : Nat) (k : Int), d < 10 ^ (n + 1) ∧ |(d : ℚ) * 10 ^ k - v| ≤ 10 ^ e / 2 := by
  have hp : (0 : ℚ) < 10 ^ e := by positivity
  obtain ⟨d, hd⟩ : ∃ d : Nat, round (v / 10 ^ e) = d := by
    have : 0 ≤ round (v / 10 ^ e) := by
      rw [round_eq]
      exact Int.floor_nonneg.2 (by positivity)
    exact ⟨(round (v / 10 ^ e)).toNat, (Int.toNat_of_nonneg this).symm⟩
  have h1 := abs_sub_round (v / 10 ^ e)
  rw [hd] at h1
  have h2 : |(d : ℚ) * 10 ^ e - v| ≤ 10 ^ e / 2 := by
    have : (d : ℚ) * 10 ^ e - v = -((v / 10 ^ e - ((d : ℕ) : ℤ)) * 10 ^ e) := by
      push_cast; field_simp; ring
    rw [this, abs_neg, abs_mul, abs_of_pos hp]
    calc _ ≤ 1 / 2 * (10 : ℚ) ^ e := mul_le_mul_of_nonneg_right h1 hp.le
      _ = _ := by ring
  have h3 : d ≤ 10 ^ (n + 1) := by
    have h4 : v / 10 ^ e < (10 : ℚ) ^ (n + 1) := by
      rw [div_lt_iff₀ hp, ← zpow_natCast, ← zpow_add₀ (by norm_num), add_comm]; exact h
    have h5 := (abs_le.1 h1).1
    have : (d : ℚ) < 10 ^ (n + 1) + 1 := by push_cast at h5; linarith
    have : d < 10 ^ (n + 1) + 1 := by exact_mod_cast this
    omega
  by_cases h4 : d = 10 ^ (n + 1)
  · refine ⟨1, e + (n + 1 : ℕ), Nat.one_lt_pow (by omega) (by norm_num), ?_⟩
    rw [h4] at h2
    rw [zpow_add₀ (by norm_num), zpow_natCast]
    push_cast at h2 ⊢
    rw [one_mul, mul_comm]; exact h2
  · exact ⟨d, e, by omega, h2⟩

theorem abs_fval (f : F32) : |fval f| = fabs f := by
  have := magVal_nonneg (F32.mag f)
  rw [← fabs_mag] at this
  unfold fval
  split
  · rw [abs_neg, abs_of_nonneg this]
  · exact abs_of_nonneg this

theorem decVal_sub (f : F32) (d : Nat) (e : Int) :
    |decVal (fneg f) d e - fval f| = |(d : ℚ) * 10 ^ e - fabs f| := by
  unfold decVal fval
  split
  · rw [neg_sub_neg, abs_sub_comm]
  · rfl

/-- Nine digits are enough for any float. -/
theorem nine_digits {f : F32} (hf : IsFinite f) (h0 : fval f ≠ 0) :
    ∃ d e, d < 10 ^ 9 ∧ ReadsAs (decVal (fneg f) d e) f := by
  have hv : 0 < fabs f := abs_fval f ▸ abs_pos.2 h0
  have h1 := Int.zpow_log_le_self (b := 10) (by norm_num) hv
  have h2 := Int.lt_zpow_succ_log_self (b := 10) (by norm_num) (fabs f)
  generalize Int.log 10 (fabs f) = l at h1 h2
  obtain ⟨d, k, hd, hk⟩ := digits_near 8 (l - 8) hv (by
    rw [show l - 8 + ((8 + 1 : ℕ) : ℤ) = l + 1 by push_cast; ring]; exact_mod_cast h2)
  refine ⟨d, k, hd, readsAs_of_close hf ?_⟩
  rw [decVal_sub, abs_fval]
  have h3 : (10 : ℚ) ^ l = 10 ^ (l - 8) * 10 ^ 8 := by
    rw [← zpow_natCast, ← zpow_add₀ (by norm_num)]; congr 1; omega
  push_cast at h1
  rw [h3] at h1
  have hp : (0 : ℚ) < 10 ^ (l - 8) := by positivity
  norm_num at h1 hk ⊢
  linarith

/-! ## Eight digits -/

/-- A number between a float and one that is read as it. -/
theorem readsAs_between {f : F32} {x y : ℚ} (h : ReadsAs x f)
    (hy : |fval f - y| + |x - y| = |fval f - x|) : ReadsAs y f := by
  refine ⟨⟨h.nearest.1, fun g hg => ?_⟩, ?_⟩
  · have h1 : |fval g - x| ≤ |fval g - y| + |x - y| := by
      rw [abs_sub_comm x y]; exact abs_sub_le _ _ _
    rcases h.nearest.2 g hg with h2 | ⟨h2, h3⟩
    · left; linarith
    · rcases lt_or_eq_of_le (show |fval f - y| ≤ |fval g - y| by linarith) with h4 | h4
      · exact .inl h4
      · exact .inr ⟨h4, h3⟩
  · have h1 := fval_max_le h.nearest.1
    have h2 := h.range
    have h3 : |y| ≤ max |x| |fval f| := by
      rw [abs_sub_comm x y] at hy
      rcases le_total x (fval f) with hx | hx
      · rw [abs_of_nonneg (by linarith : 0 ≤ fval f - x)] at hy
        have h4 := le_abs_self (fval f - y)
        have h5 := le_abs_self (y - x)
        have h6 := neg_abs_le (fval f - y)
        have h7 := neg_abs_le (y - x)
        have h8 : x ≤ y := by
          by_contra hc
          push Not at hc
          rw [abs_of_neg (by linarith : y - x < 0), abs_of_pos (by linarith)] at hy
          linarith
        have h9 : y ≤ fval f := by
          by_contra hc
          push Not at hc
          rw [abs_of_pos (by linarith : 0 < y - x), abs_of_neg (by linarith : fval f - y < 0)] at hy
          linarith
        exact abs_le_max_abs_abs h8 h9
      · rw [abs_of_nonpos (by linarith : fval f - x ≤ 0)] at hy
        have h8 : y ≤ x := by
          by_contra hc
          push Not at hc
          rw [abs_of_pos (by linarith : 0 < y - x), abs_of_neg (by linarith : fval f - y < 0)] at hy
          linarith
        have h9 : fval f ≤ y := by
          by_contra hc
          push Not at hc
          rw [abs_of_neg (by linarith : y - x < 0), abs_of_pos (by linarith)] at hy
          linarith
        rw [max_comm]
        exact abs_le_max_abs_abs h9 h8
    refine lt_of_le_of_lt h3 (max_lt h2 (lt_of_le_of_lt h1 ?_))
    norm_num

/-- The same for numbers with the sign of the float. -/
theorem decVal_between {f : F32} {d d' : Nat} {e e' : Int} (h : ReadsAs (decVal (fneg f) d e) f)
    (hy : (fabs f ≤ (d' : ℚ) * 10 ^ e' ∧ (d' : ℚ) * 10 ^ e' ≤ (d : ℚ) * 10 ^ e) ∨
      ((d : ℚ) * 10 ^ e ≤ (d' : ℚ) * 10 ^ e' ∧ (d' : ℚ) * 10 ^ e' ≤ fabs f)) :
    ReadsAs (decVal (fneg f) d' e') f := by
  refine readsAs_between h ?_
  unfold decVal fval
  generalize (d : ℚ) * 10 ^ e = x at *
  generalize (d' : ℚ) * 10 ^ e' = y at *
  have key : |fabs f - y| + |x - y| = |fabs f - x| := by
    rcases hy with ⟨h1, h2⟩ | ⟨h1, h2⟩
    · rw [abs_of_nonpos (by linarith), abs_of_nonneg (by linarith), abs_of_nonpos (by linarith)]; ring
    · rw [abs_of_nonneg (by linarith), abs_of_nonpos (by linarith), abs_of_nonneg (by linarith)]; ring
  split
  · rw [neg_sub_neg, neg_sub_neg, neg_sub_neg, abs_sub_comm y, abs_sub_comm y, abs_sub_comm x (fabs f)]
    exact key
  · exact key

theorem step_mag {m : Nat} (h : 107 * 2 ^ 23 ≤ m) : (2 : ℚ) ^ (-43 : ℤ) ≤ magVal (m + 1) - magVal m := by
  have hE : 107 ≤ m / 2 ^ 23 := by omega
  have hp : (2 : ℚ) ^ (-43 : ℤ) ≤ 2 ^ (((m / 2 ^ 23 : ℕ) : ℤ) - 150) :=
    zpow_le_zpow_right₀ (by norm_num) (by omega)
  refine hp.trans (le_of_eq ?_)
  unfold magVal
  by_cases hr : m % 2 ^ 23 + 1 < 2 ^ 23
  · have h1 : (m + 1) / 2 ^ 23 = m / 2 ^ 23 := by omega
    have h3 : (m + 1) % 2 ^ 23 = m % 2 ^ 23 + 1 := by omega
    rw [h1, h3, if_neg (by omega), if_neg (by omega)]
    generalize (2 : ℚ) ^ (((m / 2 ^ 23 : ℕ) : ℤ) - 150) = u
    push_cast
    ring
  · have h1 : (m + 1) / 2 ^ 23 = m / 2 ^ 23 + 1 := by omega
    have h3 : (m + 1) % 2 ^ 23 = 0 := by omega
    have h4 : m % 2 ^ 23 = 2 ^ 23 - 1 := by omega
    rw [h1, h3, h4, if_neg (by omega), if_neg (by omega)]
    have : (((m / 2 ^ 23 + 1 : ℕ) : ℤ) - 150) = (((m / 2 ^ 23 : ℕ) : ℤ) - 150) + 1 := by
      push_cast; ring
    rw [this, zpow_add₀ (by norm_num)]
    generalize (2 : ℚ) ^ (((m / 2 ^ 23 : ℕ) : ℤ) - 150) = u
    norm_num
    ring

theorem magVal_small : magVal (107 * 2 ^ 23) = 2 ^ (-20 : ℤ) := by
  unfold magVal
  norm_num

theorem gap_small {f g : F32} (h : 10 ^ (-6 : ℤ) ≤ fabs f) (hne : fval f ≠ fval g) :
    (2 : ℚ) ^ (-43 : ℤ) ≤ |fval g - fval f| := by
  have hm : 107 * 2 ^ 23 < F32.mag f := by
    rw [← magVal_strictMono.lt_iff_lt, magVal_small, ← fabs_mag]
    refine lt_of_lt_of_le ?_ h
    norm_num
  have hb : 2 ^ (-43 : ℤ) ≤ fabs f := le_trans (by norm_num) h
  have hgap : fabs f ≠ fabs g → (2 : ℚ) ^ (-43 : ℤ) ≤ |fabs g - fabs f| := by
    intro hne
    rw [fabs_mag, fabs_mag] at hne ⊢
    rcases Nat.lt_or_gt_of_ne (fun e => hne (by rw [e]) : F32.mag f ≠ F32.mag g) with h | h
    · have h1 := magVal_strictMono.monotone (show F32.mag f + 1 ≤ F32.mag g from h)
      have h2 := step_mag hm.le
      exact (by linarith : _ ≤ _).trans (le_abs_self _)
    · obtain ⟨k, hk⟩ : ∃ k, F32.mag f = k + 1 := ⟨F32.mag f - 1, by omega⟩
      have h1 := magVal_strictMono.monotone (show F32.mag g ≤ k by omega)
      have h2 := step_mag (show 107 * 2 ^ 23 ≤ k by omega)
      rw [hk]
      exact (by linarith : _ ≤ _).trans (neg_le_abs _)
  have hf := magVal_nonneg (F32.mag f)
  have hg := magVal_nonneg (F32.mag g)
  rw [← fabs_mag] at hf hg
  unfold fval at hne ⊢
  by_cases h1 : fneg f <;> by_cases h2 : fneg g <;>
    simp only [h1, h2, if_true, if_false, Bool.false_eq_true] at hne ⊢
  · rw [neg_sub_neg, abs_sub_comm]
    exact hgap fun e => hne (by rw [e])
  · exact (by linarith : _ ≤ _).trans (le_abs_self _)
  · exact (by linarith : _ ≤ _).trans (neg_le_abs _)
  · exact hgap hne

/-- Where the layout has five zeros after the point eight digits are enough. -/
theorem eight_digits {f : F32} (hf : IsFinite f) (h1 : 10 ^ (-6 : ℤ) ≤ fabs f)
    (h2 : fabs f < 10 ^ (-5 : ℤ)) : ∃ d e, d < 10 ^ 8 ∧ ReadsAs (decVal (fneg f) d e) f := by
  have hv : 0 < fabs f := lt_of_lt_of_le (by positivity) h1
  obtain ⟨d, k, hd, hk⟩ := digits_near 7 (-13) hv
    (by rw [show (-13 : ℤ) + ((7 + 1 : ℕ) : ℤ) = -5 by norm_num]; exact h2)
  refine ⟨d, k, hd, nearest_of_close hf (fun g => gap_small h1) ?_, ?_⟩
  · rw [decVal_sub]
    refine lt_of_le_of_lt (mul_le_mul_of_nonneg_left hk (by norm_num)) ?_
    norm_num
  · have h3 := decVal_sub f d k
    have h4 := abs_sub_abs_le_abs_sub (decVal (fneg f) d k) (fval f)
    rw [abs_fval, h3] at h4
    norm_num at h2 hk ⊢
    linarith

/-! ## Exponents -/

theorem fabs_least {f : F32} (h0 : fval f ≠ 0) : (2 : ℚ) ^ (-149 : ℤ) ≤ fabs f := by
  have h1 : 0 < F32.mag f := by
    rw [← magVal_strictMono.lt_iff_lt, magVal_zero, ← fabs_mag, ← abs_fval]
    exact abs_pos.2 h0
  rw [fabs_mag]
  refine le_trans (le_of_eq ?_) (magVal_strictMono.monotone (show 1 ≤ F32.mag f from h1))
  unfold magVal
  norm_num

/-- What is read as a float that is not zero is neither too large nor too small. -/
theorem decVal_range {f : F32} {d : Nat} {e : Int} (h0 : fval f ≠ 0)
    (h : ReadsAs (decVal (fneg f) d e) f) :
    (10 : ℚ) ^ (-46 : ℤ) < (d : ℚ) * 10 ^ e ∧ (d : ℚ) * 10 ^ e < 10 ^ (39 : ℤ) := by
  have hp : (0 : ℚ) ≤ (d : ℚ) * 10 ^ e := by positivity
  have ha : |decVal (fneg f) d e| = (d : ℚ) * 10 ^ e := by
    unfold decVal
    split
    · rw [abs_neg, abs_of_nonneg hp]
    · exact abs_of_nonneg hp
  constructor
  · have hz : fval (0 : F32) = 0 := fval_zero
    have h1 : |fval f - decVal (fneg f) d e| ≤ |fval (0 : F32) - decVal (fneg f) d e| := by
      rcases h.nearest.2 0 (show fexp 0 ≠ 255 by decide) with h | h
      · exact h.le
      · exact h.1.le
    rw [hz, zero_sub, abs_neg, ha] at h1
    have h2 := abs_sub_abs_le_abs_sub (fval f) (decVal (fneg f) d e)
    rw [ha, abs_fval] at h2
    have h3 := fabs_least h0
    have h4 : (2 : ℚ) * 10 ^ (-46 : ℤ) < 2 ^ (-149 : ℤ) := by norm_num
    linarith
  · have := h.range
    rw [ha] at this
    refine this.trans ?_
    norm_num

/-! ## One float -/

theorem mag_finite {f : F32} (h : IsFinite f) : F32.mag f < 255 * 2 ^ 23 := by
  unfold IsFinite fexp at h
  unfold F32.mag
  have := f.isLt
  omega

theorem mag_exists (s : Bool) {k : Nat} (hk : k < 255 * 2 ^ 23) :
    ∃ h : F32, IsFinite h ∧ fneg h = s ∧ F32.mag h = k := by
  refine ⟨BitVec.ofNat 32 (k + if s then 2 ^ 31 else 0), ?_⟩
  unfold IsFinite fexp fneg F32.mag
  rw [BitVec.toNat_ofNat]
  cases s
  · simp only [Bool.false_eq_true, if_false, Nat.add_zero, decide_eq_false_iff_not]
    omega
  · simp only [if_true, decide_eq_true_iff]
    omega

theorem eq_of_mag {f g : F32} (hs : fneg f = fneg g) (hm : F32.mag f = F32.mag g) : f = g := by
  apply BitVec.eq_of_toNat_eq
  unfold fneg at hs
  unfold F32.mag at hm
  rw [decide_eq_decide] at hs
  have := f.isLt
  have := g.isLt
  omega

theorem dist_mag {f : F32} {s : Bool} (hs : fneg f = s) (x : ℚ) :
    |fval f - x| = |magVal (F32.mag f) - (if s then -x else x)| := by
  unfold fval
  rw [hs, fabs_mag]
  cases s
  · rfl
  · rw [if_pos rfl, if_pos rfl, ← abs_neg]
    congr 1
    ring

theorem nearest_not_lt {x : ℚ} {f g : F32} (h : Nearest x f) (h' : Nearest x g) (hs : fneg f = fneg g) :
    ¬F32.mag f < F32.mag g := by
  intro hlt
  have hab := magVal_strictMono hlt
  have hne : fval f ≠ fval g := by
    intro e
    have := abs_fval f
    rw [e, abs_fval, fabs_mag, fabs_mag] at this
    linarith
  have e1 : |fval f - x| ≤ |fval g - x| := by
    rcases h.2 g h'.1 with h | h
    · exact h.le
    · exact h.1.le
  have e2 : |fval g - x| ≤ |fval f - x| := by
    rcases h'.2 f h.1 with h | h
    · exact h.le
    · exact h.1.le
  have e := le_antisymm e1 e2
  by_cases hn : F32.mag g = F32.mag f + 1
  · rcases h.2 g h'.1 with h1 | ⟨_, h1⟩
    · linarith
    rcases h'.2 f h.1 with h2 | ⟨_, h2⟩
    · linarith
    have h1 := h1.resolve_left hne
    have h2 := h2.resolve_left (Ne.symm hne)
    unfold ffrac at h1 h2
    unfold F32.mag at hn
    omega
  · have hg := mag_finite h'.1
    obtain ⟨k, hk, hks, hkm⟩ := mag_exists (fneg f) (show F32.mag f + 1 < 255 * 2 ^ 23 by omega)
    have h1 : |fval f - x| ≤ |fval k - x| := by
      rcases h.2 k hk with h | h
      · exact h.le
      · exact h.1.le
    rw [dist_mag rfl, dist_mag hs.symm] at e
    rw [dist_mag rfl, dist_mag hks, hkm] at h1
    have h2 := magVal_succ (F32.mag f)
    have h3 := magVal_strictMono (show F32.mag f + 1 < F32.mag g by omega)
    generalize (if fneg f then -x else x) = y at *
    generalize magVal (F32.mag f) = a at *
    generalize magVal (F32.mag g) = b at *
    generalize magVal (F32.mag f + 1) = c at *
    rcases abs_eq_abs.1 e with e | e
    · linarith
    · have ha : |a - y| = (b - a) / 2 := by rw [abs_of_neg (by linarith)]; linarith
      have hc : |c - y| < (b - a) / 2 := by rw [abs_lt]; constructor <;> linarith
      linarith

/-- A number is rounded to one float of each sign. -/
theorem nearest_unique {x : ℚ} {f g : F32} (h : Nearest x f) (h' : Nearest x g)
    (hs : fneg f = fneg g) : f = g :=
  eq_of_mag hs (Nat.le_antisymm (Nat.not_lt.1 (nearest_not_lt h' h hs.symm))
    (Nat.not_lt.1 (nearest_not_lt h h' hs)))

/-! ## A shortest number -/

theorem shortest_exists {f : F32} (hf : IsFinite f) (h0 : fval f ≠ 0) : ∃ d e, Shortest f d e := by
  classical
  obtain ⟨d, e, _, h⟩ := nine_digits hf h0
  have hex : ∃ n d e, digitCount d = n ∧ ReadsAs (decVal (fneg f) d e) f := ⟨_, d, e, rfl, h⟩
  obtain ⟨d, e, h1, h2⟩ := Nat.find_spec hex
  exact ⟨d, e, h2, fun d' e' h' => h1 ▸ Nat.find_min' hex ⟨d', e', rfl, h'⟩⟩

end Boxcars
