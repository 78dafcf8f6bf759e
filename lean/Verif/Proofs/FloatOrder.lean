import Verif.Proofs.FloatNearest
import Verif.Model.FrameDecoder
import Verif.Spec.Frames
import Mathlib.Order.Monotone.Basic
import Mathlib.Tactic.Linarith
import Mathlib.Tactic.NormNum
import Mathlib.Tactic.Ring
/-!
# Float comparison is comparison of values
-/
namespace Boxcars
open Spec

/-- Absolute value as a function of the magnitude bits. -/
def magVal (m : Nat) : ℚ :=
  if m / 2 ^ 23 = 0 then (m % 2 ^ 23 : ℕ) * (2 : ℚ) ^ (-149 : ℤ)
  else ((2 ^ 23 + m % 2 ^ 23 : ℕ) : ℚ) * (2 : ℚ) ^ (((m / 2 ^ 23 : ℕ) : ℤ) - 150)

theorem magVal_succ (m : Nat) : magVal m < magVal (m + 1) := by
  have h2 : ∀ k : ℤ, (0 : ℚ) < 2 ^ k := fun k => by positivity
  unfold magVal
  by_cases hr : m % 2 ^ 23 + 1 < 2 ^ 23
  · have h1 : (m + 1) / 2 ^ 23 = m / 2 ^ 23 := by omega
    have h3 : (m + 1) % 2 ^ 23 = m % 2 ^ 23 + 1 := by omega
    rw [h1, h3]
    split
    · refine mul_lt_mul_of_pos_right ?_ (h2 _)
      push_cast; linarith
    · refine mul_lt_mul_of_pos_right ?_ (h2 _)
      push_cast; linarith
  · have h1 : (m + 1) / 2 ^ 23 = m / 2 ^ 23 + 1 := by omega
    have h3 : (m + 1) % 2 ^ 23 = 0 := by omega
    have h4 : m % 2 ^ 23 = 2 ^ 23 - 1 := by omega
    rw [h1, h3, h4, if_neg (Nat.succ_ne_zero (m / 2 ^ 23))]
    split
    · rename_i h0
      rw [h0]
      norm_num
    · have : (((m / 2 ^ 23 + 1 : ℕ) : ℤ) - 150) = (((m / 2 ^ 23 : ℕ) : ℤ) - 150) + 1 := by
        push_cast; ring
      rw [this, zpow_add₀ (by norm_num), ← mul_assoc, mul_right_comm]
      refine mul_lt_mul_of_pos_right ?_ (h2 _)
      norm_num

theorem magVal_strictMono : StrictMono magVal := strictMono_nat_of_lt_succ magVal_succ

theorem fabs_mag (f : F32) : fabs f = magVal (F32.mag f) := by
  have h : f.toNat < 2 ^ 32 := f.isLt
  unfold fabs magVal fexp ffrac F32.mag
  generalize f.toNat = m at *
  have h1 : (m % 2 ^ 31) / 2 ^ 23 = (m / 2 ^ 23) % 256 := by omega
  have h2 : (m % 2 ^ 31) % 2 ^ 23 = m % 2 ^ 23 := by omega
  rw [h1, h2]

theorem magVal_zero : magVal 0 = 0 := by simp [magVal]

theorem sign_eq (f : F32) : F32.sign f = fneg f := by
  unfold F32.sign fneg
  rw [BitVec.msb_eq_decide]

theorem key_lt_iff (a b : F32) : F32.key a < F32.key b ↔ fval a < fval b := by
  unfold F32.key fval
  rw [fabs_mag, fabs_mag, sign_eq, sign_eq]
  have hm : ∀ x y, magVal x < magVal y ↔ x < y := fun x y => magVal_strictMono.lt_iff_lt
  have h0 : ∀ x, 0 ≤ magVal x := fun x => magVal_zero ▸ magVal_strictMono.monotone (Nat.zero_le x)
  have hp : ∀ x, 0 < x → 0 < magVal x := fun x h => magVal_zero ▸ magVal_strictMono h
  generalize F32.mag a = x
  generalize F32.mag b = y
  cases fneg a <;> cases fneg b
  · simp only [Bool.false_eq_true, if_false]
    rw [hm]; omega
  · simp only [Bool.false_eq_true, if_false, if_true]
    constructor
    · omega
    · intro h
      have := h0 x
      have := h0 y
      linarith
  · simp only [Bool.false_eq_true, if_false, if_true]
    constructor
    · intro h
      by_cases hx : 0 < x
      · have := hp x hx
        have := h0 y
        linarith
      · have := hp y (by omega)
        have := h0 x
        linarith
    · intro h
      by_contra hc
      have : x = 0 := by omega
      have : y = 0 := by omega
      subst x y
      rw [magVal_zero] at h
      simp at h
  · simp only [if_true]
    constructor
    · intro h; have := (hm y x).2 (by omega); linarith
    · intro h; have := (hm y x).1 (by linarith); omega

theorem key_eq_iff (a b : F32) : F32.key a = F32.key b ↔ fval a = fval b := by
  have h1 := key_lt_iff a b
  have h2 := key_lt_iff b a
  constructor
  · intro h
    rcases lt_trichotomy (fval a) (fval b) with h3 | h3 | h3
    · have := h1.2 h3; omega
    · exact h3
    · have := h2.2 h3; omega
  · intro h
    rcases Int.lt_trichotomy (F32.key a) (F32.key b) with h3 | h3 | h3
    · have := h1.1 h3; linarith
    · exact h3
    · have := h2.1 h3; linarith

theorem isNaN_iff (f : F32) : F32.isNaN f = true ↔ fexp f = 255 ∧ ffrac f ≠ 0 := by
  unfold F32.isNaN F32.expField F32.fracField fexp ffrac
  simp

theorem lt_iff {a b : F32} : F32.lt a b = true ↔
    F32.isNaN a = false ∧ F32.isNaN b = false ∧ fval a < fval b := by
  unfold F32.lt
  rw [Bool.and_eq_true, Bool.and_eq_true, decide_eq_true_iff, key_lt_iff]
  simp [and_assoc]

theorem fval_zero : fval F32.zero = 0 := by
  unfold fval fabs; simp [F32.zero, fneg, fexp, ffrac]

theorem fval_eq_zero_iff (f : F32) : fval f = 0 ↔ IsZero f := by
  have h0 : magVal (F32.mag f) = 0 ↔ F32.mag f = 0 := by
    rw [← magVal_zero]; exact magVal_strictMono.injective.eq_iff
  have h1 : fval f = 0 ↔ F32.mag f = 0 := by
    unfold fval
    rw [fabs_mag]
    split
    · rw [neg_eq_zero, h0]
    · rw [h0]
  rw [h1]
  unfold F32.mag IsZero fexp ffrac
  have := f.isLt
  constructor
  · intro h; omega
  · rintro ⟨h2, h3⟩; omega

theorem eq_zero_iff (f : F32) : F32.eq f F32.zero = true ↔ IsZero f := by
  unfold F32.eq
  rw [Bool.and_eq_true, Bool.and_eq_true, decide_eq_true_iff, key_eq_iff, fval_zero,
    fval_eq_zero_iff]
  constructor
  · exact fun h => h.2
  · intro h
    refine ⟨⟨?_, rfl⟩, h⟩
    rw [Bool.not_eq_true', ← Bool.not_eq_true, isNaN_iff]
    rintro ⟨h1, _⟩
    rw [h.1] at h1; cases h1

theorem inf_val {f : F32} (h : fexp f = 255) (h' : fneg f = false) :
    fval F32.tiny < fval f := by
  rw [← key_lt_iff]
  have : F32.key F32.tiny = 786163455 := by decide
  rw [this]
  unfold F32.key
  rw [sign_eq, h']
  unfold fexp at h
  unfold fneg at h'
  simp only [Bool.false_eq_true, if_false, F32.mag]
  have := f.isLt
  simp only [decide_eq_false_iff_not] at h'
  omega

theorem neg_val {f : F32} (h : fexp f = 255) (h' : fneg f = true) : fval f < 0 := by
  rw [← fval_zero, ← key_lt_iff]
  have : F32.key F32.zero = 0 := by decide
  rw [this]
  unfold F32.key
  rw [sign_eq, h']
  unfold fexp at h
  simp only [if_true, F32.mag]
  have := f.isLt
  omega

/-- The range test of times and time differences. -/
theorem outOfRange_iff (t : F32) : FrameDecoder.outOfRange t = false ↔ TimeOk t := by
  have ht : F32.isNaN F32.tiny = false := by decide
  have hz : F32.isNaN F32.zero = false := by decide
  have hpos : 0 < fval F32.tiny := by
    rw [← fval_zero, ← key_lt_iff]; decide
  have key : FrameDecoder.outOfRange t = true ↔ F32.isNaN t = false ∧
      (fval t < 0 ∨ (0 < fval t ∧ fval t < fval F32.tiny)) := by
    unfold FrameDecoder.outOfRange
    rw [Bool.or_eq_true, Bool.and_eq_true, lt_iff, lt_iff, lt_iff, fval_zero, ht, hz]
    tauto
  rw [← Bool.not_eq_true, key]
  unfold TimeOk
  show _ ↔ _ ∨ (_ ∧ (_ ∨ fval F32.tiny ≤ _))
  by_cases hn : F32.isNaN t = true
  · rw [hn]
    have := (isNaN_iff t).1 hn
    constructor
    · intro _; exact .inl ⟨this.1, .inl this.2⟩
    · rintro _ ⟨h, _⟩; cases h
  · have hn' : F32.isNaN t = false := by simpa using hn
    rw [hn']
    simp only [true_and]
    rw [isNaN_iff] at hn
    by_cases he : fexp t = 255
    · have hf : ffrac t = 0 := by by_contra h; exact hn ⟨he, h⟩
      cases hs : fneg t with
      | true =>
        have := neg_val he hs
        constructor
        · intro h; exact absurd (.inl this) h
        · rintro (⟨_, h | h⟩ | ⟨h, _⟩)
          · exact absurd hf h
          · cases h
          · exact absurd he h
      | false =>
        have := inf_val he hs
        constructor
        · intro _; exact .inl ⟨he, .inr rfl⟩
        · rintro _ (h | ⟨_, h⟩)
          · linarith
          · linarith
    · constructor
      · intro h
        refine .inr ⟨he, ?_⟩
        rcases lt_trichotomy (fval t) 0 with h1 | h1 | h1
        · exact absurd (.inl h1) h
        · exact .inl h1
        · right
          by_contra hc
          exact h (.inr ⟨h1, not_le.1 hc⟩)
      · rintro (⟨h, _⟩ | ⟨_, h | h⟩)
        · exact absurd h he
        · rintro (h1 | ⟨h1, _⟩) <;> linarith
        · rintro (h1 | ⟨_, h1⟩) <;> linarith

end Boxcars
