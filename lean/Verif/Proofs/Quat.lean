import Verif.Proofs.FloatOps
import Verif.Spec.Bits
import Mathlib.Algebra.Order.Round
/-!
# Rotations: the arithmetic of the components
-/
namespace Boxcars.F32
open Boxcars.Spec

/-! ### Constants -/

theorem fval_one : fval 0x3f800000#32 = 1 := by
  unfold fval fabs
  rw [show fneg 0x3f800000#32 = false by decide, show fexp 0x3f800000#32 = 127 by decide,
    show ffrac 0x3f800000#32 = 0 by decide]
  norm_num

theorem fval_half : fval 0x3f000000#32 = 1 / 2 := by
  unfold fval fabs
  rw [show fneg 0x3f000000#32 = false by decide, show fexp 0x3f000000#32 = 126 by decide,
    show ffrac 0x3f000000#32 = 0 by decide]
  norm_num

theorem fval_two : fval 0x40000000#32 = 2 := by
  unfold fval fabs
  rw [show fneg 0x40000000#32 = false by decide, show fexp 0x40000000#32 = 128 by decide,
    show ffrac 0x40000000#32 = 0 by decide]
  norm_num

theorem fval_max : fval 0x487fffc0#32 = 262143 := by
  unfold fval fabs
  rw [show fneg 0x487fffc0#32 = false by decide, show fexp 0x487fffc0#32 = 144 by decide,
    show ffrac 0x487fffc0#32 = 0x7fffc0 by decide]
  norm_num

theorem fval_oldMax : fval 0x46fffe00#32 = 32767 := by
  unfold fval fabs
  rw [show fneg 0x46fffe00#32 = false by decide, show fexp 0x46fffe00#32 = 141 by decide,
    show ffrac 0x46fffe00#32 = 0x7ffe00 by decide]
  norm_num

theorem fval_halfRoot : fval halfRoot = 11863283 / 16777216 := by
  unfold fval fabs halfRoot
  rw [show fneg 0x3f3504f3#32 = false by decide, show fexp 0x3f3504f3#32 = 126 by decide,
    show ffrac 0x3f3504f3#32 = 0x3504f3 by decide]
  norm_num

theorem nonneg_of_nearest {x : ℚ} {f : F32} (h : Nearest x f) (hx : 0 ≤ x) : 0 ≤ fval f := by
  by_contra hlt
  push Not at hlt
  have h0 : fval 0#32 = 0 := by
    unfold fval fabs
    rw [show fneg 0#32 = false by decide, show fexp 0#32 = 0 by decide,
      show ffrac 0#32 = 0 by decide]
    norm_num
  have := h.2 0#32 (by unfold IsFinite; decide)
  rw [h0, abs_of_neg (show fval f - x < 0 by linarith), abs_of_nonpos (by linarith)] at this
  rcases this with h | ⟨h, _⟩ <;> linarith

/-! ### A component -/

theorem quatComp_spec {n : Nat} (hn : n < 2 ^ 18) :
    Component n (quatComp n) ∧ IsFinite (quatComp n) ∧ |fval (quatComp n)| ≤ fval halfRoot ∧
      |fval (quatComp n) - (2 * ((n : ℚ) / 262143) - 1) * fval halfRoot| ≤ 2 ^ (-22 : Int) := by
  have hnq : (n : ℚ) ≤ 262143 := by
    have : n ≤ 262143 := by omega
    exact_mod_cast this
  have hn0 : (0 : ℚ) ≤ n := Nat.cast_nonneg n
  have hof : fval (ofInt n) = n := by
    rw [fval_ofInt (by simp; omega)]; simp
  have hq : fval (ofInt n) / fval 0x487fffc0#32 = n / 262143 := by rw [hof, fval_max]
  have hqb : 0 ≤ (n : ℚ) / 262143 ∧ (n : ℚ) / 262143 ≤ 1 := by
    constructor
    · positivity
    · rw [div_le_one (by norm_num)]; exact hnq
  have p1 := div_nearest (a := ofInt n) (b := 0x487fffc0#32) (by rw [fval_max]; norm_num)
    (by rw [hq, abs_of_nonneg hqb.1]; linarith)
  have p2 := div_error (a := ofInt n) (b := 0x487fffc0#32) (by rw [fval_max]; norm_num)
    (by rw [hq, abs_of_nonneg hqb.1]; linarith)
  rw [hq] at p1 p2
  unfold quatComp
  generalize div (ofInt n) 0x487fffc0#32 = p at p1 p2 ⊢
  unfold Component
  generalize (n : ℚ) / 262143 = x at *
  have hp0 := nonneg_of_nearest p1 hqb.1
  have hp1 : fval p ≤ 1 := by
    have := abs_le_of_nearest (b := 0x3f800000#32) p1 (by unfold IsFinite; decide)
      (by rw [fval_one, abs_of_nonneg hqb.1]; exact hqb.2)
    rw [fval_one] at this
    exact (abs_le.1 this).2
  have hsub : |fval p - 1 / 2| ≤ 1 / 2 := by rw [abs_le]; constructor <;> linarith
  have r1 := sub_nearest (a := p) (b := 0x3f000000#32) (by rw [fval_half]; linarith)
  have r2 := sub_error (a := p) (b := 0x3f000000#32) (by rw [fval_half]; linarith)
  rw [fval_half] at r1 r2
  generalize sub p 0x3f000000#32 = r at r1 r2 ⊢
  have hr : |fval r| ≤ 1 / 2 := by
    have := abs_le_of_nearest (b := 0x3f000000#32) r1 (by unfold IsFinite; decide)
      (by rw [fval_half]; exact hsub)
    rwa [fval_half] at this
  have hmul : |fval r * 2| ≤ 1 := by rw [abs_mul, abs_of_pos (by norm_num : (0:ℚ) < 2)]; linarith
  have t1 := mul_nearest (a := r) (b := 0x40000000#32) (by rw [fval_two]; linarith)
  have t2 : |fval (mul r 0x40000000#32) - fval r * 2| ≤ 2 ^ (-24 : Int) := by
    have hv : (Dy.mul (toDy r) (toDy 0x40000000#32)).val = fval r * 2 := by
      rw [Dy.mul_val, toDy_val, toDy_val, fval_two]
    have := Dy.round_error (Dy.mul (toDy r) (toDy 0x40000000#32)) (k := 1) (by decide) (by decide)
      (by rw [hv]; exact lt_of_le_of_lt hmul (by norm_num))
    rw [hv] at this
    exact this
  rw [fval_two] at t1
  generalize mul r 0x40000000#32 = t at t1 t2 ⊢
  have ht : |fval t| ≤ 1 := by
    have := abs_le_of_nearest (b := 0x3f800000#32) t1 (by unfold IsFinite; decide)
      (by rw [fval_one]; exact hmul)
    rwa [fval_one] at this
  have hhr := fval_halfRoot
  have hhalf : fval (0x3f3504f3#32) = fval halfRoot := rfl
  have hlast : |fval t * fval halfRoot| ≤ fval halfRoot := by
    rw [abs_mul, abs_of_pos (show 0 < fval halfRoot by rw [hhr]; norm_num)]
    exact mul_le_of_le_one_left (by rw [hhr]; norm_num) ht
  have hlt1 : fval halfRoot < 1 := by rw [hhr]; norm_num
  have f1 := mul_nearest (a := t) (b := 0x3f3504f3#32) (by rw [hhalf]; linarith)
  have f2 := mul_error (a := t) (b := 0x3f3504f3#32) (by rw [hhalf]; linarith)
  rw [hhalf] at f1 f2
  generalize mul t 0x3f3504f3#32 = f at f1 f2 ⊢
  refine ⟨⟨p, r, t, p1, r1, t1, f1⟩, f1.1, abs_le_of_nearest (b := halfRoot) f1
    (by unfold IsFinite; decide) hlast, ?_⟩
  obtain ⟨p3, p4⟩ := abs_le.1 p2
  obtain ⟨r3, r4⟩ := abs_le.1 r2
  obtain ⟨t3, t4⟩ := abs_le.1 t2
  obtain ⟨f3, f4⟩ := abs_le.1 f2
  rw [hhr] at f3 f4 ⊢
  norm_num at p3 p4 r3 r4 t3 t4 f3 f4
  rw [abs_le]
  constructor <;> norm_num <;> linarith

theorem quatComp_recover {n : Nat} (hn : n < 2 ^ 18) :
    round ((fval (quatComp n) / fval halfRoot + 1) / 2 * 262143) = (n : Int) := by
  obtain ⟨_, _, _, h⟩ := quatComp_spec hn
  obtain ⟨h1, h2⟩ := abs_le.1 h
  rw [fval_halfRoot] at h1 h2 ⊢
  rw [round_eq, Int.floor_eq_iff]
  norm_num at h1 h2
  constructor <;> push_cast <;> linarith

/-! ### The fourth component -/

theorem quatLargest_spec {a b c : F32} (ha : |fval a| ≤ fval halfRoot)
    (hb : |fval b| ≤ fval halfRoot) (hc : |fval c| ≤ fval halfRoot) :
    ∃ s, Remainder a b c s ∧ |fval s - (1 - fval a ^ 2 - fval b ^ 2 - fval c ^ 2)| ≤ 3 * 2 ^ (-24 : Int) ∧
      IsFinite s ∧ |fval s| ≤ 1 ∧ quatLargest a b c = sqrt s := by
  have hhr := fval_halfRoot
  have sq : ∀ d : F32, |fval d| ≤ fval halfRoot → 0 ≤ fval d ^ 2 ∧ fval d ^ 2 ≤ 51 / 100 := by
    intro d hd
    refine ⟨by positivity, ?_⟩
    rw [← sq_abs]
    have := pow_le_pow_left₀ (abs_nonneg _) hd 2
    rw [hhr] at this
    refine le_trans this ?_
    norm_num
  obtain ⟨a0, a1⟩ := sq a ha
  obtain ⟨b0, b1⟩ := sq b hb
  obtain ⟨c0, c1⟩ := sq c hc
  have i1 : |fval 0x3f800000#32 - fval a ^ 2| ≤ 1 := by
    rw [fval_one, abs_le]; constructor <;> linarith
  have s1 := fma_nearest (a := a) (c := 0x3f800000#32) (by linarith)
  have s1' := fma_error (a := a) (c := 0x3f800000#32) i1
  rw [fval_one] at s1 s1'
  unfold quatLargest
  generalize mulAdd a (neg a) 0x3f800000#32 = u at s1 s1' ⊢
  have u1 : fval u ≤ 1 := by
    have := abs_le_of_nearest (b := 0x3f800000#32) s1 (by unfold IsFinite; decide)
      (by rw [fval_one] at i1 ⊢; exact i1)
    rw [fval_one] at this
    exact (abs_le.1 this).2
  obtain ⟨u2, u3⟩ := abs_le.1 s1'
  norm_num at u2 u3
  have i2 : |fval u - fval b ^ 2| ≤ 1 := by rw [abs_le]; constructor <;> linarith
  have s2 := fma_nearest (a := b) (c := u) (by linarith)
  have s2' := fma_error (a := b) (c := u) i2
  generalize mulAdd b (neg b) u = v at s2 s2' ⊢
  have v1 : fval v ≤ 1 := by
    have := abs_le_of_nearest (b := 0x3f800000#32) s2 (by unfold IsFinite; decide)
      (by rw [fval_one]; exact i2)
    rw [fval_one] at this
    exact (abs_le.1 this).2
  obtain ⟨v2, v3⟩ := abs_le.1 s2'
  norm_num at v2 v3
  have i3 : |fval v - fval c ^ 2| ≤ 1 := by rw [abs_le]; constructor <;> linarith
  have s3 := fma_nearest (a := c) (c := v) (by linarith)
  have s3' := fma_error (a := c) (c := v) i3
  generalize mulAdd c (neg c) v = w at s3 s3' ⊢
  have w1 : |fval w| ≤ 1 := by
    have := abs_le_of_nearest (b := 0x3f800000#32) s3 (by unfold IsFinite; decide)
      (by rw [fval_one]; exact i3)
    rwa [fval_one] at this
  obtain ⟨w2, w3⟩ := abs_le.1 s3'
  norm_num at w2 w3
  refine ⟨w, ⟨u, v, s1, s2, s3⟩, ?_, s3.1, w1, rfl⟩
  rw [abs_le]
  constructor <;> norm_num <;> linarith

theorem quatLargest_fourth {a b c : F32} (ha : |fval a| ≤ fval halfRoot)
    (hb : |fval b| ≤ fval halfRoot) (hc : |fval c| ≤ fval halfRoot) :
    Fourth a b c (quatLargest a b c) := by
  obtain ⟨s, h1, _, h3, _, h5⟩ := quatLargest_spec ha hb hc
  rw [h5]
  exact ⟨s, h1, sqrt_nearest h3, sqrt_nan⟩

/-- The sum of the squares, or no number because the three squares exceed one. -/
theorem quatLargest_norm {a b c : F32} (ha : |fval a| ≤ fval halfRoot)
    (hb : |fval b| ≤ fval halfRoot) (hc : |fval c| ≤ fval halfRoot) :
    (IsFinite (quatLargest a b c) ∧ 0 ≤ fval (quatLargest a b c) ∧
      fval a ^ 2 + fval b ^ 2 + fval c ^ 2 ≤ 1 + 2 ^ (-22 : Int) ∧
      |fval a ^ 2 + fval b ^ 2 + fval c ^ 2 + fval (quatLargest a b c) ^ 2 - 1| ≤ 2 ^ (-21 : Int)) ∨
    (IsNaN (quatLargest a b c) ∧ 1 - 2 ^ (-22 : Int) ≤ fval a ^ 2 + fval b ^ 2 + fval c ^ 2) := by
  obtain ⟨s, _, h2, h3, h4, h5⟩ := quatLargest_spec ha hb hc
  rw [h5]
  obtain ⟨h6, h7⟩ := abs_le.1 h2
  norm_num at h6 h7
  rcases lt_or_ge (fval s) 0 with hs | hs
  · right
    refine ⟨sqrt_nan hs, ?_⟩
    norm_num
    linarith
  · left
    obtain ⟨n1, n2, _⟩ := sqrt_nearest h3 hs
    have he := sqrt_error h3 hs
    rw [abs_of_nonneg hs] at h4
    have he' : |fval (sqrt s) ^ 2 - fval s| ≤ 2 ^ (-22 : Int) := by
      refine le_trans he ?_
      exact mul_le_of_le_one_left (by positivity) h4
    obtain ⟨e1, e2⟩ := abs_le.1 he'
    norm_num at e1 e2
    refine ⟨n1, n2, ?_, ?_⟩
    · norm_num
      linarith
    · rw [abs_le]
      constructor <;> norm_num <;> linarith

/-! ### Before net version 7 -/

theorem oldQuatComp_spec {n : Nat} (hn : n < 2 ^ 16) :
    OldComponent n (oldQuatComp n) ∧ IsFinite (oldQuatComp n) ∧
      |fval (oldQuatComp n) - ((n : ℚ) - 32768) / 32767| ≤ 2 ^ (-22 : Int) := by
  have hnq : (n : ℚ) ≤ 65535 := by
    have : n ≤ 65535 := by omega
    exact_mod_cast this
  have hn0 : (0 : ℚ) ≤ n := Nat.cast_nonneg n
  have hof : fval (ofInt ((n : Int) - 32768)) = (n : ℚ) - 32768 := by
    rw [fval_ofInt (by omega)]; push_cast; ring
  have hd : fval 0x3f800000#32 / fval 0x46fffe00#32 = 1 / 32767 := by rw [fval_one, fval_oldMax]
  unfold oldQuatComp
  have q1 := div_nearest (a := 0x3f800000#32) (b := 0x46fffe00#32) (by rw [fval_oldMax]; norm_num)
    (by rw [hd, abs_of_pos (by norm_num)]; norm_num)
  rw [hd] at q1
  have q2 : fval (div 0x3f800000#32 0x46fffe00#32) = 16777728 / 2 ^ 39 := by
    rw [show div 0x3f800000#32 0x46fffe00#32 = 0x38000100#32 by decide +kernel]
    unfold fval fabs
    rw [show fneg 0x38000100#32 = false by decide, show fexp 0x38000100#32 = 112 by decide,
      show ffrac 0x38000100#32 = 256 by decide]
    norm_num
  generalize div 0x3f800000#32 0x46fffe00#32 = q at q1 q2 ⊢
  have hb : |fval (ofInt ((n : Int) - 32768)) * fval q| ≤ 101 / 100 := by
    rw [hof, q2, abs_le]
    norm_num
    constructor <;> linarith
  have f1 := mul_nearest (a := ofInt ((n : Int) - 32768)) (b := q) (by linarith)
  have f2 : |fval (mul (ofInt ((n : Int) - 32768)) q) - fval (ofInt ((n : Int) - 32768)) * fval q| ≤
      2 ^ (-24 : Int) := by
    have hv : (Dy.mul (toDy (ofInt ((n : Int) - 32768))) (toDy q)).val =
        fval (ofInt ((n : Int) - 32768)) * fval q := by
      rw [Dy.mul_val, toDy_val, toDy_val]
    have := Dy.round_error (Dy.mul (toDy (ofInt ((n : Int) - 32768))) (toDy q)) (k := 1) (by decide)
      (by decide) (by rw [hv]; exact lt_of_le_of_lt hb (by norm_num))
    rw [hv] at this
    exact this
  rw [hof] at f1 f2
  refine ⟨⟨q, q1, f1⟩, f1.1, ?_⟩
  rw [q2] at f2
  obtain ⟨f3, f4⟩ := abs_le.1 f2
  norm_num at f3 f4
  rw [abs_le]
  constructor <;> norm_num <;> linarith

theorem oldQuatComp_recover {n : Nat} (hn : n < 2 ^ 16) :
    round (fval (oldQuatComp n) * 32767 + 32768) = (n : Int) := by
  obtain ⟨_, _, h⟩ := oldQuatComp_spec hn
  obtain ⟨h1, h2⟩ := abs_le.1 h
  rw [round_eq, Int.floor_eq_iff]
  norm_num at h1 h2
  constructor <;> push_cast <;> linarith

end Boxcars.F32
