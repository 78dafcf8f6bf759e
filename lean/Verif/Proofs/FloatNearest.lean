import Verif.Proofs.Float
import Verif.Spec.Float
import Mathlib.Tactic.Linarith
import Mathlib.Tactic.Positivity
import Mathlib.Tactic.FieldSimp
import Mathlib.Tactic.NormNum
import Mathlib.Tactic.Ring
/-!
# The model's rounding is IEEE round to nearest, ties to even
-/
namespace Boxcars.F32
open Boxcars.Spec

/-- Half-integer error and ties to even of `rneDiv`. -/
theorem rneDiv_spec {p q : Nat} (hq : 0 < q) :
    |((rneDiv p q : Nat) : ℚ) - (p : ℚ) / q| ≤ 1 / 2 ∧
    (|((rneDiv p q : Nat) : ℚ) - (p : ℚ) / q| = 1 / 2 → rneDiv p q % 2 = 0) := by
  have hq' : (0 : ℚ) < q := by exact_mod_cast hq
  have hdm : (p : ℚ) / q = (p / q : Nat) + ((p % q : Nat) : ℚ) / q := by
    have h : (p : ℚ) = q * (p / q : Nat) + (p % q : Nat) := by exact_mod_cast (Nat.div_add_mod p q).symm
    field_simp
    linarith
  have hr : p % q < q := Nat.mod_lt _ hq
  have hr' : ((p % q : Nat) : ℚ) < q := by exact_mod_cast hr
  have hr0 : (0 : ℚ) ≤ ((p % q : Nat) : ℚ) := by positivity
  rw [hdm]
  unfold rneDiv
  simp only
  set d := p / q with hd
  set r := p % q with hrr
  have hx0 : 0 ≤ (r : ℚ) / q := by positivity
  split
  · rename_i h
    have h1 : (2 : ℚ) * r < q := by exact_mod_cast h
    have h2 : (r : ℚ) / q < 1 / 2 := by rw [div_lt_iff₀ hq']; linarith
    rw [show (d : ℚ) - (d + (r : ℚ) / q) = -((r : ℚ) / q) by ring, abs_neg, abs_of_nonneg hx0]
    exact ⟨h2.le, fun h => absurd h h2.ne⟩
  · split
    · rename_i h
      have h1 : (q : ℚ) < 2 * r := by exact_mod_cast h
      have h2 : 1 / 2 < (r : ℚ) / q := by rw [lt_div_iff₀ hq']; linarith
      have h3 : (r : ℚ) / q < 1 := by rw [div_lt_one hq']; exact hr'
      push_cast
      rw [show (d : ℚ) + 1 - (d + (r : ℚ) / q) = 1 - (r : ℚ) / q by ring,
        abs_of_nonneg (by linarith)]
      exact ⟨by linarith, fun h => absurd h (by linarith [h])⟩
    · rename_i h h'
      have h1 : 2 * r = q := by omega
      have h2 : (r : ℚ) / q = 1 / 2 := by
        rw [div_eq_iff hq'.ne']
        have : (2 : ℚ) * r = q := by exact_mod_cast h1
        linarith
      rw [h2]
      rcases Nat.mod_two_eq_zero_or_one d with h3 | h3
      · rw [h3]
        constructor
        · rw [show ((d + 0 : Nat) : ℚ) - (d + 1 / 2) = -(1 / 2) by push_cast; ring]
          norm_num [abs_of_pos]
        · intro _; omega
      · rw [h3]
        constructor
        · rw [show ((d + 1 : Nat) : ℚ) - (d + 1 / 2) = 1 / 2 by push_cast; ring]
          norm_num [abs_of_pos]
        · intro _; omega

/-- An integer is at least as near, and equally near only in case of a tie. -/
theorem int_nearest {v : ℚ} {s : Nat} (h : |(s : ℚ) - v| ≤ 1 / 2) (j : Int) :
    |(s : ℚ) - v| < |(j : ℚ) - v| ∨ (|(s : ℚ) - v| = |(j : ℚ) - v| ∧
      ((s : Int) = j ∨ |(s : ℚ) - v| = 1 / 2)) := by
  by_cases hj : (s : Int) = j
  · right
    have : (s : ℚ) = (j : ℚ) := by exact_mod_cast hj
    exact ⟨by rw [this], .inl hj⟩
  · have h1 : (1 : ℚ) ≤ |(s : ℚ) - j| := by
      have : 1 ≤ |(s : Int) - j| := Int.one_le_abs (sub_ne_zero.2 hj)
      have h2 : ((1 : Int) : ℚ) ≤ ((|(s : Int) - j| : Int) : ℚ) := by exact_mod_cast this
      simpa using h2
    have h2 : |(s : ℚ) - j| ≤ |(s : ℚ) - v| + |(j : ℚ) - v| := by
      calc |(s : ℚ) - j| = |((s : ℚ) - v) - (j - v)| := by ring_nf
        _ ≤ |(s : ℚ) - v| + |(j : ℚ) - v| := abs_sub _ _
    rcases lt_or_eq_of_le h with h3 | h3
    · left; linarith
    · rcases lt_or_eq_of_le (show |(s : ℚ) - v| ≤ |(j : ℚ) - v| by linarith) with h4 | h4
      · exact .inl h4
      · exact .inr ⟨h4, .inr h3⟩

/-- Scaling by a power of two and rounding to an integer. -/
def scaled (p q : Nat) (e : Int) : Nat :=
  if 0 ≤ e then rneDiv p (q * 2 ^ e.toNat) else rneDiv (p * 2 ^ (-e).toNat) q

theorem scaled_spec {p q : Nat} (hq : 0 < q) (e : Int) :
    |(scaled p q e : ℚ) - (p : ℚ) / q / 2 ^ e| ≤ 1 / 2 ∧
      (|(scaled p q e : ℚ) - (p : ℚ) / q / 2 ^ e| = 1 / 2 → scaled p q e % 2 = 0) := by
  unfold scaled
  split
  · rename_i he
    have h3 : (p : ℚ) / q / 2 ^ e = (p : ℚ) / ((q * 2 ^ e.toNat : Nat) : ℚ) := by
      have : (2 : ℚ) ^ e = 2 ^ e.toNat := by
        rw [← zpow_natCast, Int.toNat_of_nonneg he]
      rw [this, div_div]; push_cast; rfl
    rw [h3]
    exact rneDiv_spec (by positivity)
  · rename_i he
    have h3 : (p : ℚ) / q / 2 ^ e = ((p * 2 ^ (-e).toNat : Nat) : ℚ) / q := by
      have : (2 : ℚ) ^ e = (2 ^ (-e).toNat)⁻¹ := by
        rw [← zpow_natCast, Int.toNat_of_nonneg (by omega), zpow_neg, inv_inv]
      rw [this, div_inv_eq_mul]; push_cast; ring
    rw [h3]
    exact rneDiv_spec hq

/-- The parts of a rounded quotient. -/
theorem roundMag_parts {p q : Nat} (hp : 0 < p) (hq : 0 < q) :
    ∃ (e : Int) (s : Nat), -149 ≤ e ∧ (p : ℚ) / q < 2 ^ (e + 24) ∧
      (e = -149 ∨ (2 : ℚ) ^ (e + 23) ≤ (p : ℚ) / q) ∧
      |(s : ℚ) - (p : ℚ) / q / 2 ^ e| ≤ 1 / 2 ∧
      (|(s : ℚ) - (p : ℚ) / q / 2 ^ e| = 1 / 2 → s % 2 = 0) ∧
      roundMag p q = min ((e + 149).toNat * 2 ^ 23 + s) 0x7f800000 := by
  have one : (1 : ℚ) ≤ 2 := by norm_num
  obtain ⟨h1, h2⟩ := ulp0_spec hp hq
  obtain ⟨h3, h4⟩ := scaled_spec (p := p) hq (ulpExp p q)
  refine ⟨ulpExp p q, scaled p q (ulpExp p q), ?_, ?_, ?_, h3, h4, rfl⟩
  · rw [ulpExp_eq]; exact le_max_right _ _
  · refine lt_of_lt_of_le h2 (zpow_le_zpow_right₀ one ?_)
    rw [ulpExp_eq]; have := le_max_left (ulp0 p q) (-149); omega
  · rw [ulpExp_eq]
    rcases le_total (ulp0 p q) (-149) with h | h
    · left; exact max_eq_right h
    · right; rw [max_eq_left h]; exact h1

theorem signed_lt (m : Nat) (neg : Bool) (hm : m < 0x7f800000) :
    (m + if neg then 2 ^ 31 else 0) < 2 ^ 32 ∧
      decide (2 ^ 31 ≤ m + if neg then 2 ^ 31 else 0) = neg := by
  cases neg
  · rw [if_neg (by decide), decide_eq_false_iff_not]; omega
  · rw [if_pos rfl, decide_eq_true_iff]; omega

/-- A significand and exponent are recovered from the packed magnitude. -/
theorem packed_val {e : Int} {s : Nat} {neg : Bool} (he : -149 ≤ e) (hs : s ≤ 2 ^ 24)
    (hn : e = -149 ∨ 2 ^ 23 ≤ s) (hm : (e + 149).toNat * 2 ^ 23 + s < 0x7f800000) :
    let f : F32 := BitVec.ofNat 32 ((e + 149).toNat * 2 ^ 23 + s + if neg then 2 ^ 31 else 0)
    IsFinite f ∧ fneg f = neg ∧ fabs f = (s : ℚ) * 2 ^ e ∧ ffrac f % 2 = s % 2 := by
  obtain ⟨n, hn'⟩ : ∃ n : Nat, e = n - 149 := ⟨(e + 149).toNat, by omega⟩
  have hne : (e + 149).toNat = n := by omega
  rw [hne] at hm
  have hlt : (n * 2 ^ 23 + s + if neg then 2 ^ 31 else 0) < 2 ^ 32 :=
    (signed_lt _ neg hm).1
  intro f
  have hf : f.toNat = n * 2 ^ 23 + s + if neg then 2 ^ 31 else 0 := by
    simp only [f]
    rw [hne, BitVec.toNat_ofNat, Nat.mod_eq_of_lt hlt]
  have hexp : fexp f = n + s / 2 ^ 23 := by
    unfold fexp; rw [hf]; split <;> omega
  have hfrac : ffrac f = s % 2 ^ 23 := by
    unfold ffrac; rw [hf]; split <;> omega
  have hneg : fneg f = neg := by
    unfold fneg; rw [hf]
    exact (signed_lt _ neg hm).2
  refine ⟨by unfold IsFinite; rw [hexp]; omega, hneg, ?_, by rw [hfrac]; omega⟩
  unfold fabs
  rw [hexp, hfrac]
  have h2 : (2 : ℚ) ≠ 0 := by norm_num
  have hcase : s < 2 ^ 23 ∨ (2 ^ 23 ≤ s ∧ s < 2 ^ 24) ∨ s = 2 ^ 24 := by omega
  rcases hcase with h | ⟨h, h'⟩ | h
  · have h0 : n = 0 := by omega
    have h1 : s / 2 ^ 23 = 0 := by omega
    rw [h1, h0, if_pos rfl, Nat.mod_eq_of_lt h, hn', h0]
    norm_num
  · have h1 : s / 2 ^ 23 = 1 := by omega
    rw [h1, if_neg (by omega)]
    have h3 : 2 ^ 23 + s % 2 ^ 23 = s := by omega
    rw [h3, hn']
    congr 2
    push_cast; ring
  · have h1 : s / 2 ^ 23 = 2 := by omega
    rw [h1, if_neg (by omega), h, hn']
    have h3 : ((n + 2 : Nat) : Int) - 150 = (n - 149 : Int) + 1 := by push_cast; ring
    rw [h3, zpow_add_one₀ h2]
    norm_num
    ring

/-- The form of every finite value. -/
theorem fabs_form (g : F32) : ∃ (j : Nat) (k : Int), j < 2 ^ 24 ∧ -149 ≤ k ∧
    fabs g = (j : ℚ) * 2 ^ k := by
  have hr : ffrac g < 2 ^ 23 := Nat.mod_lt _ (by decide)
  unfold fabs
  split
  · exact ⟨ffrac g, -149, by omega, by omega, rfl⟩
  · exact ⟨2 ^ 23 + ffrac g, fexp g - 150, by omega, by omega, rfl⟩

theorem fval_form (g : F32) : ∃ (j : Int) (k : Int), |j| < 2 ^ 24 ∧ -149 ≤ k ∧
    fval g = (j : ℚ) * 2 ^ k := by
  obtain ⟨j, k, hj, hk, h⟩ := fabs_form g
  unfold fval
  split
  · refine ⟨-j, k, by rw [abs_neg, abs_of_nonneg (by omega)]; omega, hk, ?_⟩
    rw [h]; push_cast; ring
  · exact ⟨j, k, by rw [abs_of_nonneg (by omega)]; omega, hk, by rw [h]; push_cast; rfl⟩

/-- The rounded significand is nearest among all dyadics of 24 bits. -/
theorem dyadic_nearest {v : ℚ} {e : Int} {s : Nat}
    (hn : e = -149 ∨ (2 : ℚ) ^ (e + 23) ≤ v) (h : |(s : ℚ) - v / 2 ^ e| ≤ 1 / 2)
    (ht : |(s : ℚ) - v / 2 ^ e| = 1 / 2 → s % 2 = 0) {j k : Int} (hj : |j| < 2 ^ 24)
    (hk : -149 ≤ k) :
    |(s : ℚ) * 2 ^ e - v| < |(j : ℚ) * 2 ^ k - v| ∨
      (|(s : ℚ) * 2 ^ e - v| = |(j : ℚ) * 2 ^ k - v| ∧
        ((s : ℚ) * 2 ^ e = (j : ℚ) * 2 ^ k ∨ s % 2 = 0)) := by
  have two : (2 : ℚ) ≠ 0 := by norm_num
  have pe : (0 : ℚ) < 2 ^ e := by positivity
  have scale : ∀ x : ℚ, |x * 2 ^ e - v| = 2 ^ e * |x - v / 2 ^ e| := by
    intro x
    rw [← abs_of_pos pe, ← abs_mul, abs_of_pos pe]
    congr 1
    field_simp
  have onGrid : ∀ J : Int, |(s : ℚ) * 2 ^ e - v| < |(J : ℚ) * 2 ^ e - v| ∨
      (|(s : ℚ) * 2 ^ e - v| = |(J : ℚ) * 2 ^ e - v| ∧
        ((s : ℚ) * 2 ^ e = (J : ℚ) * 2 ^ e ∨ s % 2 = 0)) := by
    intro J
    rw [scale, scale]
    rcases int_nearest h J with h1 | ⟨h1, h2⟩
    · left; exact mul_lt_mul_of_pos_left h1 pe
    · right
      refine ⟨by rw [h1], ?_⟩
      rcases h2 with h2 | h2
      · left
        have : (s : ℚ) = (J : ℚ) := by exact_mod_cast h2
        rw [this]
      · exact .inr (ht h2)
  by_cases hke : e ≤ k
  · have h3 : (j : ℚ) * 2 ^ k = ((j * 2 ^ (k - e).toNat : Int) : ℚ) * 2 ^ e := by
      have : (2 : ℚ) ^ k = 2 ^ (k - e).toNat * 2 ^ e := by
        rw [← zpow_natCast, Int.toNat_of_nonneg (by omega), ← zpow_add₀ two]
        congr 1; ring
      rw [this]; push_cast; ring
    rw [h3]
    exact onGrid _
  · left
    have hv : (2 : ℚ) ^ (e + 23) ≤ v := by
      rcases hn with hn | hn
      · omega
      · exact hn
    have h4 : |(s : ℚ) * 2 ^ e - v| ≤ |((2 ^ 23 : Int) : ℚ) * 2 ^ e - v| := by
      rcases onGrid (2 ^ 23) with h5 | h5
      · exact h5.le
      · exact h5.1.le
    have h6 : ((2 ^ 23 : Int) : ℚ) * 2 ^ e = 2 ^ (e + 23) := by
      rw [zpow_add₀ two]; norm_num; ring
    rw [h6, abs_sub_comm (2 ^ (e + 23)) v,
      abs_of_nonneg (sub_nonneg.2 hv)] at h4
    have h7 : (j : ℚ) * 2 ^ k < 2 ^ (e + 23) := by
      have h8 : (j : ℚ) < 2 ^ 24 := by
        have : j < 2 ^ 24 := lt_of_le_of_lt (le_abs_self j) hj
        exact_mod_cast this
      calc (j : ℚ) * 2 ^ k < 2 ^ 24 * 2 ^ k := by
            exact mul_lt_mul_of_pos_right h8 (by positivity)
        _ = 2 ^ (24 + k) := by rw [zpow_add₀ two]; norm_num
        _ ≤ 2 ^ (e + 23) := zpow_le_zpow_right₀ (by norm_num) (by omega)
    calc |(s : ℚ) * 2 ^ e - v| ≤ v - 2 ^ (e + 23) := h4
      _ < v - (j : ℚ) * 2 ^ k := by linarith
      _ = |(j : ℚ) * 2 ^ k - v| := by rw [abs_sub_comm, abs_of_pos (by linarith)]

/-- The significand stays within 24 bits, or carries into the next power of two. -/
theorem sig_bounds {v : ℚ} {e : Int} {s : Nat} (hlt : v < 2 ^ (e + 24))
    (hn : e = -149 ∨ (2 : ℚ) ^ (e + 23) ≤ v) (h : |(s : ℚ) - v / 2 ^ e| ≤ 1 / 2) :
    s ≤ 2 ^ 24 ∧ (e = -149 ∨ 2 ^ 23 ≤ s) := by
  have two : (2 : ℚ) ≠ 0 := by norm_num
  have pe : (0 : ℚ) < 2 ^ e := by positivity
  have h1 : v / 2 ^ e < 2 ^ 24 := by
    rw [div_lt_iff₀ pe]
    rwa [add_comm, zpow_add₀ two] at hlt
  obtain ⟨h2, h3⟩ := abs_le.1 h
  constructor
  · have : (s : ℚ) < ((2 ^ 24 + 1 : Nat) : ℚ) := by push_cast; linarith
    have : s < 2 ^ 24 + 1 := by exact_mod_cast this
    omega
  · rcases hn with hn | hn
    · exact .inl hn
    · right
      have h4 : (2 : ℚ) ^ 23 ≤ v / 2 ^ e := by
        rw [le_div_iff₀ pe]
        rwa [add_comm, zpow_add₀ two] at hn
      have : ((2 ^ 23 - 1 : Nat) : ℚ) < (s : ℚ) := by
        have h6 : ((2 ^ 23 - 1 : Nat) : ℚ) = 2 ^ 23 - 1 := by norm_num
        rw [h6]; linarith
      have : 2 ^ 23 - 1 < s := by exact_mod_cast this
      omega

/-- `ofRat` rounds correctly whenever the result does not overflow. -/
theorem ofRat_nearest {neg : Bool} {p q : Nat} (hq : 0 < q) (hm : roundMag p q < 0x7f800000) :
    Nearest (if neg then -((p : ℚ) / q) else (p : ℚ) / q) (ofRat neg p q) := by
  rcases Nat.eq_zero_or_pos p with hp | hp
  · subst hp
    have h0 : fval 0#32 = 0 := by
      have h1 : fexp 0#32 = 0 := by decide
      have h2 : ffrac 0#32 = 0 := by decide
      simp [fval, fabs, h1, h2]
    have : ofRat neg 0 q = 0#32 := by unfold ofRat; rw [if_pos rfl]
    rw [this]
    refine ⟨by unfold IsFinite; decide, ?_⟩
    intro g _
    rw [h0]
    simp only [Nat.cast_zero, zero_div, neg_zero, ite_self, sub_zero, abs_zero]
    rcases eq_or_ne (fval g) 0 with h | h
    · right; rw [h]; simp
    · left; exact abs_pos.2 h
  · obtain ⟨e, s, he, hlt, hn, h1, h2, h3⟩ := roundMag_parts hp hq
    obtain ⟨h4, h5⟩ := sig_bounds hlt hn h1
    have hmag : roundMag p q = (e + 149).toNat * 2 ^ 23 + s := by omega
    obtain ⟨a, b, c, f⟩ := packed_val (neg := neg) he h4 h5 (by omega)
    have hf : ofRat neg p q =
        BitVec.ofNat 32 ((e + 149).toNat * 2 ^ 23 + s + if neg then 2 ^ 31 else 0) := by
      unfold ofRat; rw [if_neg (by omega), hmag]
    rw [hf]
    refine ⟨a, ?_⟩
    intro g _
    obtain ⟨j, k, hj, hk, hgv⟩ := fval_form g
    rw [f]
    unfold fval
    rw [b, c]
    cases neg with
    | false =>
      simp only [Bool.false_eq_true, if_false]
      have := dyadic_nearest hn h1 h2 hj hk
      rw [← hgv] at this
      exact this
    | true =>
      simp only [if_true]
      have := dyadic_nearest hn h1 h2 (j := -j) (by rwa [abs_neg]) hk
      have hneg : ((-j : Int) : ℚ) * 2 ^ k = -fval g := by rw [hgv]; push_cast; ring
      rw [hneg] at this
      have e1 : ∀ x y : ℚ, |-x - -y| = |x - y| := by
        intro x y; rw [neg_sub_neg, abs_sub_comm]
      have e2 : |fval g - -((p : ℚ) / q)| = |-fval g - (p : ℚ) / q| := by
        rw [← abs_neg (-fval g - (p : ℚ) / q)]
        exact congrArg _ (by ring)
      have e3 : (if fneg g = true then -fabs g else fabs g) = fval g := rfl
      rw [e3, e1, e2]
      rcases this with h | ⟨h, h'⟩
      · exact .inl h
      · refine .inr ⟨h, ?_⟩
        rcases h' with h' | h'
        · left; rw [h']; ring
        · exact .inr h'

/-- Quotients below `2^100` do not overflow. -/
theorem roundMag_lt {p q : Nat} (hq : 0 < q) (h : (p : ℚ) / q < 2 ^ (100 : Int)) :
    roundMag p q < 0x7f800000 := by
  rcases Nat.eq_zero_or_pos p with hp | hp
  · subst hp
    have h0 : ∀ q, 0 < q → rneDiv 0 q = 0 := by
      intro q hq; unfold rneDiv; simp
    have he : ulpExp 0 q ≤ 0 := by
      unfold ulpExp; simp only [Nat.log2_zero]
      split
      · omega
      · split <;> omega
    unfold roundMag
    simp only [Nat.zero_mul]
    rw [h0 _ hq, h0 _ (by positivity)]
    simp only [ite_self]
    omega
  · obtain ⟨e, s, he, hlt, hn, h1, h2, h3⟩ := roundMag_parts hp hq
    obtain ⟨h4, h5⟩ := sig_bounds hlt hn h1
    have : e < 77 := by
      rcases hn with hn | hn
      · omega
      · have := (zpow_lt_zpow_iff_right₀ (by norm_num : (1 : ℚ) < 2)).1 (lt_of_le_of_lt hn h)
        omega
    omega

/-- Rounding error: half a unit in the last of 24 places. -/
theorem ofRat_error {neg : Bool} {p q : Nat} {k : Int} (hq : 0 < q) (hk : -125 ≤ k) (hk' : k ≤ 100)
    (h : (p : ℚ) / q < 2 ^ k) :
    |fval (ofRat neg p q) - (if neg then -((p : ℚ) / q) else (p : ℚ) / q)| ≤ 2 ^ (k - 25) := by
  rcases Nat.eq_zero_or_pos p with hp | hp
  · subst hp
    have h0 : fval 0#32 = 0 := by
      have h1 : fexp 0#32 = 0 := by decide
      have h2 : ffrac 0#32 = 0 := by decide
      simp [fval, fabs, h1, h2]
    have : ofRat neg 0 q = 0#32 := by unfold ofRat; rw [if_pos rfl]
    rw [this, h0]
    simp only [Nat.cast_zero, zero_div, neg_zero, ite_self, sub_zero, abs_zero]
    positivity
  · have hm : roundMag p q < 0x7f800000 :=
      roundMag_lt hq (lt_of_lt_of_le h (zpow_le_zpow_right₀ (by norm_num) hk'))
    obtain ⟨e, s, he, hlt, hn, h1, h2, h3⟩ := roundMag_parts hp hq
    obtain ⟨h4, h5⟩ := sig_bounds hlt hn h1
    have hmag : roundMag p q = (e + 149).toNat * 2 ^ 23 + s := by omega
    obtain ⟨a, b, c, f⟩ := packed_val (neg := neg) he h4 h5 (by omega)
    have hf : ofRat neg p q =
        BitVec.ofNat 32 ((e + 149).toNat * 2 ^ 23 + s + if neg then 2 ^ 31 else 0) := by
      unfold ofRat; rw [if_neg (by omega), hmag]
    rw [hf]
    have hek : e ≤ k - 24 := by
      rcases hn with hn | hn
      · omega
      · have := (zpow_lt_zpow_iff_right₀ (by norm_num : (1 : ℚ) < 2)).1 (lt_of_le_of_lt hn h)
        omega
    have pe : (0 : ℚ) < 2 ^ e := by positivity
    have herr : |(s : ℚ) * 2 ^ e - (p : ℚ) / q| ≤ 2 ^ (k - 25) := by
      have h6 : (s : ℚ) * 2 ^ e - (p : ℚ) / q = 2 ^ e * ((s : ℚ) - (p : ℚ) / q / 2 ^ e) := by
        rw [mul_sub, mul_div_cancel₀ _ pe.ne']; ring
      rw [h6, abs_mul, abs_of_pos pe]
      calc (2 : ℚ) ^ e * |(s : ℚ) - (p : ℚ) / q / 2 ^ e| ≤ 2 ^ (k - 24) * (1 / 2) :=
            mul_le_mul (zpow_le_zpow_right₀ (by norm_num) hek) h1 (abs_nonneg _) (by positivity)
        _ = 2 ^ (k - 25) := by
            rw [show k - 24 = (k - 25) + 1 by ring, zpow_add_one₀ (by norm_num)]; ring
    unfold fval
    rw [b, c]
    cases neg with
    | false => simpa using herr
    | true =>
      simp only [if_true]
      rw [neg_sub_neg, abs_sub_comm]
      exact herr

end Boxcars.F32
