import Verif.Model.NetModels
import Verif.Spec.Bits
import Mathlib.Algebra.Order.Field.Power
import Mathlib.Data.Rat.Cast.Order
import Mathlib.Tactic.Linarith
import Mathlib.Tactic.Ring
import Mathlib.Tactic.FieldSimp
/-!
# Rounding to binary32
-/
namespace Boxcars.F32

/-- Unclamped exponent of the last place. -/
def ulp0 (p q : Nat) : Int :=
  let e := (p.log2 : Int) - (q.log2 : Int) - 24
  if p < q * 2 ^ 24 * 2 ^ e.toNat ∧ 0 ≤ e then e
  else if p * 2 ^ (-e).toNat < q * 2 ^ 24 ∧ e < 0 then e else e + 1

theorem ulpExp_eq (p q : Nat) : ulpExp p q = max (ulp0 p q) (-149) := rfl

theorem log2_bounds {p : Nat} (hp : 0 < p) :
    (2 : ℚ) ^ (p.log2 : Int) ≤ p ∧ (p : ℚ) < 2 ^ ((p.log2 : Int) + 1) := by
  constructor
  · rw [zpow_natCast]
    exact_mod_cast Nat.log2_self_le (by omega)
  · have : (p.log2 : Int) + 1 = ((p.log2 + 1 : Nat) : Int) := by push_cast; rfl
    rw [this, zpow_natCast]
    exact_mod_cast Nat.lt_log2_self

theorem cond_iff {p q : Nat} (hq : 0 < q) (e : Int) :
    ((p < q * 2 ^ 24 * 2 ^ e.toNat ∧ 0 ≤ e) ∨ (p * 2 ^ (-e).toNat < q * 2 ^ 24 ∧ e < 0)) ↔
      (p : ℚ) / q < 2 ^ (e + 24) := by
  have hq' : (0 : ℚ) < q := by exact_mod_cast hq
  rw [div_lt_iff₀ hq', zpow_add₀ (by norm_num : (2 : ℚ) ≠ 0)]
  rcases lt_or_ge e 0 with h | h
  · have h1 : ¬ 0 ≤ e := by omega
    simp only [h1, and_false, h, and_true, false_or]
    have h2 : (2 : ℚ) ^ e = ((2 : ℚ) ^ (-e).toNat)⁻¹ := by
      rw [← zpow_natCast, ← zpow_neg, Int.toNat_of_nonneg (by omega), neg_neg]
    have h3 : (0 : ℚ) < 2 ^ (-e).toNat := by positivity
    rw [h2, mul_assoc, inv_mul_eq_div, lt_div_iff₀ h3]
    norm_cast
    rw [Nat.mul_comm q]
  · have h1 : ¬ e < 0 := by omega
    simp only [h1, and_false, h, and_true, or_false]
    have h2 : (2 : ℚ) ^ e = (2 : ℚ) ^ e.toNat := by
      rw [← zpow_natCast, Int.toNat_of_nonneg h]
    have h3 : (2 : ℚ) ^ e.toNat * 2 ^ (24 : Int) * q = ((q * 2 ^ 24 * 2 ^ e.toNat : Nat) : ℚ) := by
      push_cast; ring
    rw [h2, h3, Nat.cast_lt]

theorem ulp0_spec {p q : Nat} (hp : 0 < p) (hq : 0 < q) :
    (2 : ℚ) ^ (ulp0 p q + 23) ≤ (p : ℚ) / q ∧ (p : ℚ) / q < 2 ^ (ulp0 p q + 24) := by
  have hq' : (0 : ℚ) < q := by exact_mod_cast hq
  obtain ⟨a1, a2⟩ := log2_bounds hp
  obtain ⟨b1, b2⟩ := log2_bounds hq
  have two : (2 : ℚ) ≠ 0 := by norm_num
  have lo : (2 : ℚ) ^ ((p.log2 : Int) - q.log2 - 1) ≤ (p : ℚ) / q := by
    rw [le_div_iff₀ hq']
    calc (2 : ℚ) ^ ((p.log2 : Int) - q.log2 - 1) * q
        ≤ 2 ^ ((p.log2 : Int) - q.log2 - 1) * 2 ^ ((q.log2 : Int) + 1) := by
          apply mul_le_mul_of_nonneg_left b2.le; positivity
      _ = 2 ^ (p.log2 : Int) := by rw [← zpow_add₀ two]; congr 1; ring
      _ ≤ p := a1
  have hi : (p : ℚ) / q < 2 ^ ((p.log2 : Int) - q.log2 + 1) := by
    rw [div_lt_iff₀ hq']
    calc (p : ℚ) < 2 ^ ((p.log2 : Int) + 1) := a2
      _ = 2 ^ ((p.log2 : Int) - q.log2 + 1) * 2 ^ (q.log2 : Int) := by
          rw [← zpow_add₀ two]; congr 1; ring
      _ ≤ _ := by apply mul_le_mul_of_nonneg_left b1; positivity
  have hc := cond_iff (p := p) hq ((p.log2 : Int) - q.log2 - 24)
  unfold ulp0
  simp only
  split
  · rename_i h
    have := hc.1 (Or.inl h)
    refine ⟨le_of_eq_of_le ?_ lo, this⟩
    congr 1; ring
  · rename_i h
    split
    · rename_i h'
      have := hc.1 (Or.inr h')
      refine ⟨le_of_eq_of_le ?_ lo, this⟩
      congr 1; ring
    · rename_i h'
      have := not_lt.1 fun x => by
        rcases hc.2 x with y | y
        · exact h y
        · exact h' y
      refine ⟨le_of_eq_of_le ?_ this, lt_of_lt_of_eq hi ?_⟩
      · congr 1; ring
      · congr 1; ring

theorem ulp0_unique {v : ℚ} {e e' : Int}
    (h : (2 : ℚ) ^ (e + 23) ≤ v ∧ v < 2 ^ (e + 24))
    (h' : (2 : ℚ) ^ (e' + 23) ≤ v ∧ v < 2 ^ (e' + 24)) : e = e' := by
  have one : (1 : ℚ) < 2 := by norm_num
  have h1 := (zpow_lt_zpow_iff_right₀ one).1 (lt_of_le_of_lt h.1 h'.2)
  have h2 := (zpow_lt_zpow_iff_right₀ one).1 (lt_of_le_of_lt h'.1 h.2)
  omega

theorem ulp0_congr {p q p' q' : Nat} (hp : 0 < p) (hq : 0 < q) (hq' : 0 < q')
    (h : p * q' = p' * q) : ulp0 p q = ulp0 p' q' := by
  have hp' : 0 < p' := by
    rcases Nat.eq_zero_or_pos p' with h0 | h0
    · rw [h0, Nat.zero_mul] at h
      exact absurd h (Nat.ne_of_gt (Nat.mul_pos hp hq'))
    · exact h0
  have hv : (p : ℚ) / q = (p' : ℚ) / q' := by
    have a : (q : ℚ) ≠ 0 := by exact_mod_cast hq.ne'
    have b : (q' : ℚ) ≠ 0 := by exact_mod_cast hq'.ne'
    rw [div_eq_div_iff a b]
    exact_mod_cast h
  exact ulp0_unique (ulp0_spec hp hq) (hv ▸ ulp0_spec hp' hq')

theorem rneDiv_mul {p q k : Nat} (hk : 0 < k) : rneDiv (k * p) (k * q) = rneDiv p q := by
  unfold rneDiv
  simp only [Nat.mul_div_mul_left _ _ hk, Nat.mul_mod_mul_left]
  have e : 2 * (k * (p % q)) = k * (2 * (p % q)) := by ring
  rw [e]
  simp only [Nat.mul_lt_mul_left hk]

theorem rneDiv_congr {p q p' q' : Nat} (hq : 0 < q) (hq' : 0 < q') (h : p * q' = p' * q) :
    rneDiv p q = rneDiv p' q' := by
  rw [← rneDiv_mul (p := p) (q := q) hq', ← rneDiv_mul (p := p') (q := q') hq,
    Nat.mul_comm q' p, h, Nat.mul_comm p' q, Nat.mul_comm q' q]

theorem roundMag_congr {p q p' q' : Nat} (hp : 0 < p) (hq : 0 < q) (hq' : 0 < q')
    (h : p * q' = p' * q) : roundMag p q = roundMag p' q' := by
  have he : ulpExp p q = ulpExp p' q' := by
    rw [ulpExp_eq, ulpExp_eq, ulp0_congr hp hq hq' h]
  unfold roundMag
  simp only
  rw [he]
  have : (if 0 ≤ ulpExp p' q' then rneDiv p (q * 2 ^ (ulpExp p' q').toNat)
      else rneDiv (p * 2 ^ (-ulpExp p' q').toNat) q) =
      (if 0 ≤ ulpExp p' q' then rneDiv p' (q' * 2 ^ (ulpExp p' q').toNat)
      else rneDiv (p' * 2 ^ (-ulpExp p' q').toNat) q') := by
    split
    · apply rneDiv_congr (by positivity) (by positivity)
      rw [← Nat.mul_assoc, ← Nat.mul_assoc, h]
    · apply rneDiv_congr hq hq'
      rw [Nat.mul_right_comm, h, Nat.mul_right_comm]
  rw [this]

theorem ofRat_congr {neg : Bool} {p q p' q' : Nat} (hq : 0 < q) (hq' : 0 < q')
    (h : p * q' = p' * q) : ofRat neg p q = ofRat neg p' q' := by
  unfold ofRat
  rcases Nat.eq_zero_or_pos p with hp | hp
  · have : p' = 0 := by
      rw [hp, Nat.zero_mul] at h
      rcases Nat.mul_eq_zero.1 h.symm with h | h <;> omega
    rw [hp, this, if_pos rfl, if_pos rfl]
  · have hp' : p' ≠ 0 := by
      rintro rfl
      rw [Nat.zero_mul] at h
      exact absurd h (Nat.ne_of_gt (Nat.mul_pos hp hq'))
    rw [if_neg (by omega), if_neg hp', roundMag_congr hp hq hq' h]

/-! ### Small integers are exact -/

theorem ulp0_int {n : Nat} (hn : 0 < n) (hlt : n < 2 ^ 24) :
    -23 ≤ ulp0 n 1 ∧ ulp0 n 1 ≤ 0 := by
  have one : (1 : ℚ) < 2 := by norm_num
  obtain ⟨h1, h2⟩ := ulp0_spec hn (Nat.one_pos)
  simp only [Nat.cast_one, div_one] at h1 h2
  have h3 : (n : ℚ) < 2 ^ (24 : Int) := by
    have : (n : ℚ) < ((2 ^ 24 : Nat) : ℚ) := by exact_mod_cast hlt
    calc (n : ℚ) < ((2 ^ 24 : Nat) : ℚ) := this
      _ = 2 ^ (24 : Int) := by norm_num
  have h4 : (2 : ℚ) ^ (0 : Int) ≤ n := by
    rw [zpow_zero]; exact_mod_cast hn
  have h5 := (zpow_lt_zpow_iff_right₀ one).1 (lt_of_le_of_lt h1 h3)
  have h6 := (zpow_lt_zpow_iff_right₀ one).1 (lt_of_le_of_lt h4 h2)
  omega

/-- Shift that normalises a small integer. -/
theorem norm_int {n : Nat} (hn : 0 < n) (hlt : n < 2 ^ 24) :
    ∃ k : Nat, k ≤ 23 ∧ ulp0 n 1 = -(k : Int) ∧ 2 ^ 23 ≤ n * 2 ^ k ∧ n * 2 ^ k < 2 ^ 24 := by
  obtain ⟨a, b⟩ := ulp0_int hn hlt
  refine ⟨(-ulp0 n 1).toNat, by omega, by omega, ?_⟩
  obtain ⟨h1, h2⟩ := ulp0_spec hn (Nat.one_pos)
  simp only [Nat.cast_one, div_one] at h1 h2
  have two : (2 : ℚ) ≠ 0 := by norm_num
  generalize hk : (-ulp0 n 1).toNat = k
  have he : ulp0 n 1 = -(k : Int) := by omega
  rw [he, add_comm, zpow_add₀ two, zpow_neg, zpow_natCast] at h1 h2
  have hpos : (0 : ℚ) < 2 ^ k := by positivity
  rw [← div_eq_mul_inv, div_le_iff₀ hpos] at h1
  rw [← div_eq_mul_inv, lt_div_iff₀ hpos] at h2
  constructor
  · exact_mod_cast h1
  · exact_mod_cast h2

theorem roundMag_int {n k : Nat} (hk : k ≤ 23) (he : ulp0 n 1 = -(k : Int))
    (hlt : n * 2 ^ k < 2 ^ 24) : roundMag n 1 = (149 - k) * 2 ^ 23 + n * 2 ^ k := by
  have h1 : ulpExp n 1 = -(k : Int) := by rw [ulpExp_eq, he]; omega
  have hr : ∀ m, rneDiv m 1 = m := by intro m; simp [rneDiv, Nat.mod_one]
  unfold roundMag
  simp only
  rw [h1]
  have h2 : (-(k : Int) + 149).toNat = 149 - k := by omega
  have h3 : (- -(k : Int)).toNat = k := by omega
  rw [h2, h3]
  have h4 : (if 0 ≤ -(k : Int) then rneDiv n (1 * 2 ^ (-(k : Int)).toNat)
      else rneDiv (n * 2 ^ k) 1) = n * 2 ^ k := by
    rcases Nat.eq_zero_or_pos k with rfl | hk0
    · simp [hr]
    · rw [if_neg (by omega), hr]
  rw [h4]
  generalize n * 2 ^ k = s at *
  have : (149 - k) * 2 ^ 23 ≤ 149 * 2 ^ 23 := Nat.mul_le_mul_right _ (by omega)
  omega

/-- The exact value of a small integer as binary32. -/
theorem toDy_ofInt {x : Int} (hx : x ≠ 0) (hlt : x.natAbs < 2 ^ 24) :
    ∃ k : Nat, k ≤ 23 ∧ toDy (ofInt x) = ⟨x * 2 ^ k, -(k : Int)⟩ := by
  obtain ⟨k, hk, he, h1, h2⟩ := norm_int (n := x.natAbs) (by omega) hlt
  refine ⟨k, hk, ?_⟩
  have hr := roundMag_int hk he h2
  generalize hs : x.natAbs * 2 ^ k = s at *
  have hb : (149 - k) * 2 ^ 23 + s < 2 ^ 31 := by
    have : (149 - k) * 2 ^ 23 ≤ 149 * 2 ^ 23 := Nat.mul_le_mul_right _ (by omega)
    omega
  have hnat : (ofInt x).toNat = (149 - k) * 2 ^ 23 + s + if x < 0 then 2 ^ 31 else 0 := by
    unfold ofInt ofRat
    rw [if_neg (by omega), hr, BitVec.toNat_ofNat, Nat.mod_eq_of_lt]
    · simp only [decide_eq_true_eq]
    · simp only [decide_eq_true_eq]
      by_cases h : x < 0
      · rw [if_pos h]; exact Nat.add_lt_add_right hb (2 ^ 31)
      · rw [if_neg h, Nat.add_zero]; exact Nat.lt_trans hb (by decide)
  have hexp : expField (ofInt x) = 150 - k := by
    unfold expField
    rw [hnat]
    have hk' : (149 - k) * 2 ^ 23 + s = (150 - k) * 2 ^ 23 + (s - 2 ^ 23) := by
      have : 150 - k = (149 - k) + 1 := by omega
      rw [this, Nat.add_mul]; omega
    rw [hk']
    split
    · have : (150 - k) * 2 ^ 23 + (s - 2 ^ 23) + 2 ^ 31 = (s - 2 ^ 23) + 2 ^ 23 * (150 - k + 256) := by
        ring
      rw [this, Nat.add_mul_div_left _ _ (by norm_num), Nat.div_eq_of_lt (by omega)]
      omega
    · have : (150 - k) * 2 ^ 23 + (s - 2 ^ 23) + 0 = (s - 2 ^ 23) + 2 ^ 23 * (150 - k) := by
        ring
      rw [this, Nat.add_mul_div_left _ _ (by norm_num), Nat.div_eq_of_lt (by omega)]
      omega
  have hfrac : fracField (ofInt x) = s - 2 ^ 23 := by
    unfold fracField
    rw [hnat]
    have hk' : (149 - k) * 2 ^ 23 + s = (150 - k) * 2 ^ 23 + (s - 2 ^ 23) := by
      have : 150 - k = (149 - k) + 1 := by omega
      rw [this, Nat.add_mul]; omega
    rw [hk']
    split
    · have : (150 - k) * 2 ^ 23 + (s - 2 ^ 23) + 2 ^ 31 = (s - 2 ^ 23) + 2 ^ 23 * (150 - k + 256) := by
        ring
      rw [this, Nat.add_mul_mod_self_left, Nat.mod_eq_of_lt (by omega)]
    · have : (150 - k) * 2 ^ 23 + (s - 2 ^ 23) + 0 = (s - 2 ^ 23) + 2 ^ 23 * (150 - k) := by
        ring
      rw [this, Nat.add_mul_mod_self_left, Nat.mod_eq_of_lt (by omega)]
  have hsign : sign (ofInt x) = decide (x < 0) := by
    unfold sign
    rw [BitVec.msb_eq_decide, hnat]
    by_cases h : x < 0
    · rw [if_pos h, decide_eq_true h, decide_eq_true_eq]; omega
    · rw [if_neg h, decide_eq_false h, decide_eq_false_iff_not]; omega
  unfold toDy num exp
  have h150 : ¬ (150 - k = 0) := by omega
  rw [hexp, hfrac, hsign, if_neg h150, if_neg h150]
  have hse : ((2 ^ 23 + (s - 2 ^ 23) : Nat) : Int) = x.natAbs * 2 ^ k := by
    have : 2 ^ 23 + (s - 2 ^ 23) = s := by omega
    rw [this, ← hs]; push_cast; rfl
  have h3 : ((150 - k : Nat) : Int) - 150 = -(k : Int) := by omega
  rw [h3, hse]
  by_cases h : x < 0
  · rw [decide_eq_true h, if_pos rfl, ← neg_mul, show -(x.natAbs : Int) = x by omega]
  · rw [decide_eq_false h, if_neg (by decide), show (x.natAbs : Int) = x by omega]

theorem ofInt_zero : ofInt 0 = 0#32 := rfl

/-- `x as f32 / 100.0` is the rounding of the exact quotient. -/
theorem fixed100_eq {x : I32} (hx : x.toInt.natAbs < 2 ^ 24) : fixed100 x = Spec.centi x := by
  unfold fixed100 Spec.centi
  by_cases h0 : x.toInt = 0
  · rw [h0]; decide
  · obtain ⟨k, hk, hd⟩ := toDy_ofInt h0 hx
    unfold div
    have hy : toDy 0x42c80000#32 = ⟨13107200, -17⟩ := by
      simp only [toDy, Dy.mk.injEq]; decide
    rw [hd, hy]
    simp only
    have hsgn : (xor (decide (x.toInt * 2 ^ k < 0)) (decide ((13107200 : Int) < 0))) =
        decide (x.toInt < 0) := by
      have : (0 : Int) < 2 ^ k := by positivity
      have h : (x.toInt * 2 ^ k < 0) ↔ (x.toInt < 0) := by
        constructor
        · intro h; by_contra hc; exact absurd h (not_lt.2 (mul_nonneg (not_lt.1 hc) this.le))
        · intro h; exact mul_neg_of_neg_of_pos h this
      simp [h]
    rw [hsgn]
    apply ofRat_congr (by positivity) (by norm_num)
    rw [Int.natAbs_mul, Int.natAbs_pow]
    rw [show (2 : Int).natAbs = 2 from rfl, show (13107200 : Int).natAbs = 13107200 from rfl]
    rcases Nat.lt_or_ge k 17 with h | h
    · have e1 : (-(k : Int) - -17).toNat = 17 - k := by omega
      have e2 : (-(-(k : Int) - -17)).toNat = 0 := by omega
      rw [e1, e2]
      have : 2 ^ k * 2 ^ (17 - k) = 2 ^ 17 := by rw [← Nat.pow_add]; congr 1; omega
      calc x.toInt.natAbs * 2 ^ k * 2 ^ (17 - k) * 100
          = x.toInt.natAbs * (2 ^ k * 2 ^ (17 - k)) * 100 := by ring
        _ = _ := by rw [this]; ring
    · have e1 : (-(k : Int) - -17).toNat = 0 := by omega
      have e2 : (-(-(k : Int) - -17)).toNat = k - 17 := by omega
      rw [e1, e2]
      have : 2 ^ 17 * 2 ^ (k - 17) = 2 ^ k := by rw [← Nat.pow_add]; congr 1; omega
      calc x.toInt.natAbs * 2 ^ k * 2 ^ 0 * 100
          = x.toInt.natAbs * 2 ^ k * 100 := by ring
        _ = x.toInt.natAbs * (2 ^ 17 * 2 ^ (k - 17)) * 100 := by rw [this]
        _ = _ := by ring

end Boxcars.F32
