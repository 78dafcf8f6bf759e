import Verif.Proofs.FloatNearest
import Verif.Proofs.BitModels
import Mathlib.Algebra.Order.Round
import Mathlib.Data.Rat.Floor
/-!
# C47: fixed-point coordinates

`fval` and `Nearest` (`Spec/Float.lean`) are IEEE-754 binary32 values and correct
rounding, stated over the rationals and all finite binary32 numbers.
-/
namespace Boxcars.Props
open Boxcars Spec

theorem centi_arg (x : I32) : (x.toInt : ℚ) / 100 =
    if decide (x.toInt < 0) then -((x.toInt.natAbs : ℚ) / (100 : Nat))
    else (x.toInt.natAbs : ℚ) / (100 : Nat) := by
  rcases lt_or_ge x.toInt 0 with h | h
  · rw [decide_eq_true h, if_pos rfl]
    have : ((x.toInt.natAbs : Nat) : ℚ) = -(x.toInt : ℚ) := by
      rw [← Int.cast_natCast, show ((x.toInt.natAbs : Nat) : Int) = -x.toInt by omega, Int.cast_neg]
    rw [this]; push_cast; ring
  · rw [decide_eq_false (by omega), if_neg (by decide)]
    have : ((x.toInt.natAbs : Nat) : ℚ) = (x.toInt : ℚ) := by
      rw [← Int.cast_natCast, show ((x.toInt.natAbs : Nat) : Int) = x.toInt by omega]
    rw [this]; push_cast; rfl

/-- C47. A coordinate is the correctly rounded binary32 of the integer over 100. -/
theorem fixed_nearest (x : I32) (hx : x.toInt.natAbs < 2 ^ 24) :
    Nearest ((x.toInt : ℚ) / 100) (fixed100 x) := by
  rw [F32.fixed100_eq hx, centi_arg]
  unfold centi
  refine F32.ofRat_nearest (by decide) (F32.roundMag_lt (by decide) ?_)
  have h1 : (x.toInt.natAbs : ℚ) < 2 ^ 24 := by exact_mod_cast hx
  rw [div_lt_iff₀ (by norm_num)]
  norm_num at h1 ⊢
  linarith

/-- Half a unit in the last place is below four thousandths. -/
theorem fixed_error (x : I32) (hx : x.toInt.natAbs ≤ 2 ^ 23) :
    |fval (fixed100 x) - (x.toInt : ℚ) / 100| ≤ 1 / 256 := by
  rw [F32.fixed100_eq (by omega), centi_arg]
  unfold centi
  have h1 : (x.toInt.natAbs : ℚ) ≤ 2 ^ 23 := by exact_mod_cast hx
  have := F32.ofRat_error (neg := decide (x.toInt < 0)) (p := x.toInt.natAbs) (q := 100) (k := 17)
    (by decide) (by decide) (by decide) (by
      rw [div_lt_iff₀ (by norm_num)]
      norm_num at h1 ⊢
      linarith)
  refine le_trans this (le_of_eq ?_)
  norm_num [zpow_neg]

/-- C47. Multiplying by 100 and rounding gives the integer back. -/
theorem fixed_recover (x : I32) (hx : x.toInt.natAbs ≤ 2 ^ 23) :
    round (100 * fval (fixed100 x)) = x.toInt := by
  obtain ⟨h1, h2⟩ := abs_le.1 (fixed_error x hx)
  rw [round_eq, Int.floor_eq_iff]
  constructor <;> linarith

/-- C47. Distinct integers give distinct coordinates, as values and as bit patterns. -/
theorem fixed_injective (x y : I32) (hx : x.toInt.natAbs ≤ 2 ^ 23) (hy : y.toInt.natAbs ≤ 2 ^ 23)
    (h : fval (fixed100 x) = fval (fixed100 y)) : x = y := by
  have h1 := fixed_recover x hx
  rw [h, fixed_recover y hy] at h1
  exact (BitVec.eq_of_toInt_eq h1).symm

/-- C47. What the decoder returns: the vector on the wire, each coordinate rounded
correctly, from which the vector on the wire is recovered. -/
theorem vector3f_decoded (env : Env) (r r' : Reader) (hv : r.Valid) (net : I32) (v : Vector3f)
    (h : Vector3f.decode net env r = .ok v r') :
    ∃ (w : Vector3i) (bs : List Bool), Vec3i net w bs ∧ r.bits = bs ++ r'.bits ∧
      (Nearest ((w.x.toInt : ℚ) / 100) v.x ∧ round (100 * fval v.x) = w.x.toInt) ∧
      (Nearest ((w.y.toInt : ℚ) / 100) v.y ∧ round (100 * fval v.y) = w.y.toInt) ∧
      (Nearest ((w.z.toInt : ℚ) / 100) v.z ∧ round (100 * fval v.z) = w.z.toInt) := by
  obtain ⟨bs, ⟨w, hw, rfl⟩, hb⟩ := (BSpec.vec3f net).ok_rel hv (Nat.le_refl _) h
  refine ⟨w, bs, hw, hb, ?_⟩
  obtain ⟨s, hs, hx, hy, hz, _⟩ := hw
  have hs' : s < 22 := by rcases sizeClasses_cases net with h | h <;> omega
  have key : ∀ x : I32, InClass s x → Nearest ((x.toInt : ℚ) / 100) (centi x) ∧
      round (100 * fval (centi x)) = x.toInt := by
    intro x hx
    have hlt : x.toInt.natAbs ≤ 2 ^ 23 := by
      have h3 : (2 ^ (s + 1) : Nat) ≤ 2 ^ 23 := Nat.pow_le_pow_right (by decide) (by omega)
      have h4 : ((2 ^ (s + 1) : Nat) : Int) = 2 ^ (s + 1) := by norm_cast
      unfold InClass at hx
      rw [← h4] at hx
      omega
    rw [← F32.fixed100_eq (x := x) (by omega)]
    exact ⟨fixed_nearest x (by omega), fixed_recover x hlt⟩
  exact ⟨key _ hx, key _ hy, key _ hz⟩

/-- An instance: 1.23 is `0x3f9d70a4`. -/
example : fixed100 123#32 = 0x3f9d70a4#32 := by decide +kernel

end Boxcars.Props
