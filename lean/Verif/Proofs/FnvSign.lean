import Verif.Proofs.Fnv
import Mathlib.Tactic.LinearCombination
/-!
# FNV-1a of keys of different sign

After the four low bytes of a key come four bytes 0 or four bytes 255.  What four bytes 255 add, as
compared with four bytes 0, depends on one byte of the state only.
-/
namespace Boxcars.Fnv
open Boxcars Spec

theorem xor_ff (s : BitVec 64) :
    ((s ^^^ (0xff : Byte).setWidth 64).toNat : Int) = s.toNat + 255 - 2 * (s.toNat % 256 : Nat) := by
  have h1 := xor_low s 0xff
  have h2 : (s ^^^ (0xff : Byte).setWidth 64).toNat % 256 = 255 - s.toNat % 256 := by
    have e : ((0xff : Byte).setWidth 64).toNat = 255 := by decide
    rw [BitVec.toNat_xor, e, show (256 : Nat) = 2 ^ 8 from rfl, Nat.xor_mod_two_pow]
    have : ∀ l < 256, l ^^^ 255 % 2 ^ 8 = 255 - l := by decide +kernel
    exact this _ (Nat.mod_lt _ (by decide))
  omega

/-- The byte that follows `l` in a state when a byte 255 is written. -/
def nextLow (l : Nat) : Nat := (255 - l) * 435 % 256

theorem step_ff (s : BitVec 64) : ∃ k : Int,
    ((step s 0xff).toNat : Int) = (s.toNat + (255 - 2 * (s.toNat % 256 : Nat))) * 0x100000001b3 - 2 ^ 64 * k ∧
      (step s 0xff).toNat % 256 = nextLow (s.toNat % 256) := by
  obtain ⟨k, h⟩ := mul_eq (s ^^^ (0xff : Byte).setWidth 64)
  rw [xor_ff] at h
  refine ⟨k, ?_, ?_⟩
  · rw [step, h]; ring
  · have h' : ((step s 0xff).toNat : Int) = _ := h
    unfold nextLow
    have := Nat.mod_lt s.toNat (show 256 > 0 by decide)
    generalize hl : s.toNat % 256 = l at *
    obtain ⟨q, hq⟩ : ∃ q, s.toNat = 256 * q + l := ⟨s.toNat / 256, by omega⟩
    omega

theorem step_zero (s : BitVec 64) : ∃ k : Int,
    ((step s 0).toNat : Int) = s.toNat * 0x100000001b3 - 2 ^ 64 * k := by
  obtain ⟨k, h⟩ := mul_eq s
  refine ⟨k, ?_⟩
  rw [← h, step, show (0 : Byte).setWidth 64 = 0#64 by decide, BitVec.xor_zero]

/-- What four bytes 255 add. -/
def added (l : Nat) : Int :=
  let p : Int := 0x100000001b3
  let l1 := nextLow l
  let l2 := nextLow l1
  let l3 := nextLow l2
  ((((255 - 2 * (l : Int)) * p + (255 - 2 * (l1 : Int))) * p + (255 - 2 * (l2 : Int))) * p +
    (255 - 2 * (l3 : Int))) * p

theorem write_ff (s : BitVec 64) : ∃ k : Int, ((write s [0xff, 0xff, 0xff, 0xff]).toNat : Int) =
    s.toNat * 0x100000001b3 ^ 4 + added (s.toNat % 256) - 2 ^ 64 * k := by
  obtain ⟨k1, h1, l1⟩ := step_ff s
  obtain ⟨k2, h2, l2⟩ := step_ff (step s 0xff)
  obtain ⟨k3, h3, l3⟩ := step_ff (step (step s 0xff) 0xff)
  obtain ⟨k4, h4, _⟩ := step_ff (step (step (step s 0xff) 0xff) 0xff)
  rw [l1] at h2 l2
  rw [l2] at h3 l3
  rw [l3] at h4
  refine ⟨((k1 * 0x100000001b3 + k2) * 0x100000001b3 + k3) * 0x100000001b3 + k4, ?_⟩
  show ((step (step (step (step s 0xff) 0xff) 0xff) 0xff).toNat : Int) = _
  rw [h4, h3, h2, h1]
  unfold added
  ring

theorem write_zero (s : BitVec 64) : ∃ k : Int, ((write s [0, 0, 0, 0]).toNat : Int) =
    s.toNat * 0x100000001b3 ^ 4 - 2 ^ 64 * k := by
  obtain ⟨k1, h1⟩ := step_zero s
  obtain ⟨k2, h2⟩ := step_zero (step s 0)
  obtain ⟨k3, h3⟩ := step_zero (step (step s 0) 0)
  obtain ⟨k4, h4⟩ := step_zero (step (step (step s 0) 0) 0)
  refine ⟨((k1 * 0x100000001b3 + k2) * 0x100000001b3 + k3) * 0x100000001b3 + k4, ?_⟩
  show ((step (step (step (step s 0) 0) 0) 0).toNat : Int) = _
  rw [h4, h3, h2, h1]
  ring

/-- The states after four bytes differ by little in every digit to the base of the factor. -/
theorem four_diff (s : BitVec 64) (a b c d a' b' c' d' : Byte) : ∃ x y z w k : Int,
    (-255 ≤ x ∧ x ≤ 255) ∧ (-510 ≤ y ∧ y ≤ 510) ∧ (-510 ≤ z ∧ z ≤ 510) ∧ (-510 ≤ w ∧ w ≤ 510) ∧
    ((write s [a, b, c, d]).toNat : Int) - (write s [a', b', c', d']).toNat =
      (((x * 0x100000001b3 + y) * 0x100000001b3 + z) * 0x100000001b3 + w) * 0x100000001b3 -
        2 ^ 64 * k := by
  have one : ∀ (s : BitVec 64) (a : Byte), ∃ e k : Int, -((s.toNat % 256 : Nat) : Int) ≤ e ∧
      e ≤ 255 - (s.toNat % 256 : Nat) ∧
      ((step s a).toNat : Int) = (s.toNat + e) * 0x100000001b3 - 2 ^ 64 * k := by
    intro s a
    have h0 := xor_low s a
    obtain ⟨k, h⟩ := mul_eq (s ^^^ a.setWidth 64)
    refine ⟨(s ^^^ a.setWidth 64).toNat - s.toNat, k, by omega, by omega, ?_⟩
    rw [step, h]
    ring
  obtain ⟨e1, k1, p1, q1, h1⟩ := one s a
  obtain ⟨e1', k1', p1', q1', h1'⟩ := one s a'
  obtain ⟨e2, k2, p2, q2, h2⟩ := one (step s a) b
  obtain ⟨e2', k2', p2', q2', h2'⟩ := one (step s a') b'
  obtain ⟨e3, k3, p3, q3, h3⟩ := one (step (step s a) b) c
  obtain ⟨e3', k3', p3', q3', h3'⟩ := one (step (step s a') b') c'
  obtain ⟨e4, k4, p4, q4, h4⟩ := one (step (step (step s a) b) c) d
  obtain ⟨e4', k4', p4', q4', h4'⟩ := one (step (step (step s a') b') c') d'
  refine ⟨e1 - e1', e2 - e2', e3 - e3', e4 - e4',
    (((k1 - k1') * 0x100000001b3 + (k2 - k2')) * 0x100000001b3 + (k3 - k3')) * 0x100000001b3 +
      (k4 - k4'), by omega, by omega, by omega, by omega, ?_⟩
  show ((step (step (step (step s a) b) c) d).toNat : Int) -
    (step (step (step (step s a') b') c') d').toNat = _
  rw [h4, h4', h3, h3', h2, h2', h1, h1']
  ring

/-- No small digits give what four bytes 255 add. -/
def apart (l : Nat) : Bool :=
  let e := added l * 13441252082715354955
  let b0 := e % 2 ^ 40
  let b := if b0 ≤ 21086510235 then b0 else b0 - 2 ^ 40
  let r := (145 * ((e - b) / 2 ^ 40) - b) % (145 * 2 ^ 24)
  decide (21086510235 < b0 ∧ b0 < 2 ^ 40 - 21086510235) ||
    decide (32316660 < r ∧ r < 145 * 2 ^ 24 - 32316660)

theorem all_apart : ∀ l < 256, apart l = true := by decide +kernel

theorem no_digits {l : Nat} (hl : l < 256) {x y z w k : Int}
    (hx : -255 ≤ x ∧ x ≤ 255) (hy : -510 ≤ y ∧ y ≤ 510) (hz : -510 ≤ z ∧ z ≤ 510)
    (hw : -510 ≤ w ∧ w ≤ 510)
    (h : ((((x * 0x100000001b3 + y) * 0x100000001b3 + z) * 0x100000001b3 + w) * 0x100000001b3) *
      0x100000001b3 ^ 4 = added l + 2 ^ 64 * k) : False := by
  have ha := all_apart l hl
  unfold apart at ha
  generalize added l = t at h ha
  -- the factor is divided out
  obtain ⟨m, hm⟩ : ∃ m : Int, ((x * 0x100000001b3 + y) * 0x100000001b3 + z) * 0x100000001b3 + w =
      t * 13441252082715354955 + 2 ^ 64 * m := by
    refine ⟨k * 13441252082715354955 -
      1170898197026581339459087774252605124301478931416884398970769 *
        (((x * 0x100000001b3 + y) * 0x100000001b3 + z) * 0x100000001b3 + w), ?_⟩
    linear_combination 13441252082715354955 * h
  clear h
  generalize t * 13441252082715354955 = e at hm ha
  -- two parts
  obtain ⟨n, hn⟩ : ∃ n : Int, 2 ^ 40 * (567675 * x + 870 * y + z + 2 ^ 24 * n) +
      (82312875 * x + 189225 * y + 435 * z + w) = e :=
    ⟨72057594123452416 * x + 65536 * y - m, by linear_combination hm⟩
  clear hm
  have hr : 145 * (567675 * x + 870 * y + z) - (82312875 * x + 189225 * y + 435 * z + w) =
      -63075 * y - 290 * z - w := by ring
  generalize hA : 567675 * x + 870 * y + z = A at *
  have hb : -21086510235 ≤ 82312875 * x + 189225 * y + 435 * z + w ∧
      82312875 * x + 189225 * y + 435 * z + w ≤ 21086510235 := by omega
  have hc : -32316660 ≤ -63075 * y - 290 * z - w ∧ -63075 * y - 290 * z - w ≤ 32316660 := by omega
  generalize 82312875 * x + 189225 * y + 435 * z + w = B at *
  generalize -63075 * y - 290 * z - w = R at *
  clear hx hy hz hw hA
  rw [Bool.or_eq_true, decide_eq_true_iff, decide_eq_true_iff] at ha
  have hB : (if e % 2 ^ 40 ≤ 21086510235 then e % 2 ^ 40 else e % 2 ^ 40 - 2 ^ 40) = B := by
    split <;> omega
  rw [hB, show (e - B) / 2 ^ 40 = A + 2 ^ 24 * n by omega] at ha
  omega

/-- Four bytes 0 and four bytes 255 after four bytes each are told apart. -/
theorem sign_apart (s : BitVec 64) (a b c d a' b' c' d' : Byte) :
    write s [a, b, c, d, 0, 0, 0, 0] ≠ write s [a', b', c', d', 0xff, 0xff, 0xff, 0xff] := by
  intro h
  have h : write (write s [a, b, c, d]) [0, 0, 0, 0] =
      write (write s [a', b', c', d']) [0xff, 0xff, 0xff, 0xff] := by
    rw [← write_append, ← write_append]
    exact h
  obtain ⟨k1, h1⟩ := write_zero (write s [a, b, c, d])
  obtain ⟨k2, h2⟩ := write_ff (write s [a', b', c', d'])
  obtain ⟨x, y, z, w, k, hx, hy, hz, hw, h3⟩ := four_diff s a b c d a' b' c' d'
  rw [h, h2] at h1
  refine no_digits (Nat.mod_lt (write s [a', b', c', d']).toNat (by decide)) hx hy hz hw
    (k := k * 0x100000001b3 ^ 4 + k1 - k2) ?_
  linear_combination -h1 - 0x100000001b3 ^ 4 * h3

end Boxcars.Fnv
