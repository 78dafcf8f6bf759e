import Verif.Proofs.AttrLength
import Verif.Proofs.ValueOf
/-!
# Writing rigid bodies that are cut
-/
namespace Boxcars
open Spec

variable {d : Spec.Ctx}

/-- The bits of a rotation. -/
def RotationBits (d : Spec.Ctx) (q : Quaternion) (r : Bits) : Prop :=
  (7 ≤ d.net.toInt ∧ QuatEnc q r) ∨ (d.net.toInt < 7 ∧ OldQuatEnc q r)

theorem rotationBits_length {q : Quaternion} {r : Bits} (h : RotationBits d q r) :
    r.length ≤ 56 := by
  rcases h with ⟨_, l, a, b, c, _, _, _, rfl, _⟩ | ⟨_, a, b, c, _, _, _, rfl, _⟩ <;>
    simp only [List.length_append, bits_length] <;> omega

theorem classes_cases (net : I32) : sizeClasses net = 22 ∨ sizeClasses net = 20 := by
  unfold sizeClasses; split <;> simp

/-- The largest size. -/
theorem bounded_last (net : I32) :
    (bounded (sizeClasses net) (sizeClasses net - 1)).length = 5 := by
  rcases classes_cases net with h | h <;> rw [h] <;> decide

theorem coord_length (s : Nat) (x : I32) : (coord s x).length = s + 2 := bits_length _ _

/-- A slow vector leaves two of the bits that the largest size takes. -/
theorem slow_vec {net : I32} {v : Vector3f} (h : Slow net v) :
    ∃ b, Vec3f net v b ∧ b.length + 2 < 3 * (sizeClasses net + 1) := by
  obtain ⟨x, y, z, hx, hy, hz, rfl⟩ := h
  by_cases hn : 7 ≤ net.toInt
  · have hc : sizeClasses net = 22 := if_pos hn
    rw [if_pos hn] at hx hy hz
    refine ⟨_, ⟨⟨x, y, z⟩, ⟨18, by omega, hx, hy, hz, rfl⟩, rfl⟩, ?_⟩
    simp only [List.length_append, coord_length, hc]
    decide
  · have hc : sizeClasses net = 20 := if_neg hn
    rw [if_neg hn] at hx hy hz
    refine ⟨_, ⟨⟨x, y, z⟩, ⟨16, by omega, hx, hy, hz, rfl⟩, rfl⟩, ?_⟩
    simp only [List.length_append, coord_length, hc]
    decide

/-- After the largest size few bits are left. -/
theorem vecTrunc_last {net : I32} {o : Bits} (h : o.length < 3 * (sizeClasses net + 1)) :
    VecTrunc net (bounded (sizeClasses net) (sizeClasses net - 1) ++ o) o := by
  have := bounded_last net
  refine .inr ⟨by rw [List.length_append]; omega, sizeClasses net - 1, ?_, rfl, ?_⟩ <;>
    rcases classes_cases net with h' | h' <;> omega

/-- C93. A body that can be cut is written so that two bits are left. -/
theorem cut_written {b : RigidBody} (hb : CutBodyOf d b) :
    ∃ w r, w.length ≤ 300 ∧ RotationBits d b.rotation r ∧
      ∀ x y, RigidBodyTrunc d b (w ++ [x, y]) [x, y] := by
  obtain ⟨⟨⟨hl, hr⟩, hg1, hg2, hs, hn⟩, hw⟩ := hb
  obtain ⟨l, hl⟩ := (vec_iff _ _).2 hl
  obtain ⟨r, hr⟩ := (rotation_iff d b.rotation).2 hr
  have h1 := vec_len hl
  have h2 := rotationBits_length hr
  have h5 := bounded_last d.net
  have hc := classes_cases d.net
  have fin : ∀ m : Bits, m.length ≤ 100 →
      (∀ x y : Bool, ∃ k, Velocity d.net b.linearVelocity (m ++ [x, y]) k ∧
        Velocity d.net b.angularVelocity k [x, y]) →
      ∃ w r, w.length ≤ 300 ∧ RotationBits d b.rotation r ∧
      ∀ x y, RigidBodyTrunc d b (w ++ [x, y]) [x, y] := by
    intro m hm hv
    refine ⟨[b.sleeping] ++ (l ++ (r ++ m)), r, ?_, hr, fun x y => ?_⟩
    · simp only [List.length_append, List.length_singleton]; omega
    · obtain ⟨k, k1, k2⟩ := hv x y
      exact ⟨hs, hn, l, r, m ++ [x, y], k, hl, hr, by simp only [List.append_assoc], k1, k2⟩
  cases e1 : b.linearVelocity with
  | none =>
    cases e2 : b.angularVelocity with
    | none =>
      refine fin (bounded (sizeClasses d.net) (sizeClasses d.net - 1) ++
        bounded (sizeClasses d.net) (sizeClasses d.net - 1)) (by rw [List.length_append]; omega)
        fun x y => ?_
      rw [e1, e2, List.append_assoc]
      exact ⟨_, vecTrunc_last (by simp only [List.length_append, h5, List.length_cons, List.length_nil]; omega),
        vecTrunc_last (by simp only [List.length_cons, List.length_nil]; omega)⟩
    | some w =>
      obtain ⟨v, hv, hlen⟩ := slow_vec (hw w e1 e2)
      refine fin (bounded (sizeClasses d.net) (sizeClasses d.net - 1) ++ v)
        (by rw [List.length_append]; omega) fun x y => ?_
      rw [e1, e2, List.append_assoc]
      exact ⟨_, vecTrunc_last (by rw [List.length_append]; exact hlen), v, hv, rfl⟩
  | some w =>
    have e2 : b.angularVelocity = none := hn.resolve_left (by rw [e1]; exact fun e => by cases e)
    obtain ⟨v, hv⟩ := (vec_iff _ _).2 (hg1 w e1)
    have := vec_len hv
    refine fin (v ++ bounded (sizeClasses d.net) (sizeClasses d.net - 1))
      (by rw [List.length_append]; omega) fun x y => ?_
    rw [e1, e2, List.append_assoc]
    exact ⟨_, ⟨v, hv, rfl⟩,
      vecTrunc_last (by simp only [List.length_cons, List.length_nil]; omega)⟩

/-- A sleeping body takes any number of bits modulo 8. -/
theorem sleeping_written {q : Quaternion} {r : Bits} (hr : RotationBits d q r) (L : Nat) :
    ∃ v w, AttrEnc d .rigidBody v w ∧ w.length ≤ 200 ∧ (L + w.length) % 8 = 0 := by
  have hb : ∀ s, 6 ≤ s → s ≤ 13 → (bounded (sizeClasses d.net) s).length = 4 := by
    intro s h1 h2
    have : s = 6 ∨ s = 7 ∨ s = 8 ∨ s = 9 ∨ s = 10 ∨ s = 11 ∨ s = 12 ∨ s = 13 := by omega
    rcases classes_cases d.net with h | h <;> rw [h] <;>
      rcases this with rfl | rfl | rfl | rfl | rfl | rfl | rfl | rfl <;> decide
  have hlen := rotationBits_length hr
  obtain ⟨s, h1, h2, h3⟩ : ∃ s, 6 ≤ s ∧ s ≤ 13 ∧ (L + (1 + (4 + 3 * (s + 2)) + r.length)) % 8 = 0 :=
    ⟨6 + (3 * (8 - (L + r.length + 29) % 8)) % 8, by omega, by omega, by omega⟩
  have hz : InClass s 0 := by
    unfold InClass
    have : 0 < (2 : Int) ^ (s + 1) := by exact_mod_cast Nat.pow_pos (n := s + 1) (by decide : 0 < 2)
    rw [show (0 : I32).toInt = 0 from rfl]
    omega
  have hs : s < sizeClasses d.net := by rcases classes_cases d.net with h | h <;> omega
  refine ⟨.rigidBody ⟨true, ⟨centi 0, centi 0, centi 0⟩, q, none, none⟩, _,
    .rigidBody ⟨_, r, [], [], ⟨⟨0, 0, 0⟩, ⟨s, hs, hz, hz, hz, rfl⟩, rfl⟩, hr,
      .inr ⟨fun e => (by cases e), rfl, rfl⟩, .inr ⟨fun e => (by cases e), rfl, rfl⟩, rfl⟩, ?_, ?_⟩ <;>
    simp only [List.length_append, List.length_cons, List.length_nil, coord_length, hb s h1 h2] <;>
    omega

end Boxcars
