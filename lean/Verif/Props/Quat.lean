import Verif.Proofs.Quat
import Verif.Proofs.AttrSpec2
import Mathlib.Data.Rat.Floor
/-!
# C55, C56: rotations

`Component`, `Fourth`, `Rotated`, `OldComponent` (`Spec/Quat.lean`) say what the components
of a rotation are in terms of correct rounding of rationals (`Nearest`, `NearestSqrt`).
-/
namespace Boxcars.Props
open Boxcars Spec

/-- C55. A component is the correctly rounded one of its 18 bits. -/
theorem component_correct (n : Nat) (hn : n < 2 ^ 18) : Component n (Quaternion.unpack n) :=
  (F32.quatComp_spec hn).1

/-- C55. It is within `2^-22` of the exact `(2n/262143 - 1)/√2`, with the binary32 `1/√2`. -/
theorem component_error (n : Nat) (hn : n < 2 ^ 18) :
    |fval (Quaternion.unpack n) - (2 * ((n : ℚ) / 262143) - 1) * fval halfRoot| ≤ 2 ^ (-22 : Int) :=
  (F32.quatComp_spec hn).2.2.2

/-- C55. The number is recovered from the component. -/
theorem component_recover (n : Nat) (hn : n < 2 ^ 18) :
    round (number (Quaternion.unpack n)) = (n : Int) := F32.quatComp_recover hn

/-- C55. The omitted component is the correctly rounded root of what the others leave, and
not a number if they leave less than nothing. -/
theorem fourth_correct (a b c : Nat) (ha : a < 2 ^ 18) (hb : b < 2 ^ 18) (hc : c < 2 ^ 18) :
    Fourth (Quaternion.unpack a) (Quaternion.unpack b) (Quaternion.unpack c)
      (Quaternion.extra (Quaternion.unpack a) (Quaternion.unpack b) (Quaternion.unpack c)) :=
  F32.quatLargest_fourth (F32.quatComp_spec ha).2.2.1 (F32.quatComp_spec hb).2.2.1
    (F32.quatComp_spec hc).2.2.1

/-- What the encodings of `Spec/Bits.lean` mean. -/
theorem quatEnc_rotated {q : Quaternion} {bs : Bits} (h : QuatEnc q bs) :
    ∃ l a b c : Nat, l < 4 ∧ a < 2 ^ 18 ∧ b < 2 ^ 18 ∧ c < 2 ^ 18 ∧
      bs = bits 2 l ++ (bits 18 a ++ (bits 18 b ++ bits 18 c)) ∧ Rotated l a b c q ∧
      round (number (sent l q).1) = (a : Int) ∧ round (number (sent l q).2.1) = (b : Int) ∧
      round (number (sent l q).2.2) = (c : Int) := by
  obtain ⟨l, a, b, c, ha, hb, hc, rfl, hq⟩ := h
  have hl : l < 4 := by rcases hq with h | h | h | h <;> rw [h.1] <;> decide
  have hs : sent l q = (quatComp a, quatComp b, quatComp c) := by
    rcases hq with ⟨rfl, rfl⟩ | ⟨rfl, rfl⟩ | ⟨rfl, rfl⟩ | ⟨rfl, rfl⟩ <;> rfl
  refine ⟨l, a, b, c, hl, ha, hb, hc, rfl, ⟨_, _, _, _, component_correct a ha,
    component_correct b hb, component_correct c hc, fourth_correct a b c ha hb hc, hq⟩, ?_⟩
  rw [hs]
  exact ⟨component_recover a ha, component_recover b hb, component_recover c hc⟩

/-- C55. What the decoder returns for a rotation. -/
theorem quaternion_decoded (env : Env) (r r' : Reader) (hv : r.Valid) (q : Quaternion)
    (h : Quaternion.decode env r = .ok q r') :
    ∃ l a b c : Nat, l < 4 ∧ a < 2 ^ 18 ∧ b < 2 ^ 18 ∧ c < 2 ^ 18 ∧
      r.bits = (bits 2 l ++ (bits 18 a ++ (bits 18 b ++ bits 18 c))) ++ r'.bits ∧
      Rotated l a b c q ∧
      round (number (sent l q).1) = (a : Int) ∧ round (number (sent l q).2.1) = (b : Int) ∧
      round (number (sent l q).2.2) = (c : Int) := by
  obtain ⟨bs, hq, hb⟩ := BSpec.quat.ok_rel hv (Nat.le_refl _) h
  obtain ⟨l, a, b, c, h1, h2, h3, h4, rfl, h5⟩ := quatEnc_rotated hq
  exact ⟨l, a, b, c, h1, h2, h3, h4, hb, h5⟩

/-- C55. The rotation and the index of the omitted component determine the bits. -/
theorem quaternion_determines (env env' : Env) (r r' s s' : Reader) (hr : r.Valid) (hs : s.Valid)
    (q : Quaternion) (h : Quaternion.decode env r = .ok q r')
    (h' : Quaternion.decode env' s = .ok q s') (hl : r.bits.take 2 = s.bits.take 2) :
    r.bits.take 56 = s.bits.take 56 := by
  obtain ⟨l, a, b, c, l1, _, _, _, e, _, ea, eb, ec⟩ := quaternion_decoded env r r' hr q h
  obtain ⟨l', a', b', c', l1', _, _, _, e', _, ea', eb', ec'⟩ := quaternion_decoded env' s s' hs q h'
  have hlen : ∀ n x : Nat, (bits n x).length = n := by simp
  have hll : l = l' := by
    have h2 : bits 2 l = bits 2 l' := by
      rw [e, e', List.append_assoc, List.take_left' (hlen 2 l), List.append_assoc,
        List.take_left' (hlen 2 l')] at hl
      exact hl
    have h3 := (bits_append_iff (i := bits 2 l ++ []) (o := [])).1 ⟨l1, rfl⟩
    have h4 := (bits_append_iff (i := bits 2 l' ++ []) (o := [])).1 ⟨l1', rfl⟩
    rw [← h3.2.1, ← h4.2.1, h2]
  subst hll
  rw [ea] at ea'
  rw [eb] at eb'
  rw [ec] at ec'
  have h1 : a = a' := by exact_mod_cast ea'
  have h2 : b = b' := by exact_mod_cast eb'
  have h3 : c = c' := by exact_mod_cast ec'
  subst h1 h2 h3
  have h4 : (bits 2 l ++ (bits 18 a ++ (bits 18 b ++ bits 18 c))).length = 56 := by simp
  rw [e, e', List.take_left' h4, List.take_left' h4]

/-- C55. The rotation of a decoded rigid body, from net version 7 on and before. -/
theorem rigid_body_rotation (d : AttrDecoder) (hp : d.product.version = d.version) (env : Env)
    (r r' : Reader) (hv : r.Valid) (v : RigidBody)
    (h : d.decode .rigidBody env r = .ok (.rigidBody v) r') :
    (7 ≤ d.version.netVersion.toInt ∧ ∃ l a b c : Nat, a < 2 ^ 18 ∧ b < 2 ^ 18 ∧ c < 2 ^ 18 ∧
      Rotated l a b c v.rotation) ∨
    (d.version.netVersion.toInt < 7 ∧ ∃ a b c : Nat, a < 2 ^ 16 ∧ b < 2 ^ 16 ∧ c < 2 ^ 16 ∧
      OldComponent a v.rotation.x ∧ OldComponent b v.rotation.y ∧ OldComponent c v.rotation.z ∧
      v.rotation.w = 0#32) := by
  have key : ∀ bs, ((7 ≤ d.ctx.net.toInt ∧ QuatEnc v.rotation bs) ∨
      (d.ctx.net.toInt < 7 ∧ OldQuatEnc v.rotation bs)) →
    (7 ≤ d.version.netVersion.toInt ∧ ∃ l a b c : Nat, a < 2 ^ 18 ∧ b < 2 ^ 18 ∧ c < 2 ^ 18 ∧
      Rotated l a b c v.rotation) ∨
    (d.version.netVersion.toInt < 7 ∧ ∃ a b c : Nat, a < 2 ^ 16 ∧ b < 2 ^ 16 ∧ c < 2 ^ 16 ∧
      OldComponent a v.rotation.x ∧ OldComponent b v.rotation.y ∧ OldComponent c v.rotation.z ∧
      v.rotation.w = 0#32) := by
    intro bs hb
    rcases hb with ⟨hn, hq⟩ | ⟨hn, a, b, c, ha, hb, hc, _, hq⟩
    · obtain ⟨l, a, b, c, _, h2, h3, h4, _, h5, _⟩ := quatEnc_rotated hq
      exact .inl ⟨hn, l, a, b, c, h2, h3, h4, h5⟩
    · refine .inr ⟨hn, a, b, c, ha, hb, hc, ?_⟩
      rw [hq]
      exact ⟨(F32.oldQuatComp_spec ha).1, (F32.oldQuatComp_spec hb).1,
        (F32.oldQuatComp_spec hc).1, rfl⟩
  rcases (decode_spec d hp .rigidBody).ok_rel hv (Nat.le_refl _) h with ⟨bs, he, _⟩ | ⟨_, v', hv', ht⟩
  · cases he with
    | rigidBody he =>
      obtain ⟨_, q, _, _, _, hq, _⟩ := he
      exact key q hq
  · cases hv'
    obtain ⟨_, _, _, q, _, _, _, hq, _⟩ := ht
    exact key q hq

/-- C55. Before net version 7 the number is recovered from the component as well. -/
theorem old_component_recover (n : Nat) (hn : n < 2 ^ 16) :
    round (fval (oldQuatComp n) * 32767 + 32768) = (n : Int) := F32.oldQuatComp_recover hn

/-- Instances: the ends and the middle of the range. -/
example : Quaternion.unpack 0 = 0xbf3504f3#32 ∧ Quaternion.unpack 262143 = 0x3f3504f3#32 ∧
    Quaternion.unpack 131072 = 0x363504f3#32 := by decide +kernel

/-! ### C56 -/

theorem places_finite {l : Nat} {w x y z : F32} {q : Quaternion}
    (hq : (l = 0 ∧ q = ⟨w, x, y, z⟩) ∨ (l = 1 ∧ q = ⟨x, w, y, z⟩) ∨ (l = 2 ∧ q = ⟨x, y, w, z⟩) ∨
      (l = 3 ∧ q = ⟨x, y, z, w⟩))
    (fx : IsFinite x) (fy : IsFinite y) (fz : IsFinite z) (fw : IsFinite w) :
    FiniteQ q ∧ norm2 q = fval x ^ 2 + fval y ^ 2 + fval z ^ 2 + fval w ^ 2 := by
  rcases hq with ⟨rfl, rfl⟩ | ⟨rfl, rfl⟩ | ⟨rfl, rfl⟩ | ⟨rfl, rfl⟩
  · exact ⟨⟨fw, fx, fy, fz⟩, by unfold norm2; ring⟩
  · exact ⟨⟨fx, fw, fy, fz⟩, by unfold norm2; ring⟩
  · exact ⟨⟨fx, fy, fw, fz⟩, by unfold norm2; ring⟩
  · exact ⟨⟨fx, fy, fz, fw⟩, rfl⟩

theorem places_sent {l : Nat} {w x y z : F32} {q : Quaternion}
    (hq : (l = 0 ∧ q = ⟨w, x, y, z⟩) ∨ (l = 1 ∧ q = ⟨x, w, y, z⟩) ∨ (l = 2 ∧ q = ⟨x, y, w, z⟩) ∨
      (l = 3 ∧ q = ⟨x, y, z, w⟩)) :
    l < 4 ∧ sent l q = (x, y, z) ∧
      (if l = 0 then q.x else if l = 1 then q.y else if l = 2 then q.z else q.w) = w := by
  rcases hq with ⟨rfl, rfl⟩ | ⟨rfl, rfl⟩ | ⟨rfl, rfl⟩ | ⟨rfl, rfl⟩ <;> exact ⟨by decide, rfl, rfl⟩

/-- C56 as far as it holds: the sum of the squares is within `2^-21` of one and the omitted
component is not negative, unless the omitted component is not a number.  That happens
only if the squares of the others exceed `1 - 2^-22`. -/
theorem rotation_unit_partial (env : Env) (r r' : Reader) (hv : r.Valid) (q : Quaternion)
    (h : Quaternion.decode env r = .ok q r') :
    (FiniteQ q ∧ |norm2 q - 1| ≤ 2 ^ (-21 : Int)) ∨
    ∃ l, l < 4 ∧ r.bits.take 2 = bits 2 l ∧
      (∀ f, (f = (sent l q).1 ∨ f = (sent l q).2.1 ∨ f = (sent l q).2.2) → IsFinite f) ∧
      1 - 2 ^ (-22 : Int) ≤ fval (sent l q).1 ^ 2 + fval (sent l q).2.1 ^ 2 +
        fval (sent l q).2.2 ^ 2 ∧
      IsNaN (if l = 0 then q.x else if l = 1 then q.y else if l = 2 then q.z else q.w) := by
  obtain ⟨bs, ⟨l, a, b, c, ha, hb, hc, rfl, hq⟩, hbits⟩ := BSpec.quat.ok_rel hv (Nat.le_refl _) h
  obtain ⟨_, fa, la, _⟩ := F32.quatComp_spec ha
  obtain ⟨_, fb, lb, _⟩ := F32.quatComp_spec hb
  obtain ⟨_, fc, lc, _⟩ := F32.quatComp_spec hc
  rcases F32.quatLargest_norm la lb lc with ⟨fw, _, _, hn⟩ | ⟨hnan, hn⟩
  · left
    obtain ⟨h1, h2⟩ := places_finite hq fa fb fc fw
    rw [h2]
    exact ⟨h1, hn⟩
  · right
    obtain ⟨h1, h2, h3⟩ := places_sent hq
    refine ⟨l, h1, ?_, ?_, ?_, ?_⟩
    · rw [hbits, List.append_assoc, List.take_left' (by simp)]
    · rw [h2]
      rintro f (rfl | rfl | rfl)
      · exact fa
      · exact fb
      · exact fc
    · rw [h2]; exact hn
    · rw [h3]; exact hnan

/-- The rotations of an honest writer: if the squares of the numbers leave something, the
rotation is a unit rotation. -/
theorem rotation_unit_of_room_partial (env : Env) (r r' : Reader) (hv : r.Valid) (q : Quaternion)
    (h : Quaternion.decode env r = .ok q r')
    (room : ∀ l, r.bits.take 2 = bits 2 l → fval (sent l q).1 ^ 2 + fval (sent l q).2.1 ^ 2 +
      fval (sent l q).2.2 ^ 2 < 1 - 2 ^ (-22 : Int)) :
    FiniteQ q ∧ |norm2 q - 1| ≤ 2 ^ (-21 : Int) := by
  rcases rotation_unit_partial env r r' hv q h with h | ⟨l, _, hl, _, hge, _⟩
  · exact h
  · exact absurd (room l hl) (not_lt.2 hge)

/-- Fifty-six one bits. -/
def allOnes : Reader := ⟨List.replicate 56 true, 0⟩

/-- C56 is false as stated: fifty-six one bits decode to a rotation of which a component
is not a number. -/
theorem rotation_unit_fails : ¬∀ (env : Env) (r r' : Reader) (_ : r.Valid) (q : Quaternion)
    (_ : Quaternion.decode env r = .ok q r'), FiniteQ q := by
  intro H
  have hv : allOnes.Valid := ⟨by simp [allOnes], by simp [allOnes]⟩
  have hq : QuatEnc ⟨quatComp 262143, quatComp 262143, quatComp 262143,
      quatLargest (quatComp 262143) (quatComp 262143) (quatComp 262143)⟩ allOnes.bits :=
    ⟨3, 262143, 262143, 262143, by decide, by decide, by decide, by decide,
      .inr (.inr (.inr ⟨rfl, rfl⟩))⟩
  obtain ⟨r', hd, _⟩ := (BSpec.quat.okIff Env.default64 allOnes hv (Nat.le_refl _) _ []).2
    ⟨_, hq, (List.append_nil _).symm⟩
  have := (H _ _ r' hv _ hd).2.2.2
  revert this
  unfold IsFinite
  decide +kernel

/-- An instance of the other kind: `±1/√2`, `0` (the number nearest to the middle) leave
room. -/
example : quatLargest (quatComp 262143) (quatComp 131072) (quatComp 131071) = 0x3f3504f3#32 := by
  decide +kernel

end Boxcars.Props
