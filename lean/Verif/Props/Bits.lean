import Verif.Proofs.AttrSpec2
/-!
# C25, C26, C27: bounded integers, vectors and rotations

A reader is `Valid` when what it has buffered exists (at most 63 bits): the invariant
of the bit reader.  Every statement is for every environment and every valid reader,
so for every bit alignment, amount buffered and distance to the end of data.
-/
namespace Boxcars.Props
open Boxcars Spec

/-- The bit width passed along with a bound, `bit_width(max).max(1) - 1`. -/
def boundWidth (max : Nat) : Nat := Nat.max (bitWidth max) 1 - 1

theorem boundWidth_log2 (max : Nat) : boundWidth max = max.log2 := by
  unfold boundWidth; rw [bitWidth_log2]; rfl

/-! ## C25 -/

/-- C25. The width of a number is the least number of bits that holds it, 0 for 0. -/
theorem bit_width_exact (n w : Nat) : bitWidth n ≤ w ↔ n < 2 ^ w := by
  unfold bitWidth
  split
  · rename_i h; subst h; exact ⟨fun _ => Nat.two_pow_pos w, fun _ => Nat.zero_le _⟩
  · rename_i h
    rw [← Nat.log2_lt h]
    exact Iff.rfl

example : bitWidth 0 = 0 ∧ bitWidth 1 = 1 ∧ bitWidth 1023 = 10 ∧ bitWidth 1024 = 11 := by decide +kernel

/-- C25. The checked reader accepts exactly the encodings of the values below the bound
(of 0 if the bound is 0). -/
theorem bounded_read_exact (env : Env) (r : Reader) (hv : r.Valid) (max v : Nat)
    (rest : List Bool) :
    (∃ r', readBitsMaxComputed (boundWidth max) max env r = .ok v r' ∧ r'.bits = rest) ↔
      ((v < max ∨ (max = 0 ∧ v = 0)) ∧ r.bits = bounded max v ++ rest) := by
  rw [boundWidth_log2, BSpec.readBounded.okIff env r hv (Nat.le_refl _) v rest]
  refine and_congr ?_ Iff.rfl
  omega

/-- C25. A value that is returned is below the bound. -/
theorem bounded_read_range (env : Env) (r r' : Reader) (hv : r.Valid) (max v : Nat)
    (h : readBitsMaxComputed (boundWidth max) max env r = .ok v r') :
    v < max ∨ (max = 0 ∧ v = 0) :=
  ((bounded_read_exact env r hv max v _).1 ⟨r', h, rfl⟩).1

/-- C25. An encoding has `width - 1` or `width` bits, `width` being that of the bound. -/
theorem bounded_bits (max v : Nat) :
    (bounded max v).length = boundWidth max ∨ (bounded max v).length = boundWidth max + 1 := by
  rw [boundWidth_log2]
  unfold bounded
  split <;> simp

/-- C25. Reading fails only when bits run out: with `width` bits there is a value. -/
theorem bounded_read_succeeds (env : Env) (r : Reader) (hv : r.Valid) (max : Nat)
    (h : boundWidth max + 1 ≤ r.bits.length) :
    ∃ v r', readBitsMaxComputed (boundWidth max) max env r = .ok v r' := by
  rw [boundWidth_log2] at h
  have hb := boundedDen_le max r.bits
  obtain ⟨r', hr, _⟩ := (bounded_read_exact env r hv max (boundedDen max r.bits).1
    (r.bits.drop (boundedDen max r.bits).2)).2 (by
      have := (bounded_append_iff (M := max) (v := (boundedDen max r.bits).1) (i := r.bits)
        (o := r.bits.drop (boundedDen max r.bits).2)).2 ⟨by omega, rfl, rfl⟩
      refine ⟨?_, this.2⟩
      have := this.1
      omega)
  exact ⟨_, r', hr⟩

/-- C25. Encodings of distinct values differ, whatever follows them. -/
theorem bounded_unique (max v w : Nat) (a b : List Bool) (hv : v < max) (hw : w < max)
    (h : bounded max v ++ a = bounded max w ++ b) : v = w ∧ a = b := by
  have h1 := (bounded_append_iff (M := max) (v := v) (i := bounded max v ++ a) (o := a)).1
    ⟨by omega, rfl⟩
  have h2 := (bounded_append_iff (M := max) (v := w) (i := bounded max v ++ a) (o := b)).1
    ⟨by omega, h⟩
  exact ⟨h1.2.1.symm.trans h2.2.1, h1.2.2.symm.trans h2.2.2⟩

/-- C25. The reader that peeks gives the same value and leaves the same bits as the
checked reader, when `width` bits are buffered. -/
theorem bounded_peek_agrees (env env' : Env) (r : Reader) (hv : r.Valid) (max : Nat)
    (h : boundWidth max + 1 ≤ r.look) :
    ∃ v p c, peekBitsMaxComputed (ε := Unit) (boundWidth max) max env r = .ok v p ∧
      readBitsMaxComputed (boundWidth max) max env' r = .ok v c ∧ p.bits = c.bits := by
  obtain ⟨v, c, hc⟩ := bounded_read_succeeds env' r hv max (by have := hv.1; omega)
  have hR := ((bounded_read_exact env' r hv max v _).1 ⟨c, hc, rfl⟩)
  rw [boundWidth_log2] at h hc ⊢
  have hp := peekBounded_run (ε := Unit) (M := max) (env := env) (i := r.bits) h hv.1
  obtain ⟨_, h2, h3⟩ := (bounded_append_iff (M := max) (v := v) (i := r.bits) (o := c.bits)).1
    ⟨by omega, hR.2⟩
  rw [h2] at hp
  exact ⟨v, _, c, hp, hc, h3⟩

/-- An instance: with bound 20, 18 needs five bits and 10 only four. -/
example : bounded 20 18 = [false, true, false, false, true] ∧
    bounded 20 10 = [false, true, false, true] := by decide
example : boundWidth 1023 = 9 ∧ boundWidth 20 = 4 ∧ boundWidth 0 = 0 := by decide

/-! ## C26 -/

/-- C26. `Vector3i::decode` accepts exactly the encodings of vectors. -/
theorem vector_exact (env : Env) (r : Reader) (hv : r.Valid) (net : I32) (v : Vector3i)
    (rest : List Bool) :
    (∃ r', Vector3i.decode net env r = .ok v r' ∧ r'.bits = rest) ↔
      ∃ bs, Vec3i net v bs ∧ r.bits = bs ++ rest :=
  (BSpec.vec3i net).okIff env r hv (Nat.le_refl _) v rest

/-- C26. A decoded vector has a size class below 22, below 20 before net version 7, and
each coordinate is in the range of the class. -/
theorem vector_range (env : Env) (r r' : Reader) (hv : r.Valid) (net : I32) (v : Vector3i)
    (h : Vector3i.decode net env r = .ok v r') :
    ∃ s, s < (if 7 ≤ net.toInt then 22 else 20) ∧
      (-2 ^ (s + 1) ≤ v.x.toInt ∧ v.x.toInt < 2 ^ (s + 1)) ∧
      (-2 ^ (s + 1) ≤ v.y.toInt ∧ v.y.toInt < 2 ^ (s + 1)) ∧
      (-2 ^ (s + 1) ≤ v.z.toInt ∧ v.z.toInt < 2 ^ (s + 1)) := by
  obtain ⟨bs, ⟨s, hs, hx, hy, hz, _⟩, _⟩ := (vector_exact env r hv net v _).1 ⟨r', h, rfl⟩
  exact ⟨s, hs, hx, hy, hz⟩

/-- C26. Every vector whose coordinates fit a class decodes back from its encoding in
that class, whatever follows. -/
theorem vector_round_trip (env : Env) (net : I32) (s : Nat) (v : Vector3i) (rest : List Bool)
    (hs : s < if 7 ≤ net.toInt then 22 else 20)
    (hx : -2 ^ (s + 1) ≤ v.x.toInt ∧ v.x.toInt < 2 ^ (s + 1))
    (hy : -2 ^ (s + 1) ≤ v.y.toInt ∧ v.y.toInt < 2 ^ (s + 1))
    (hz : -2 ^ (s + 1) ≤ v.z.toInt ∧ v.z.toInt < 2 ^ (s + 1)) (r : Reader) (hv : r.Valid)
    (hr : r.bits = bounded (sizeClasses net) s ++
      (coord s v.x ++ (coord s v.y ++ coord s v.z)) ++ rest) :
    ∃ r', Vector3i.decode net env r = .ok v r' ∧ r'.bits = rest :=
  (vector_exact env r hv net v rest).2 ⟨_, ⟨s, hs, hx, hy, hz, rfl⟩, hr⟩

/-- C26. Decoding fails exactly when the bits end within the vector. -/
theorem vector_fails_iff (env : Env) (r : Reader) (hv : r.Valid) (net : I32) :
    (∃ r', Vector3i.decode net env r = .err () r') ↔
      (r.bits.length < 5 ∨ ∃ s rest, s < sizeClasses net ∧
        r.bits = bounded (sizeClasses net) s ++ rest ∧ rest.length < 3 * (s + 2)) := by
  obtain ⟨look, _, _, _, h⟩ := decode_run net env r hv
  rw [h]
  constructor
  · rintro ⟨r', hr⟩
    cases hd : vecDen net r.bits with
    | mk a o =>
      cases a with
      | ok v => rw [hd] at hr; cases hr
      | error e =>
        rcases vecDen_err.1 hd with ⟨h5, _⟩ | ⟨_, s, hs, hb, hl⟩
        · exact .inl h5
        · exact .inr ⟨s, o, hs, hb, hl⟩
  · intro hh
    have : ∃ o, vecDen net r.bits = (.error (), o) := by
      by_cases h5 : r.bits.length < 5
      · exact ⟨_, vecDen_err.2 (.inl ⟨h5, rfl⟩)⟩
      · rcases hh with hh | ⟨s, o, hs, hb, hl⟩
        · exact absurd hh h5
        · exact ⟨o, vecDen_err.2 (.inr ⟨by omega, s, hs, hb, hl⟩)⟩
    obtain ⟨o, ho⟩ := this
    rw [ho]
    exact ⟨_, rfl⟩

/-- C26. In particular 74 bits are always enough. -/
theorem vector_succeeds (env : Env) (r : Reader) (hv : r.Valid) (net : I32)
    (h : 74 ≤ r.bits.length) : ∃ v r', Vector3i.decode net env r = .ok v r' := by
  have hg := (BSpec.vec3i (N := r.bits.length) net).good env r hv (Nat.le_refl _)
  cases hm : Vector3i.decode net env r with
  | ok v r' => exact ⟨v, r', rfl⟩
  | fault f => rw [hm] at hg; exact hg.elim
  | err e r' =>
    exfalso
    rcases (vector_fails_iff env r hv net).1 ⟨r', hm⟩ with h5 | ⟨s, o, hs, hb, hl⟩
    · omega
    · have h1 := bounded_length_le (sizeClasses net) s
      rw [sizeClasses_log2] at h1
      have h2 := congrArg List.length hb
      rw [List.length_append] at h2
      have : s < 22 := by rcases sizeClasses_cases net with h | h <;> omega
      omega

/-- An instance in class 0: (-2, 1, 0), six coordinate bits after the four of the class. -/
example : Vec3i 10#32 ⟨-2, 1, 0⟩
    ([false, false, false, false, false] ++ ([false, false] ++ ([true, true] ++ [false, true]))) :=
  ⟨0, by decide, by unfold InClass; decide, by unfold InClass; decide, by unfold InClass; decide,
    by decide⟩

/-! ## C27 -/

/-- C27. `Rotation::decode` accepts exactly the encodings of rotations. -/
theorem rotation_exact (env : Env) (r : Reader) (hv : r.Valid) (v : Rotation)
    (rest : List Bool) :
    (∃ r', Rotation.decode env r = .ok v r' ∧ r'.bits = rest) ↔ r.bits = rotation v ++ rest :=
  BSpec.rotation.okIff env r hv (Nat.le_refl _) v rest

/-- C27. Three bits plus eight for each component that is present. -/
theorem rotation_bits (v : Rotation) :
    (rotation v).length = 3 + 8 * (v.yaw.toList.length + v.pitch.toList.length
      + v.roll.toList.length) := by
  obtain ⟨a, b, c⟩ := v
  cases a <;> cases b <;> cases c <;> simp [rotation, opt, field_length]

/-- C27. The path taken (27 bits buffered or not) has no influence on the outcome. -/
theorem rotation_paths_agree (env env' : Env) (r r' : Reader) (hv : r.Valid) (hv' : r'.Valid)
    (h : r.bits = r'.bits) :
    (∃ v o o', Rotation.decode env r = .ok v o ∧ Rotation.decode env' r' = .ok v o' ∧
      o.bits = o'.bits) ∨
    (∃ o o', Rotation.decode env r = .err () o ∧ Rotation.decode env' r' = .err () o' ∧
      o.bits = o'.bits) := by
  have hs := BSpec.rotation.agn env env' r r' hv hv' (Nat.le_refl _) h
  revert hs
  cases Rotation.decode env r <;> cases Rotation.decode env' r' <;> intro hs <;>
    first | exact hs.elim | skip
  · obtain ⟨rfl, h⟩ := hs; exact .inl ⟨_, _, _, rfl, rfl, h⟩
  · obtain ⟨_, h⟩ := hs; exact .inr ⟨_, _, rfl, rfl, h⟩

/-- Both paths do occur on the same bits, and give the same rotation. -/
def sampleRotation : Rotation := ⟨some 0x80#8, none, some 0x7f#8⟩
example : (Reader.mk (rotation sampleRotation ++ List.replicate 20 true) 30).Valid ∧
    (rotation sampleRotation).length = 19 := by
  constructor
  · unfold Reader.Valid; decide
  · decide

end Boxcars.Props
