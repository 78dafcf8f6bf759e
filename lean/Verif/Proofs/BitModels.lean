import Verif.Proofs.BitLeaf
import Verif.Proofs.Float
/-!
# Vectors, rotations and quaternions
-/
namespace Boxcars
open Spec

variable {ε : Type}

theorem BM.bind_assoc {α β γ : Type} (m : BM ε α) (f : α → BM ε β) (g : β → BM ε γ) :
    BM.bind (BM.bind m f) g = BM.bind m (fun a => BM.bind (f a) g) := by
  funext env r
  unfold BM.bind
  cases m env r <;> rfl

/-! ### Vectors -/


theorem vectorMax_eq (net : I32) : vectorMax net = sizeClasses net := rfl

theorem sizeClasses_cases (net : I32) : sizeClasses net = 22 ∨ sizeClasses net = 20 := by
  unfold sizeClasses; split <;> simp

theorem sizeClasses_log2 (net : I32) : (sizeClasses net).log2 = 4 := by
  rcases sizeClasses_cases net with h | h <;> rw [h] <;> decide

theorem boundedDen_class (net : I32) (i : List Bool) :
    (boundedDen (sizeClasses net) i).1 < 22 := by
  have := boundedDen_lt (sizeClasses net) i
  rcases sizeClasses_cases net with h | h <;> rw [h] at this ⊢ <;> omega

theorem bias_toInt {s : Nat} (hs : s < 22) : (1#32 <<< (s + 1)).toInt = 2 ^ (s + 1) := by
  have h : ∀ s : Fin 22, (1#32 <<< (s.val + 1)).toInt = 2 ^ (s.val + 1) := by decide
  exact h ⟨s, hs⟩

theorem pow_class {s : Nat} (hs : s < 22) : 2 ^ (s + 2) ≤ 2 ^ 23 ∧ 2 ^ (s + 2) = 2 * 2 ^ (s + 1) := by
  refine ⟨Nat.pow_le_pow_right (by decide) (by omega), ?_⟩
  rw [Nat.pow_succ]; omega

theorem coordVal_toInt {s d : Nat} (hs : s < 22) (hd : d < 2 ^ (s + 2)) :
    (BitVec.ofNat 32 d - 1#32 <<< (s + 1)).toInt = d - 2 ^ (s + 1) := by
  obtain ⟨h1, h2⟩ := pow_class hs
  have h3 : ((2 ^ (s + 1) : Nat) : Int) = 2 ^ (s + 1) := by norm_cast
  have h4 : 2 ^ (s + 1) ≤ 2 ^ 22 := by omega
  have h5 : (BitVec.ofNat 32 d).toInt = d := by
    rw [BitVec.toInt_ofNat', Int.bmod_eq_of_le (by omega) (by omega)]
  rw [BitVec.toInt_sub, bias_toInt hs, h5, Int.bmod_eq_of_le (by omega) (by omega)]

theorem coordVal_sub {s d : Nat} {env : Env} {r : Reader} (hs : s < 22) (hd : d < 2 ^ (s + 2)) :
    subI32 (ε := ε) (BitVec.ofNat 32 d) (1#32 <<< (s + 1)) env r =
      .ok (BitVec.ofNat 32 d - 1#32 <<< (s + 1)) r := by
  obtain ⟨h1, h2⟩ := pow_class hs
  have h3 : ((2 ^ (s + 1) : Nat) : Int) = 2 ^ (s + 1) := by norm_cast
  have h4 : 2 ^ (s + 1) ≤ 2 ^ 22 := by omega
  have : BitVec.ssubOverflow (BitVec.ofNat 32 d) (1#32 <<< (s + 1)) = false := by
    unfold BitVec.ssubOverflow
    rw [bias_toInt hs, BitVec.toInt_ofNat', Int.bmod_eq_of_le (by omega) (by omega)]
    simp only [Bool.or_eq_false_iff, decide_eq_false_iff_not]
    omega
  unfold subI32
  rw [this]
  simp

theorem coord_append_iff {s : Nat} {x : I32} {i o : List Bool} (hs : s < 22) :
    (InClass s x ∧ i = coord s x ++ o) ↔
      (s + 2 ≤ i.length ∧
        BitVec.ofNat 32 (bitsToNat (i.take (s + 2))) - 1#32 <<< (s + 1) = x ∧
        i.drop (s + 2) = o) := by
  obtain ⟨h1, h2⟩ := pow_class hs
  have h3 : ((2 ^ (s + 1) : Nat) : Int) = 2 ^ (s + 1) := by norm_cast
  constructor
  · rintro ⟨hc, hi⟩
    unfold InClass at hc
    have hlt : (x.toInt + 2 ^ (s + 1)).toNat < 2 ^ (s + 2) := by omega
    obtain ⟨h5, h6, h7⟩ := bits_append_iff.1 ⟨hlt, hi⟩
    refine ⟨h5, ?_, h7⟩
    rw [h6]
    apply BitVec.eq_of_toInt_eq
    rw [coordVal_toInt hs hlt]
    omega
  · rintro ⟨h5, rfl, rfl⟩
    have hlt := bitsToNat_lt (i.take (s + 2))
    rw [List.length_take, Nat.min_eq_left h5] at hlt
    have hv := coordVal_toInt hs hlt
    refine ⟨?_, ?_⟩
    · unfold InClass; rw [hv]; omega
    · unfold coord
      rw [hv]
      have : (((bitsToNat (i.take (s + 2)) : Int) - 2 ^ (s + 1)) + 2 ^ (s + 1)).toNat =
          bitsToNat (i.take (s + 2)) := by omega
      rw [this]
      exact (bits_append_iff.2 ⟨h5, rfl, rfl⟩).2

/-- A coordinate read from the next `s + 2` bits. -/
def coordDen (s : Nat) (i : List Bool) : I32 :=
  BitVec.ofNat 32 (bitsToNat (i.take (s + 2))) - 1#32 <<< (s + 1)

/-- The vector at the start of a bit string. -/
def vecDen (net : I32) (i : List Bool) : Except Unit Vector3i × List Bool :=
  if i.length < 5 then (.error (), i)
  else
    let s := (boundedDen (sizeClasses net) i).1
    let j := i.drop (boundedDen (sizeClasses net) i).2
    if j.length < 3 * (s + 2) then (.error (), j)
    else (.ok ⟨coordDen s j, coordDen s (j.drop (s + 2)), coordDen s (j.drop (2 * (s + 2)))⟩,
      j.drop (3 * (s + 2)))

theorem vecDen_short {net : I32} {i : List Bool} (h : i.length < 5) :
    vecDen net i = (.error (), i) := by
  unfold vecDen; rw [if_pos h]

theorem vecDen_eof {net : I32} {i j : List Bool} {s : Nat} (h : ¬ i.length < 5)
    (hs : (boundedDen (sizeClasses net) i).1 = s)
    (hj : i.drop (boundedDen (sizeClasses net) i).2 = j) (hl : j.length < 3 * (s + 2)) :
    vecDen net i = (.error (), j) := by
  unfold vecDen; rw [if_neg h]; simp only [hs, hj, hl, if_true]

theorem vecDen_ok {net : I32} {i j : List Bool} {s : Nat} (h : ¬ i.length < 5)
    (hs : (boundedDen (sizeClasses net) i).1 = s)
    (hj : i.drop (boundedDen (sizeClasses net) i).2 = j) (hl : ¬ j.length < 3 * (s + 2)) :
    vecDen net i =
      (.ok ⟨coordDen s j, coordDen s (j.drop (s + 2)), coordDen s (j.drop (2 * (s + 2)))⟩,
        j.drop (3 * (s + 2))) := by
  unfold vecDen; rw [if_neg h]; simp only [hs, hj, hl, if_false]

theorem vecDen_iff {net : I32} {v : Vector3i} {i o : List Bool} :
    vecDen net i = (.ok v, o) ↔ ofB (Vec3i net) v i o := by
  unfold vecDen
  have hlog := sizeClasses_log2 net
  have hM : 1 ≤ sizeClasses net := by rcases sizeClasses_cases net with h | h <;> omega
  constructor
  · intro h
    by_cases h5 : i.length < 5
    · rw [if_pos h5] at h; cases h
    · rw [if_neg h5] at h
      simp only at h
      have hle := boundedDen_le (sizeClasses net) i
      obtain ⟨hb1, hb2⟩ := (bounded_append_iff (M := sizeClasses net) (i := i)).2
        ⟨by omega, rfl, rfl⟩
      have hs := boundedDen_class net i
      generalize (boundedDen (sizeClasses net) i).1 = s at *
      generalize i.drop (boundedDen (sizeClasses net) i).2 = j at *
      by_cases hj : j.length < 3 * (s + 2)
      · rw [if_pos hj] at h; cases h
      · rw [if_neg hj] at h
        cases h
        obtain ⟨a1, a2⟩ := (coord_append_iff (i := j) hs).2 ⟨by omega, rfl, rfl⟩
        obtain ⟨b1, b2⟩ := (coord_append_iff (i := j.drop (s + 2)) hs).2
          ⟨by rw [List.length_drop]; omega, rfl, rfl⟩
        obtain ⟨c1, c2⟩ := (coord_append_iff (i := j.drop (2 * (s + 2))) hs).2
          ⟨by rw [List.length_drop]; omega, rfl, rfl⟩
        refine ⟨_, ⟨s, by omega, a1, b1, c1, rfl⟩, ?_⟩
        have e1 : (j.drop (s + 2)).drop (s + 2) = j.drop (2 * (s + 2)) := by
          rw [List.drop_drop, ← Nat.two_mul]
        have e2 : (j.drop (2 * (s + 2))).drop (s + 2) = j.drop (3 * (s + 2)) := by
          rw [List.drop_drop]; congr 1; omega
        rw [e1] at b2
        rw [e2] at c2
        simp only [coordDen, List.append_assoc]
        rw [← c2, ← b2, ← a2]
        exact hb2
  · rintro ⟨bs, ⟨s, hs, hx, hy, hz, rfl⟩, hi⟩
    rw [List.append_assoc] at hi
    have hs' : s < 22 := by rcases sizeClasses_cases net with h | h <;> omega
    obtain ⟨b1, b2, b3⟩ := bounded_append_iff.1 ⟨(by omega : s < max (sizeClasses net) 1), hi⟩
    have hle := le_boundedDen (sizeClasses net) i
    rw [List.append_assoc] at b3
    obtain ⟨c1, c2, c3⟩ := (coord_append_iff hs').1 ⟨hx, b3⟩
    rw [List.append_assoc] at c3
    obtain ⟨d1, d2, d3⟩ := (coord_append_iff hs').1 ⟨hy, c3⟩
    obtain ⟨e1, e2, e3⟩ := (coord_append_iff hs').1 ⟨hz, d3⟩
    rw [List.drop_drop, ← Nat.two_mul] at d3 e1 e2 e3
    simp only [b2]
    simp only [List.length_drop] at c1 d1 e1
    rw [if_neg (by omega), if_neg (by rw [List.length_drop]; omega)]
    have h3 : 3 * (s + 2) = s + 2 + 2 * (s + 2) := by omega
    unfold coordDen
    rw [List.drop_drop] at e3
    rw [c2, d2, e2, h3, e3]

/-- The common tail of both decoding paths, with enough lookahead. -/
theorem vec_tail {s : Nat} {env : Env} {j : List Bool} {look : Nat} (hs : s < 22)
    (hv : (⟨j, look⟩ : Reader).Valid) (hlook : s + 2 ≤ look) (hj : 3 * (s + 2) ≤ j.length)
    {check : BM Unit Unit} (hc : ∀ l, 2 * (s + 2) ≤ l → check env ⟨j.drop (s + 2), l⟩ =
      .ok () ⟨j.drop (s + 2), l⟩) :
    ∃ l, l ≤ 63 ∧ l ≤ (j.drop (3 * (s + 2))).length ∧
      (do
        let dx ← peekAndConsume (s + 2)
        refill
        check
        let dy ← peekAndConsume (s + 2)
        let dz ← peekAndConsume (s + 2)
        let x ← subI32 (BitVec.ofNat 32 dx) (1#32 <<< (s + 1))
        let y ← subI32 (BitVec.ofNat 32 dy) (1#32 <<< (s + 1))
        let z ← subI32 (BitVec.ofNat 32 dz) (1#32 <<< (s + 1))
        pure (⟨x, y, z⟩ : Vector3i) : BM Unit Vector3i) env ⟨j, look⟩ =
      .ok ⟨coordDen s j, coordDen s (j.drop (s + 2)), coordDen s (j.drop (2 * (s + 2)))⟩
        ⟨j.drop (3 * (s + 2)), l⟩ := by
  have hv' : (⟨j.drop (s + 2), look - (s + 2)⟩ : Reader).Valid := by
    unfold Reader.Valid at *
    simp only [List.length_drop] at *
    omega
  obtain ⟨l, h1, h2, h3, h4⟩ := refill_run (ε := Unit) env _ hv'
  simp only [List.length_drop] at h1 h3
  have hlt : ∀ k : List Bool, bitsToNat (k.take (s + 2)) < 2 ^ (s + 2) := by
    intro k
    refine Nat.lt_of_lt_of_le (bitsToNat_lt _) (Nat.pow_le_pow_right (by decide) ?_)
    rw [List.length_take]; omega
  rw [BM.bind_ok (peek_run hlook), BM.bind_ok h4, BM.bind_ok (hc l (by omega)),
    BM.bind_ok (peek_run (by omega)), BM.bind_ok (peek_run (by omega)),
    BM.bind_ok (coordVal_sub hs (hlt _)), BM.bind_ok (coordVal_sub hs (hlt _)),
    BM.bind_ok (coordVal_sub hs (hlt _))]
  refine ⟨l - (s + 2) - (s + 2), by omega, ?_, ?_⟩
  · rw [List.length_drop]; omega
  · have e1 : (j.drop (s + 2)).drop (s + 2) = j.drop (2 * (s + 2)) := by
      rw [List.drop_drop, ← Nat.two_mul]
    have e2 : (j.drop (2 * (s + 2))).drop (s + 2) = j.drop (3 * (s + 2)) := by
      rw [List.drop_drop]; congr 1; omega
    unfold coordDen
    rw [e1, e2]
    rfl

theorem eofDecode_run (net : I32) (env : Env) (r : Reader) (hv : r.Valid) :
    ∃ look, look ≤ 63 ∧ look ≤ (vecDen net r.bits).2.length ∧ (vecDen net r.bits).2 <:+ r.bits ∧
      Vector3i.eofDecode net env r =
        BSpec.den (vecDen net r.bits) look := by
  have hlog := sizeClasses_log2 net
  obtain ⟨l, h1, h2, h3, h4⟩ := refill_run (ε := Unit) env r hv
  unfold Vector3i.eofDecode
  rw [BM.bind_ok h4, BM.bind_ok (show lookaheadBits env ⟨r.bits, l⟩ = .ok l ⟨r.bits, l⟩ from rfl)]
  by_cases h5 : r.bits.length < 5
  · rw [vecDen_short h5, if_pos (by omega)]
    exact ⟨l, h2, h3, List.suffix_refl _, rfl⟩
  · rw [if_neg (by omega)]
    have hpk := peekBounded_run (ε := Unit) (M := sizeClasses net) (env := env) (i := r.bits)
      (look := l) (by omega) h3
    rw [hlog] at hpk
    rw [vectorMax_eq, BM.bind_ok hpk]
    have hs := boundedDen_class net r.bits
    have hle := boundedDen_le (sizeClasses net) r.bits
    generalize hsd : (boundedDen (sizeClasses net) r.bits).1 = s at *
    have hsuf : r.bits.drop (boundedDen (sizeClasses net) r.bits).2 <:+ r.bits :=
      List.drop_suffix _ _
    have hjl : (r.bits.drop (boundedDen (sizeClasses net) r.bits).2).length =
      r.bits.length - (boundedDen (sizeClasses net) r.bits).2 := List.length_drop
    generalize hjd : r.bits.drop (boundedDen (sizeClasses net) r.bits).2 = j at *
    rw [BM.bind_ok (show hasBitsRemaining (3 * (s + 2)) env ⟨j, _⟩ = .ok _ ⟨j, _⟩ from rfl)]
    by_cases hj : j.length < 3 * (s + 2)
    · rw [vecDen_eof h5 hsd hjd hj, if_pos (by simp; omega)]
      refine ⟨l - (boundedDen (sizeClasses net) r.bits).2, by omega, ?_, hsuf, rfl⟩
      simp only
      omega
    · rw [vecDen_ok h5 hsd hjd hj, if_neg (by simp; omega)]
      obtain ⟨l', g1, g2, g3⟩ := vec_tail (s := s) (env := env) (j := j)
        (look := l - (boundedDen (sizeClasses net) r.bits).2) hs
        ⟨by simp only; omega, by simp only; omega⟩ (by omega) (by omega)
        (check := do
          let look ← lookaheadBits
          BM.debugAssert (decide (look ≥ (s + 2) * 2)))
        (by
          intro l hl
          rw [BM.bind_ok (show lookaheadBits env _ = .ok l _ from rfl),
            BM.debugAssert_true (by simp; omega)])
      refine ⟨l', g1, g2, (List.drop_suffix _ _).trans hsuf, ?_⟩
      refine Eq.trans ?_ g3
      simp only [bind, BM.bind_assoc]

theorem decode_run (net : I32) (env : Env) (r : Reader) (hv : r.Valid) :
    ∃ look, look ≤ 63 ∧ look ≤ (vecDen net r.bits).2.length ∧ (vecDen net r.bits).2 <:+ r.bits ∧
      Vector3i.decode net env r =
        BSpec.den (vecDen net r.bits) look := by
  unfold Vector3i.decode
  rw [BM.bind_ok (show unbufferedBytes env r = .ok _ r from rfl)]
  by_cases hu : (r.bits.length - r.look) / 8 ≥ 16
  · rw [if_pos hu]
    have hlog := sizeClasses_log2 net
    obtain ⟨l, h1, h2, h3, h4⟩ := refill_run (ε := Unit) env r hv
    rw [BM.bind_ok h4]
    have hpk := peekBounded_run (ε := Unit) (M := sizeClasses net) (env := env) (i := r.bits)
      (look := l) (by omega) h3
    rw [hlog] at hpk
    rw [vectorMax_eq, BM.bind_ok hpk]
    have hs := boundedDen_class net r.bits
    have hle := boundedDen_le (sizeClasses net) r.bits
    generalize hsd : (boundedDen (sizeClasses net) r.bits).1 = s at *
    have hsuf : r.bits.drop (boundedDen (sizeClasses net) r.bits).2 <:+ r.bits :=
      List.drop_suffix _ _
    have hjl : (r.bits.drop (boundedDen (sizeClasses net) r.bits).2).length =
      r.bits.length - (boundedDen (sizeClasses net) r.bits).2 := List.length_drop
    generalize hjd : r.bits.drop (boundedDen (sizeClasses net) r.bits).2 = j at *
    rw [vecDen_ok (by omega) hsd hjd (by omega)]
    obtain ⟨l', g1, g2, g3⟩ := vec_tail (s := s) (env := env) (j := j)
      (look := l - (boundedDen (sizeClasses net) r.bits).2) hs
      ⟨by simp only; omega, by simp only; omega⟩ (by omega) (by omega)
      (check := pure ()) (by intro l hl; rfl)
    exact ⟨l', g1, g2, (List.drop_suffix _ _).trans hsuf, g3⟩
  · rw [if_neg hu]
    exact eofDecode_run net env r hv

theorem BSpec.vec3i {N : Nat} (net : I32) :
    BSpec N (Vector3i.decode net) (ofB (Vec3i net)) :=
  (BSpec.ofFun (vecDen net) fun env r hv _ => decode_run net env r hv).congr
    fun _ _ _ _ => vecDen_iff


theorem inClass_lt {s : Nat} {x : I32} (hs : s < 22) (h : InClass s x) :
    x.toInt.natAbs < 2 ^ 24 := by
  obtain ⟨h1, h2⟩ := pow_class hs
  have h3 : ((2 ^ (s + 1) : Nat) : Int) = 2 ^ (s + 1) := by norm_cast
  unfold InClass at h
  omega

theorem toF_eq {net : I32} {v : Vector3i} {bs : List Bool} (h : Vec3i net v bs) :
    v.toF = ⟨centi v.x, centi v.y, centi v.z⟩ := by
  obtain ⟨s, hs, hx, hy, hz, _⟩ := h
  have hs' : s < 22 := by rcases sizeClasses_cases net with h | h <;> omega
  unfold Vector3i.toF
  rw [F32.fixed100_eq (inClass_lt hs' hx), F32.fixed100_eq (inClass_lt hs' hy), F32.fixed100_eq (inClass_lt hs' hz)]

theorem BSpec.vec3f {N : Nat} (net : I32) :
    BSpec N (Vector3f.decode net) (ofB (Vec3f net)) := by
  refine (BSpec.bind' (BSpec.vec3i net) fun v => BSpec.pure _).congr ?_
  intro a i o _
  constructor
  · rintro ⟨v, j, ⟨bs, hv, rfl⟩, rfl, rfl⟩
    exact ⟨bs, ⟨v, hv, toF_eq hv⟩, rfl⟩
  · rintro ⟨bs, ⟨v, hv, rfl⟩, rfl⟩
    exact ⟨v, o, ⟨bs, hv, rfl⟩, (toF_eq hv).symm, rfl⟩

/-! ### Peeking with a single check in front -/

/-- `m` reads at most `n` bits without checking and describes them by `R`. -/
def Peek {ε α : Type} (n : Nat) (m : BM ε α) (R : BRel α) : Prop :=
  ∀ env i look, n ≤ look → look ≤ i.length → ∃ a k, k ≤ n ∧
    m env ⟨i, look⟩ = .ok a ⟨i.drop k, look - k⟩ ∧
    ∀ a' o', R a' i o' ↔ (a' = a ∧ o' = i.drop k)

namespace Peek

variable {α β : Type} {n k : Nat}

theorem pure (a : α) : Peek 0 (Pure.pure a : BM ε α) (fun b i o => b = a ∧ i = o) := by
  intro env i look _ _
  exact ⟨a, 0, Nat.le_refl _, rfl, by intro a' o'; simp [eq_comm]⟩

theorem peek (n : Nat) :
    Peek n (peekAndConsume n : BM ε Nat) (fun x i o => x < 2 ^ n ∧ i = bits n x ++ o) := by
  intro env i look h1 h2
  refine ⟨_, n, Nat.le_refl _, peek_run h1, ?_⟩
  intro a' o'
  show (_ ∧ _) ↔ _
  rw [bits_append_iff]
  constructor
  · rintro ⟨_, rfl, rfl⟩; exact ⟨rfl, rfl⟩
  · rintro ⟨rfl, rfl⟩; exact ⟨by omega, rfl, rfl⟩

theorem bounded (M : Nat) :
    Peek (M.log2 + 1) (peekBitsMaxComputed M.log2 M : BM ε Nat)
      (fun v i o => v < max M 1 ∧ i = Spec.bounded M v ++ o) := by
  intro env i look h1 h2
  refine ⟨_, _, boundedDen_le M i, peekBounded_run h1 h2, ?_⟩
  intro a' o'
  show (_ ∧ _) ↔ _
  rw [bounded_append_iff]
  have := boundedDen_le M i
  constructor
  · rintro ⟨_, rfl, rfl⟩; exact ⟨rfl, rfl⟩
  · rintro ⟨rfl, rfl⟩; exact ⟨by omega, rfl, rfl⟩

theorem bind {m : BM ε α} {f : α → BM ε β} {R : BRel α} {R' : α → BRel β}
    (h : Peek n m R) (hf : ∀ a i o, R a i o → Peek k (f a) (R' a)) :
    Peek (n + k) (m >>= f) (fun b i o => ∃ a j, R a i j ∧ R' a b j o) := by
  intro env i look h1 h2
  obtain ⟨a, p, hp, hm, hR⟩ := h env i look (by omega) h2
  have hr := (hR a _).2 ⟨rfl, rfl⟩
  obtain ⟨b, q, hq, hm', hR'⟩ := hf a _ _ hr env (i.drop p) (look - p) (by omega)
    (by rw [List.length_drop]; omega)
  refine ⟨b, p + q, by omega, ?_, ?_⟩
  · rw [BM.bind_ok hm, hm', List.drop_drop, Nat.sub_sub]
  · intro a' o'
    constructor
    · rintro ⟨a1, j, h3, h4⟩
      obtain ⟨rfl, rfl⟩ := (hR _ _).1 h3
      obtain ⟨rfl, rfl⟩ := (hR' _ _).1 h4
      exact ⟨rfl, by rw [List.drop_drop]⟩
    · rintro ⟨rfl, rfl⟩
      exact ⟨a, _, hr, (hR' _ _).2 ⟨rfl, by rw [List.drop_drop]⟩⟩

theorem mono {m : BM ε α} {R : BRel α} (h : Peek n m R) (hn : n ≤ k) : Peek k m R := by
  intro env i look h1 h2
  obtain ⟨a, p, hp, hm, hR⟩ := h env i look (by omega) h2
  exact ⟨a, p, by omega, hm, hR⟩

theorem congr {m : BM ε α} {R R' : BRel α} (h : Peek n m R)
    (hR : ∀ a i o, R a i o ↔ R' a i o) : Peek n m R' := by
  intro env i look h1 h2
  obtain ⟨a, p, hp, hm, hR1⟩ := h env i look (by omega) h2
  exact ⟨a, p, by omega, hm, fun a' o' => by rw [← hR, hR1]⟩

/-- A refill, then a check of the lookahead in front of unchecked reads, with an
alternative when the check fails. -/
theorem gate {N : Nat} {m m' : BM ε α} {R : BRel α} (hn : n ≤ 56)
    (h : Peek n m R) (h' : BSpec N m' R) :
    BSpec N (do refill; let look ← lookaheadBits; if look ≥ n then m else m') R := by
  have key : ∀ env r, r.Valid → ∃ l, l ≤ 63 ∧ l ≤ r.bits.length ∧
      (do refill; let look ← lookaheadBits; if look ≥ n then m else m' : BM ε α) env r =
        (if n ≤ r.bits.length then m else m') env ⟨r.bits, l⟩ ∧ (n ≤ r.bits.length → n ≤ l) := by
    intro env r hv
    obtain ⟨l, h1, h2, h3, h4⟩ := refill_run (ε := ε) env r hv
    refine ⟨l, h2, h3, ?_, by omega⟩
    rw [BM.bind_ok h4, BM.bind_ok (show lookaheadBits env ⟨r.bits, l⟩ = .ok l ⟨r.bits, l⟩ from rfl)]
    by_cases hc : n ≤ r.bits.length
    · rw [if_pos hc, if_pos (by omega)]
    · rw [if_neg hc, if_neg (by omega)]
  constructor
  · intro env r hv hl
    obtain ⟨l, h1, h2, h3, h4⟩ := key env r hv
    rw [h3]
    by_cases hc : n ≤ r.bits.length
    · rw [if_pos hc]
      obtain ⟨a, k, hk, hm, _⟩ := h env r.bits l (h4 hc) h2
      rw [hm]
      refine ⟨⟨?_, ?_⟩, List.drop_suffix _ _⟩
      · simp only [List.length_drop]; omega
      · simp only; omega
    · rw [if_neg hc]
      exact h'.good env ⟨r.bits, l⟩ ⟨h2, h1⟩ hl
  · intro env r hv hl a o
    obtain ⟨l, h1, h2, h3, h4⟩ := key env r hv
    rw [h3]
    by_cases hc : n ≤ r.bits.length
    · rw [if_pos hc]
      obtain ⟨b, k, hk, hm, hR⟩ := h env r.bits l (h4 hc) h2
      rw [hm, hR]
      constructor
      · rintro ⟨r', h5, rfl⟩; cases h5; exact ⟨rfl, rfl⟩
      · rintro ⟨rfl, rfl⟩; exact ⟨_, rfl, rfl⟩
    · rw [if_neg hc]
      exact h'.okIff env ⟨r.bits, l⟩ ⟨h2, h1⟩ hl a o
  · intro env env' r r' hv hv' hl he
    obtain ⟨l, h1, h2, h3, h4⟩ := key env r hv
    obtain ⟨l', h1', h2', h3', h4'⟩ := key env' r' hv'
    rw [h3, h3']
    rw [← he] at h2' h4' ⊢
    by_cases hc : n ≤ r.bits.length
    · rw [if_pos hc]
      obtain ⟨b, k, hk, hm, hR⟩ := h env r.bits l (h4 hc) h2
      obtain ⟨b', k', hk', hm', hR'⟩ := h env' r.bits l' (h4' hc) h2'
      rw [hm, hm']
      exact (hR' b _).1 ((hR b _).2 ⟨rfl, rfl⟩)
    · rw [if_neg hc]
      exact h'.agn env env' ⟨r.bits, l⟩ ⟨r.bits, l'⟩ ⟨h2, h1⟩ ⟨h2', h1'⟩ hl rfl

/-- The same, failing when the check fails. -/
theorem gateFail {N : Nat} {m : BM ε α} {R : BRel α} (e : ε) (hn : n ≤ 56)
    (h : Peek n m R) :
    BSpec N (do refill; let look ← lookaheadBits; if look < n then BM.fail e else m)
      (fun a i o => n ≤ i.length ∧ R a i o) := by
  have key : ∀ env r, r.Valid → ∃ l, l ≤ 63 ∧ l ≤ r.bits.length ∧
      (do refill; let look ← lookaheadBits; if look < n then BM.fail e else m : BM ε α) env r =
        (if n ≤ r.bits.length then m else BM.fail e) env ⟨r.bits, l⟩ ∧
        (n ≤ r.bits.length → n ≤ l) := by
    intro env r hv
    obtain ⟨l, h1, h2, h3, h4⟩ := refill_run (ε := ε) env r hv
    refine ⟨l, h2, h3, ?_, by omega⟩
    rw [BM.bind_ok h4, BM.bind_ok (show lookaheadBits env ⟨r.bits, l⟩ = .ok l ⟨r.bits, l⟩ from rfl)]
    by_cases hc : n ≤ r.bits.length
    · rw [if_pos hc, if_neg (by omega)]
    · rw [if_neg hc, if_pos (by omega)]
  constructor
  · intro env r hv hl
    obtain ⟨l, h1, h2, h3, h4⟩ := key env r hv
    rw [h3]
    by_cases hc : n ≤ r.bits.length
    · rw [if_pos hc]
      obtain ⟨a, k, hk, hm, _⟩ := h env r.bits l (h4 hc) h2
      rw [hm]
      refine ⟨⟨?_, ?_⟩, List.drop_suffix _ _⟩
      · simp only [List.length_drop]; omega
      · simp only; omega
    · rw [if_neg hc]
      exact ⟨⟨h2, h1⟩, List.suffix_refl _⟩
  · intro env r hv hl a o
    obtain ⟨l, h1, h2, h3, h4⟩ := key env r hv
    rw [h3]
    by_cases hc : n ≤ r.bits.length
    · rw [if_pos hc]
      obtain ⟨b, k, hk, hm, hR⟩ := h env r.bits l (h4 hc) h2
      rw [hm, hR]
      constructor
      · rintro ⟨r', h5, rfl⟩; cases h5; exact ⟨hc, rfl, rfl⟩
      · rintro ⟨_, rfl, rfl⟩; exact ⟨_, rfl, rfl⟩
    · rw [if_neg hc]
      constructor
      · rintro ⟨r', h5, rfl⟩; cases h5
      · rintro ⟨h5, _⟩; exact absurd h5 hc
  · intro env env' r r' hv hv' hl he
    obtain ⟨l, h1, h2, h3, h4⟩ := key env r hv
    obtain ⟨l', h1', h2', h3', h4'⟩ := key env' r' hv'
    rw [h3, h3']
    rw [← he] at h2' h4' ⊢
    by_cases hc : n ≤ r.bits.length
    · rw [if_pos hc]
      obtain ⟨b, k, hk, hm, hR⟩ := h env r.bits l (h4 hc) h2
      obtain ⟨b', k', hk', hm', hR'⟩ := h env' r.bits l' (h4' hc) h2'
      rw [hm, hm']
      exact (hR' b _).1 ((hR b _).2 ⟨rfl, rfl⟩)
    · rw [if_neg hc]
      exact ⟨rfl, rfl⟩

end Peek

/-! ### Quaternions -/

theorem bits_lt_of_append {n x : Nat} {i o : List Bool} (h : i = bits n x ++ o) : n ≤ i.length := by
  rw [h]; simp

/-- The four places of the omitted component. -/
def quatPlaces (l a b c : Nat) (q : Quaternion) : Prop :=
  let x := quatComp a
  let y := quatComp b
  let z := quatComp c
  let w := quatLargest x y z
  ((l = 0 ∧ q = ⟨w, x, y, z⟩) ∨ (l = 1 ∧ q = ⟨x, w, y, z⟩) ∨ (l = 2 ∧ q = ⟨x, y, w, z⟩) ∨
    (l = 3 ∧ q = ⟨x, y, z, w⟩))

theorem Peek.assemble {l : Nat} (a b c : Nat) (hl : l < 4) :
    Peek 0 (Quaternion.assemble l
      (Quaternion.extra (Quaternion.unpack a) (Quaternion.unpack b) (Quaternion.unpack c))
      (Quaternion.unpack a) (Quaternion.unpack b) (Quaternion.unpack c))
      (fun q i o => quatPlaces l a b c q ∧ i = o) := by
  have hc : l = 0 ∨ l = 1 ∨ l = 2 ∨ l = 3 := by omega
  rcases hc with rfl | rfl | rfl | rfl
  · refine (Peek.pure _).congr fun q i o => ?_
    constructor
    · rintro ⟨rfl, rfl⟩; exact ⟨Or.inl ⟨rfl, rfl⟩, rfl⟩
    · rintro ⟨h, rfl⟩
      rcases h with ⟨_, h⟩ | ⟨h, _⟩ | ⟨h, _⟩ | ⟨h, _⟩
      · exact ⟨h, rfl⟩
      all_goals omega
  · refine (Peek.pure _).congr fun q i o => ?_
    constructor
    · rintro ⟨rfl, rfl⟩; exact ⟨Or.inr (Or.inl ⟨rfl, rfl⟩), rfl⟩
    · rintro ⟨h, rfl⟩
      rcases h with ⟨h, _⟩ | ⟨_, h⟩ | ⟨h, _⟩ | ⟨h, _⟩
      · omega
      · exact ⟨h, rfl⟩
      all_goals omega
  · refine (Peek.pure _).congr fun q i o => ?_
    constructor
    · rintro ⟨rfl, rfl⟩; exact ⟨Or.inr (Or.inr (Or.inl ⟨rfl, rfl⟩)), rfl⟩
    · rintro ⟨h, rfl⟩
      rcases h with ⟨h, _⟩ | ⟨h, _⟩ | ⟨_, h⟩ | ⟨h, _⟩
      · omega
      · omega
      · exact ⟨h, rfl⟩
      · omega
  · refine (Peek.pure _).congr fun q i o => ?_
    constructor
    · rintro ⟨rfl, rfl⟩; exact ⟨Or.inr (Or.inr (Or.inr ⟨rfl, rfl⟩)), rfl⟩
    · rintro ⟨h, rfl⟩
      rcases h with ⟨h, _⟩ | ⟨h, _⟩ | ⟨h, _⟩ | ⟨_, h⟩
      · omega
      · omega
      · omega
      · exact ⟨h, rfl⟩

theorem BSpec.quat {N : Nat} : BSpec N Quaternion.decode (ofB QuatEnc) := by
  refine (Peek.gateFail (n := 56) () (by decide)
    (((Peek.peek 2).bind fun l i o hl => (Peek.peek 18).bind fun a _ _ _ =>
      (Peek.peek 18).bind fun b _ _ _ => (Peek.peek 18).bind (k := 0) fun c _ _ _ =>
        Peek.assemble a b c hl.1))).congr ?_
  intro q i o _
  constructor
  · rintro ⟨_, l, j, ⟨hl, rfl⟩, a, j1, ⟨ha, rfl⟩, b, j2, ⟨hb, rfl⟩, c, j3, ⟨hc, rfl⟩, hq, rfl⟩
    exact ⟨_, ⟨l, a, b, c, ha, hb, hc, rfl, hq⟩, by simp⟩
  · rintro ⟨bs, ⟨l, a, b, c, ha, hb, hc, rfl, hq⟩, rfl⟩
    refine ⟨by simp; omega, l, _, ⟨?_, List.append_assoc _ _ _⟩, a, _,
      ⟨ha, List.append_assoc _ _ _⟩, b, _, ⟨hb, List.append_assoc _ _ _⟩, c, _, ⟨hc, rfl⟩, hq, rfl⟩
    rcases hq with h | h | h | h <;> rw [h.1] <;> decide

theorem compressed_sum {x : Nat} (h : x < 2 ^ 16) (env : Env) (r : Reader) :
    addI32 (ε := ε) (BitVec.ofNat 32 x) (BitVec.ofInt 32 (-32768)) env r =
      .ok (BitVec.ofNat 32 x + BitVec.ofInt 32 (-32768)) r ∧
    (BitVec.ofNat 32 x + BitVec.ofInt 32 (-32768)).toInt = (x : Int) - 32768 := by
  have h1 : (BitVec.ofNat 32 x).toInt = x := by
    rw [BitVec.toInt_ofNat', Int.bmod_eq_of_le (by omega) (by omega)]
  have h2 : (BitVec.ofInt 32 (-32768)).toInt = -32768 := by decide
  constructor
  · have : BitVec.saddOverflow (BitVec.ofNat 32 x) (BitVec.ofInt 32 (-32768)) = false := by
      unfold BitVec.saddOverflow
      rw [h1, h2]
      simp only [Bool.or_eq_false_iff, decide_eq_false_iff_not]
      omega
    unfold addI32
    rw [this]
    simp
  · rw [BitVec.toInt_add, h1, h2, Int.bmod_eq_of_le (by omega) (by omega)]
    omega

theorem Peek.compressed : Peek 16 Quaternion.compressedF32
    (fun f i o => ∃ n, n < 2 ^ 16 ∧ i = bits 16 n ++ o ∧ f = oldQuatComp n) := by
  intro env i look h1 h2
  unfold Quaternion.compressedF32
  have hlt := bitsToNat_lt (i.take 16)
  rw [List.length_take, Nat.min_eq_left (by omega)] at hlt
  obtain ⟨hs1, hs2⟩ := compressed_sum (ε := Unit) hlt env ⟨i.drop 16, look - 16⟩
  refine ⟨oldQuatComp (bitsToNat (i.take 16)), 16, Nat.le_refl _, ?_, ?_⟩
  · rw [BM.bind_ok (peek_run h1), BM.bind_ok hs1]
    unfold Quaternion.compressedVal
    rw [hs2]
    rfl
  · intro f o
    constructor
    · rintro ⟨n, hn, hi, rfl⟩
      obtain ⟨_, rfl, rfl⟩ := bits_append_iff.1 ⟨hn, hi⟩
      exact ⟨rfl, rfl⟩
    · rintro ⟨rfl, rfl⟩
      obtain ⟨a, b⟩ := bits_append_iff.2 ⟨by omega, rfl, (rfl : i.drop 16 = _)⟩
      exact ⟨_, a, b, rfl⟩

theorem Peek.gateFail' {N n : Nat} {α : Type} {m : BM ε α} {R : BRel α} (e : ε) (hn : n ≤ 56)
    (h : Peek n m R) :
    BSpec N (do refill; let look ← lookaheadBits; if look ≥ n then m else BM.fail e)
      (fun a i o => n ≤ i.length ∧ R a i o) := by
  have := Peek.gateFail (N := N) e hn h
  have he : (fun look => if look ≥ n then m else BM.fail e) =
      (fun look => if look < n then BM.fail e else m) := by
    funext look
    by_cases hc : look < n
    · rw [if_pos hc, if_neg (by omega)]
    · rw [if_neg hc, if_pos (by omega)]
  rw [he]
  exact this

theorem BSpec.oldQuat {N : Nat} : BSpec N Quaternion.decodeCompressed (ofB OldQuatEnc) := by
  refine (Peek.gateFail' (n := 48) () (by decide)
    (Peek.compressed.bind fun a _ _ _ => Peek.compressed.bind fun b _ _ _ =>
      Peek.compressed.bind fun c _ _ _ => Peek.pure _)).congr ?_
  intro q i o _
  constructor
  · rintro ⟨_, _, _, ⟨a, ha, rfl, rfl⟩, _, _, ⟨b, hb, rfl, rfl⟩, _, _, ⟨c, hc, rfl, rfl⟩, rfl, rfl⟩
    exact ⟨_, ⟨a, b, c, ha, hb, hc, rfl, rfl⟩, by simp⟩
  · rintro ⟨bs, ⟨a, b, c, ha, hb, hc, rfl, rfl⟩, rfl⟩
    exact ⟨by simp; omega, _, _, ⟨a, ha, List.append_assoc _ _ _, rfl⟩, _, _,
      ⟨b, hb, List.append_assoc _ _ _, rfl⟩, _, _, ⟨c, hc, rfl, rfl⟩, rfl, rfl⟩

/-! ### Rotations -/

theorem Peek.optByte {β : Type} {k : Nat} {f : Nat → Nat → BM ε β} {R : Option (BitVec 8) → BRel β}
    (h0 : Peek k (f 0 0) (R none))
    (h1 : ∀ x, x < 256 → Peek k (f 1 x) (R (some (BitVec.ofNat 8 x)))) :
    Peek (9 + k) (do
      let has ← peekAndConsume 1
      let v ← peekAndConsume (has <<< 3)
      f has v) (fun b i o => ∃ v j, i = opt (field 8) v ++ j ∧ R v b j o) := by
  have key : ∀ (has : Nat) (i o : List Bool), (has < 2 ^ 1 ∧ i = bits 1 has ++ o) →
      Peek (8 + k) (do let v ← peekAndConsume (has <<< 3); f has v)
        (fun b i o => if has = 0 then R none b i o
          else ∃ x : BitVec 8, ∃ j, i = field 8 x ++ j ∧ R (some x) b j o) := by
    intro has i o h
    have hc : has = 0 ∨ has = 1 := by have := h.1; omega
    rcases hc with rfl | rfl
    · refine (((Peek.peek 0).bind fun a _ _ ha => (?_ : Peek k (f 0 a) (R none))).mono
        (by omega)).congr ?_
      · have : a = 0 := by have := ha.1; omega
        rw [this]; exact h0
      · intro b i o
        rw [if_pos rfl]
        constructor
        · rintro ⟨x, j, ⟨hx, rfl⟩, hr⟩; exact hr
        · intro hr; exact ⟨0, i, ⟨by decide, rfl⟩, hr⟩
    · refine ((Peek.peek 8).bind fun a _ _ ha => h1 a ha.1).congr ?_
      intro b i o
      rw [if_neg (by decide)]
      constructor
      · rintro ⟨x, j, ⟨hx, rfl⟩, hr⟩
        refine ⟨BitVec.ofNat 8 x, j, ?_, hr⟩
        unfold field
        rw [BitVec.toNat_ofNat, Nat.mod_eq_of_lt hx]
      · rintro ⟨x, j, rfl, hr⟩
        refine ⟨x.toNat, j, ⟨x.isLt, rfl⟩, ?_⟩
        rw [BitVec.ofNat_toNat, BitVec.setWidth_eq]
        exact hr
  refine ((((Peek.peek 1).bind key)).mono (by omega)).congr ?_
  intro b i o
  constructor
  · rintro ⟨has, j, ⟨hh, rfl⟩, hr⟩
    have hc : has = 0 ∨ has = 1 := by omega
    rcases hc with rfl | rfl
    · rw [if_pos rfl] at hr
      exact ⟨none, j, rfl, hr⟩
    · rw [if_neg (by decide)] at hr
      obtain ⟨x, j', rfl, hr⟩ := hr
      exact ⟨some x, j', rfl, hr⟩
  · rintro ⟨v, j, rfl, hr⟩
    cases v with
    | none => exact ⟨0, j, ⟨by decide, rfl⟩, by rw [if_pos rfl]; exact hr⟩
    | some x =>
      exact ⟨1, field 8 x ++ j, ⟨by decide, rfl⟩, by rw [if_neg (by decide)]; exact ⟨x, j, rfl, hr⟩⟩

theorem Peek.lastByte (y p : Option (BitVec 8)) :
    Peek (9 + 0) (do
      let hasRoll ← peekAndConsume 1
      let roll ← peekAndConsume (hasRoll <<< 3)
      Pure.pure ⟨y, p, if hasRoll ≠ 0 then some (BitVec.ofNat 8 roll) else none⟩ : BM ε Rotation)
      (fun r k o => ∃ l m, k = opt (field 8) l ++ m ∧ r = (⟨y, p, l⟩ : Rotation) ∧ m = o) :=
  Peek.optByte
    (R := fun l r m o => r = (⟨y, p, l⟩ : Rotation) ∧ m = o)
    (f := fun hl l => Pure.pure (⟨y, p,
      if hl ≠ 0 then some (BitVec.ofNat 8 l) else none⟩ : Rotation))
    (Peek.pure _) (fun _ _ => Peek.pure _)

theorem BSpec.rotation {N : Nat} :
    BSpec N Rotation.decode (fun r i o => i = rotation r ++ o) := by
  have slow : BSpec N (do
      let yaw ← Boxcars.ifGet Boxcars.readU8
      let pitch ← Boxcars.ifGet Boxcars.readU8
      let roll ← Boxcars.ifGet Boxcars.readU8
      Pure.pure (⟨yaw, pitch, roll⟩ : Rotation)) (fun r i o => i = Spec.rotation r ++ o) := by
    refine (BSpec.bind' (BSpec.ifGet BSpec.readU8) fun y => BSpec.bind' (BSpec.ifGet BSpec.readU8)
      fun p => BSpec.bind' (BSpec.ifGet BSpec.readU8) fun l => BSpec.pure _).congr ?_
    intro r i o _
    constructor
    · rintro ⟨y, _, rfl, p, _, rfl, l, _, rfl, rfl, rfl⟩
      simp [Spec.rotation]
    · rintro rfl
      exact ⟨r.yaw, _, List.append_assoc _ _ _, r.pitch, _, List.append_assoc _ _ _, r.roll, o, rfl, rfl, rfl⟩
  refine Peek.gate (n := 27) (by decide) (Peek.congr (n := 9 + (9 + (9 + 0)))
    (R := fun r i o => ∃ y j, i = opt (field 8) y ++ j ∧ ∃ p k, j = opt (field 8) p ++ k ∧
      ∃ l m, k = opt (field 8) l ++ m ∧ r = (⟨y, p, l⟩ : Rotation) ∧ m = o) ?_ ?_) slow
  · refine Peek.optByte
      (R := fun y r j o => ∃ p k, j = opt (field 8) p ++ k ∧
        ∃ l m, k = opt (field 8) l ++ m ∧ r = (⟨y, p, l⟩ : Rotation) ∧ m = o)
      (f := fun hy y => do
        let hasPitch ← peekAndConsume 1
        let pitch ← peekAndConsume (hasPitch <<< 3)
        let hasRoll ← peekAndConsume 1
        let roll ← peekAndConsume (hasRoll <<< 3)
        Pure.pure ⟨if hy ≠ 0 then some (BitVec.ofNat 8 y) else none,
          if hasPitch ≠ 0 then some (BitVec.ofNat 8 pitch) else none,
          if hasRoll ≠ 0 then some (BitVec.ofNat 8 roll) else none⟩) ?_ ?_
    · refine Peek.optByte
        (R := fun p r k o => ∃ l m, k = opt (field 8) l ++ m ∧ r = (⟨none, p, l⟩ : Rotation) ∧ m = o)
        (f := fun hp p => do
          let hasRoll ← peekAndConsume 1
          let roll ← peekAndConsume (hasRoll <<< 3)
          Pure.pure ⟨none, if hp ≠ 0 then some (BitVec.ofNat 8 p) else none,
            if hasRoll ≠ 0 then some (BitVec.ofNat 8 roll) else none⟩) ?_ ?_
      · exact Peek.lastByte _ _
      · intro p _
        exact Peek.lastByte _ _
    · intro y _
      refine Peek.optByte
        (R := fun p r k o => ∃ l m, k = opt (field 8) l ++ m ∧
          r = (⟨some (BitVec.ofNat 8 y), p, l⟩ : Rotation) ∧ m = o)
        (f := fun hp p => do
          let hasRoll ← peekAndConsume 1
          let roll ← peekAndConsume (hasRoll <<< 3)
          Pure.pure ⟨some (BitVec.ofNat 8 y), if hp ≠ 0 then some (BitVec.ofNat 8 p) else none,
            if hasRoll ≠ 0 then some (BitVec.ofNat 8 roll) else none⟩) ?_ ?_
      · exact Peek.lastByte _ _
      · intro p _
        exact Peek.lastByte _ _
  · intro r i o
    constructor
    · rintro ⟨y, _, rfl, p, _, rfl, l, _, rfl, rfl, rfl⟩
      simp [Spec.rotation]
    · rintro rfl
      exact ⟨r.yaw, _, List.append_assoc _ _ _, r.pitch, _, List.append_assoc _ _ _, r.roll, o, rfl, rfl, rfl⟩

theorem BSpec.spawn {N : Nat} (net : I32) (sp : SpawnTrajectory) :
    BSpec N (Trajectory.fromSpawn sp net) (ofB (SpawnEnc net sp)) := by
  cases sp with
  | none =>
    refine (BSpec.pure _).congr fun t i o _ => ?_
    constructor
    · rintro ⟨rfl, rfl⟩; exact ⟨[], ⟨rfl, rfl⟩, rfl⟩
    · rintro ⟨_, ⟨rfl, rfl⟩, rfl⟩; exact ⟨rfl, rfl⟩
  | location =>
    refine (BSpec.bind' (BSpec.vec3i net) fun v => BSpec.pure _).congr fun t i o _ => ?_
    constructor
    · rintro ⟨v, _, ⟨b, hv, rfl⟩, rfl, rfl⟩; exact ⟨b, ⟨v, hv, rfl⟩, rfl⟩
    · rintro ⟨b, ⟨v, hv, rfl⟩, rfl⟩; exact ⟨v, _, ⟨b, hv, rfl⟩, rfl, rfl⟩
  | locationAndRotation =>
    refine (BSpec.bind' (BSpec.vec3i net) fun v => BSpec.bind' BSpec.rotation fun r =>
      BSpec.pure _).congr fun t i o _ => ?_
    constructor
    · rintro ⟨v, _, ⟨b, hv, rfl⟩, r, _, rfl, rfl, rfl⟩
      exact ⟨_, ⟨v, r, b, hv, rfl, rfl⟩, by simp⟩
    · rintro ⟨_, ⟨v, r, b, hv, rfl, rfl⟩, rfl⟩
      exact ⟨v, _, ⟨b, hv, List.append_assoc _ _ _⟩, r, _, rfl, rfl, rfl⟩

end Boxcars
