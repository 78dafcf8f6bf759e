import Verif.Proofs.BSpec
/-!
# Specifications of the primitive bit readers
-/
namespace Boxcars
open Spec

/-! ### Bit strings -/

@[simp] theorem bits_length (n x : Nat) : (bits n x).length = n := by
  induction n generalizing x with
  | zero => rfl
  | succ n ih => simp [bits, ih]

theorem bitsToNat_bits (n x : Nat) : bitsToNat (bits n x) = x % 2 ^ n := by
  induction n generalizing x with
  | zero => simp [bits, bitsToNat, Nat.mod_one]
  | succ n ih =>
    rw [bits, bitsToNat, ih, Nat.pow_succ, Nat.mul_comm (2 ^ n) 2, Nat.mod_mul,
      Nat.testBit_zero]
    congr 1
    rcases Nat.mod_two_eq_zero_or_one x with h | h <;> simp [h]

theorem bitsToNat_lt (l : List Bool) : bitsToNat l < 2 ^ l.length := by
  induction l with
  | nil => simp [bitsToNat]
  | cons b l ih =>
    rw [bitsToNat, List.length_cons, Nat.pow_succ]
    cases b <;> simp <;> omega

theorem bits_bitsToNat (l : List Bool) : bits l.length (bitsToNat l) = l := by
  induction l with
  | nil => rfl
  | cons b l ih =>
    rw [List.length_cons, bits, bitsToNat]
    congr 1
    · rw [Nat.testBit_zero]
      cases b <;> simp <;> omega
    · have : (b.toNat + 2 * bitsToNat l) / 2 = bitsToNat l := by cases b <;> simp <;> omega
      rw [this, ih]

theorem bits_mod (n x : Nat) : bits n (x % 2 ^ n) = bits n x := by
  have := bits_bitsToNat (bits n x)
  rwa [bits_length, bitsToNat_bits] at this

/-- The first `n` bits of a bit string. -/
theorem bits_append_iff {n x : Nat} {i o : List Bool} :
    (x < 2 ^ n ∧ i = bits n x ++ o) ↔
      (n ≤ i.length ∧ bitsToNat (i.take n) = x ∧ i.drop n = o) := by
  constructor
  · rintro ⟨hx, rfl⟩
    refine ⟨by simp, ?_, ?_⟩
    · rw [List.take_left' (bits_length n x), bitsToNat_bits, Nat.mod_eq_of_lt hx]
    · rw [List.drop_left' (bits_length n x)]
  · rintro ⟨hn, rfl, rfl⟩
    have hl : (i.take n).length = n := by simp; omega
    refine ⟨by have := bitsToNat_lt (i.take n); rwa [hl] at this, ?_⟩
    have := bits_bitsToNat (i.take n)
    rw [hl] at this
    rw [this, List.take_append_drop]

theorem field_length (w : Nat) (x : BitVec w) : (field w x).length = w := bits_length _ _

theorem field_append_iff {w : Nat} {x : BitVec w} {i o : List Bool} :
    i = field w x ++ o ↔
      (w ≤ i.length ∧ BitVec.ofNat w (bitsToNat (i.take w)) = x ∧ i.drop w = o) := by
  have h := bits_append_iff (n := w) (x := x.toNat) (i := i) (o := o)
  constructor
  · intro he
    obtain ⟨h1, h2, h3⟩ := h.1 ⟨x.isLt, he⟩
    refine ⟨h1, ?_, h3⟩
    rw [h2, BitVec.ofNat_toNat, BitVec.setWidth_eq]
  · rintro ⟨h1, h2, h3⟩
    refine (h.2 ⟨h1, ?_, h3⟩).2
    rw [← h2, BitVec.toNat_ofNat]
    have := bitsToNat_lt (i.take w)
    rw [List.length_take, Nat.min_eq_left h1] at this
    rw [Nat.mod_eq_of_lt this]

namespace BSpec

variable {N : Nat}

theorem readBits (n : Nat) :
    BSpec N (readBits n) (fun x i o => x < 2 ^ n ∧ i = bits n x ++ o) := by
  refine (BSpec.ofFun (fun i => if n ≤ i.length then (.ok (bitsToNat (i.take n)), i.drop n)
    else (.error (), i)) ?_).congr ?_
  · intro env r hv hl
    unfold Boxcars.readBits
    by_cases hn : n ≤ r.bits.length
    · simp only [if_pos hn]
      have := env.afterRead_le r.bits.length r.look n hn
      refine ⟨_, ?_, ?_, ?_, rfl⟩
      · omega
      · simp only [List.length_drop]; omega
      · exact List.drop_suffix _ _
    · simp only [if_neg hn]
      exact ⟨r.look, hv.2, hv.1, List.suffix_refl _, rfl⟩
  · intro x i o _
    rw [bits_append_iff]
    by_cases hn : n ≤ i.length
    · simp [hn]
    · simp [hn]

theorem readBit : BSpec N readBit (fun b i o => i = b :: o) := by
  refine (BSpec.bind' (readBits 1) (fun x => BSpec.pure _)).congr ?_
  intro b i o _
  constructor
  · rintro ⟨x, j, ⟨hx, rfl⟩, rfl, rfl⟩
    have : x = 0 ∨ x = 1 := by omega
    rcases this with rfl | rfl <;> rfl
  · rintro rfl
    cases b
    · exact ⟨0, o, ⟨by decide, rfl⟩, rfl, rfl⟩
    · exact ⟨1, o, ⟨by decide, rfl⟩, rfl, rfl⟩

/-- Reading a fixed width field. -/
theorem readField (w : Nat) :
    BSpec N (do let x ← Boxcars.readBits w; Pure.pure (BitVec.ofNat w x))
      (fun x i o => i = field w x ++ o) := by
  refine (BSpec.bind' (readBits w) (fun x => BSpec.pure _)).congr ?_
  intro b i o _
  constructor
  · rintro ⟨x, j, ⟨hx, rfl⟩, rfl, rfl⟩
    rw [field, BitVec.toNat_ofNat, Nat.mod_eq_of_lt hx]
  · rintro rfl
    refine ⟨b.toNat, o, ⟨b.isLt, rfl⟩, ?_, rfl⟩
    rw [BitVec.ofNat_toNat, BitVec.setWidth_eq]

theorem readU8 : BSpec N readU8 (fun x i o => i = field 8 x ++ o) := readField 8
theorem readU32 : BSpec N readU32 (fun x i o => i = field 32 x ++ o) := readField 32
theorem readU64 : BSpec N readU64 (fun x i o => i = field 64 x ++ o) := readField 64

theorem bytes_cons (b : Byte) (bs : List Byte) : bytes (b :: bs) = field 8 b ++ bytes bs := rfl

theorem bytes_length (bs : List Byte) : (bytes bs).length = 8 * bs.length := by
  induction bs with
  | nil => rfl
  | cons b bs ih => rw [bytes_cons, List.length_append, field_length, ih, List.length_cons]; omega

theorem bytes_append_iff {n : Nat} {bs : List Byte} {i o : List Bool} :
    (bs.length = n ∧ i = bytes bs ++ o) ↔
      (8 * n ≤ i.length ∧ bytesOfBits n i = bs ∧ i.drop (8 * n) = o) := by
  induction n generalizing bs i with
  | zero =>
    simp only [bytesOfBits, Nat.mul_zero, Nat.zero_le, List.drop_zero, true_and,
      List.length_eq_zero_iff]
    constructor
    · rintro ⟨rfl, rfl⟩; exact ⟨rfl, rfl⟩
    · rintro ⟨rfl, rfl⟩; exact ⟨rfl, rfl⟩
  | succ n ih =>
    constructor
    · rintro ⟨hb, hi⟩
      cases bs with
      | nil => simp at hb
      | cons b bs =>
        rw [bytes_cons, List.append_assoc] at hi
        obtain ⟨h1, h2, h3⟩ := field_append_iff.1 hi
        obtain ⟨h4, h5, h6⟩ := ih.1 ⟨by simpa using hb, h3⟩
        rw [List.length_drop] at h4
        refine ⟨by omega, ?_, ?_⟩
        · rw [bytesOfBits, h2, h5]
        · rw [← h6, List.drop_drop]
          congr 1
          omega
    · rintro ⟨h1, h2, h3⟩
      rw [bytesOfBits] at h2
      subst h2
      obtain ⟨h4, h5⟩ := (ih (bs := bytesOfBits n (i.drop 8)) (i := i.drop 8)).2
        ⟨by rw [List.length_drop]; omega, rfl, by rw [List.drop_drop, ← h3]; congr 1; omega⟩
      refine ⟨by rw [List.length_cons, h4], ?_⟩
      rw [bytes_cons, List.append_assoc]
      exact field_append_iff.2 ⟨by omega, rfl, h5⟩

theorem readBytes (n : Nat) :
    BSpec N (readBytes n) (fun bs i o => bs.length = n ∧ i = bytes bs ++ o) := by
  refine (BSpec.ofFun (fun i => if 8 * n ≤ i.length then (.ok (bytesOfBits n i), i.drop (8 * n))
    else (.error (), i)) ?_).congr ?_
  · intro env r hv hl
    unfold Boxcars.readBytes
    by_cases hn : 8 * n ≤ r.bits.length
    · simp only [if_pos hn]
      have := env.afterRead_le r.bits.length r.look (8 * n) hn
      refine ⟨_, ?_, ?_, ?_, rfl⟩
      · omega
      · simp only [List.length_drop]; omega
      · exact List.drop_suffix _ _
    · simp only [if_neg hn]
      exact ⟨r.look, hv.2, hv.1, List.suffix_refl _, rfl⟩
  · intro x i o _
    rw [bytes_append_iff]
    by_cases hn : 8 * n ≤ i.length
    · simp [hn]
    · simp [hn]

theorem ifGet {α : Type} {f : BM Unit α} {enc : α → List Bool}
    (h : BSpec N f (fun a i o => i = enc a ++ o)) :
    BSpec N (ifGet f) (fun a i o => i = opt enc a ++ o) := by
  unfold Boxcars.ifGet
  refine (BSpec.bind' readBit (fun b => BSpec.ite (fun _ => BSpec.bind' h (fun x => BSpec.pure _))
    (fun _ => BSpec.pure _))).congr ?_
  intro a i o _
  constructor
  · rintro ⟨b, j, rfl, h⟩
    cases b with
    | true =>
      rw [if_pos rfl] at h
      obtain ⟨x, k, rfl, rfl, rfl⟩ := h
      rfl
    | false =>
      rw [if_neg (by decide)] at h
      obtain ⟨rfl, rfl⟩ := h
      rfl
  · rintro rfl
    cases a with
    | none => exact ⟨false, _, rfl, by rw [if_neg (by decide)]; exact ⟨rfl, rfl⟩⟩
    | some x => exact ⟨true, _, rfl, by rw [if_pos rfl]; exact ⟨x, o, rfl, rfl, rfl⟩⟩

theorem optWhen {α : Type} {c : Bool} {f : BM Unit α} {R : BRel α} (h : c = true → BSpec N f R) :
    BSpec N (if c then do let x ← f; Pure.pure (some x) else Pure.pure none : BM Unit (Option α))
      (fun a i o => if c then ∃ x, a = some x ∧ R x i o else a = none ∧ i = o) := by
  cases c with
  | false => exact (BSpec.pure _)
  | true =>
    refine (BSpec.bind' (h rfl) (fun x => BSpec.pure _)).congr ?_
    intro a i o _
    constructor
    · rintro ⟨x, j, hr, rfl, rfl⟩; exact ⟨x, rfl, hr⟩
    · rintro ⟨x, rfl, hr⟩; exact ⟨x, o, hr, rfl, rfl⟩

/-- The body of a counted list. -/
inductive Many {α : Type} (R : BRel α) : List α → List Bool → List Bool → Prop where
  | nil {i} : Many R [] i i
  | cons {x xs i j o} : R x i j → Many R xs j o → Many R (x :: xs) i o

theorem replicate {ε α : Type} {f : BM ε α} {R : BRel α} (n : Nat) (h : BSpec N f R) :
    BSpec N (replicateBM n f) (fun xs i o => xs.length = n ∧ Many R xs i o) := by
  induction n with
  | zero =>
    refine (BSpec.pure (ε := ε) ([] : List α)).congr ?_
    intro xs i o _
    constructor
    · rintro ⟨rfl, rfl⟩; exact ⟨rfl, .nil⟩
    · rintro ⟨h1, h2⟩
      cases h2 with
      | nil => exact ⟨rfl, rfl⟩
      | cons => simp at h1
  | succ n ih =>
    refine (BSpec.bind' h (fun a => BSpec.bind' ih (fun rest => BSpec.pure (a :: rest)))).congr ?_
    intro xs i o _
    constructor
    · rintro ⟨a, j, h1, xs', k, ⟨h2, h3⟩, rfl, rfl⟩
      exact ⟨by simp [h2], .cons h1 h3⟩
    · rintro ⟨h1, h2⟩
      cases h2 with
      | nil => simp at h1
      | cons h3 h4 => exact ⟨_, _, h3, _, _, ⟨by simpa using h1, h4⟩, rfl, rfl⟩

end BSpec

/-! ### Peeking -/

variable {ε : Type}

theorem peek_run {n : Nat} {env : Env} {i : List Bool} {look : Nat} (h : n ≤ look) :
    peekAndConsume (ε := ε) n env ⟨i, look⟩ = .ok (bitsToNat (i.take n)) ⟨i.drop n, look - n⟩ := by
  simp only [peekAndConsume, h, if_true]

/-- What a refill guarantees. -/
theorem refill_run (env : Env) (r : Reader) (hv : r.Valid) :
    ∃ look, min 56 r.bits.length ≤ look ∧ look ≤ 63 ∧ look ≤ r.bits.length ∧
      refill (ε := ε) env r = .ok () ⟨r.bits, look⟩ := by
  have h1 := env.refill_ge r.bits.length r.look hv.1 hv.2
  have h2 := env.refill_le r.bits.length r.look hv.1 hv.2
  exact ⟨_, h1, by omega, by omega, rfl⟩

/-! ### Bounded integers -/

theorem BM.bind_ok {α β : Type} {m : BM ε α} {f : α → BM ε β} {env : Env} {r r' : Reader} {a : α}
    (h : m env r = .ok a r') : (m >>= f) env r = f a env r' := by
  show BM.bind m f env r = _
  unfold BM.bind
  rw [h]

theorem BM.bind_err {α β : Type} {m : BM ε α} {f : α → BM ε β} {env : Env} {r r' : Reader} {e : ε}
    (h : m env r = .err e r') : (m >>= f) env r = .err e r' := by
  show BM.bind m f env r = _
  unfold BM.bind
  rw [h]

theorem BM.debugAssert_true {c : Bool} {env : Env} {r : Reader} (h : c = true) :
    BM.debugAssert (ε := ε) c env r = .ok () r := by
  unfold BM.debugAssert
  rw [h]
  simp

/-- Value of a bounded integer and the number of bits it takes. -/
def boundedDen (M : Nat) (i : List Bool) : Nat × Nat :=
  if M ≤ bitsToNat (i.take M.log2) + 2 ^ M.log2 then (bitsToNat (i.take M.log2), M.log2)
  else (if i.getD M.log2 false then bitsToNat (i.take M.log2) + 2 ^ M.log2
    else bitsToNat (i.take M.log2), M.log2 + 1)

theorem boundedDen_le (M : Nat) (i : List Bool) : (boundedDen M i).2 ≤ M.log2 + 1 := by
  unfold boundedDen
  split <;> simp

theorem le_boundedDen (M : Nat) (i : List Bool) : M.log2 ≤ (boundedDen M i).2 := by
  unfold boundedDen
  split <;> simp

theorem boundedDen_lt (M : Nat) (i : List Bool) : (boundedDen M i).1 < max M 1 := by
  unfold boundedDen
  have h1 := bitsToNat_lt (i.take M.log2)
  have h2 : 2 ^ (i.take M.log2).length ≤ 2 ^ M.log2 :=
    Nat.pow_le_pow_right (by decide) (by simp; omega)
  by_cases h0 : M = 0
  · have h4 : M.log2 = 0 := by rw [h0]; rfl
    rw [if_pos (by omega), h4]
    simp [bitsToNat]
    omega
  · have h3 := Nat.log2_self_le h0
    split
    · simp only; omega
    · split <;> simp only <;> omega

theorem bounded_length_le (M v : Nat) : (bounded M v).length ≤ M.log2 + 1 := by
  unfold bounded
  split <;> simp

theorem getD_split {i : List Bool} {k : Nat} (h : k < i.length) :
    i.drop k = i.getD k false :: i.drop (k + 1) := by
  rw [List.drop_eq_getElem_cons h, List.getD_eq_getElem?_getD, List.getElem?_eq_getElem h]
  rfl

/-- The encoding of a bounded integer at the start of a bit string. -/
theorem bounded_append_iff {M v : Nat} {i o : List Bool} :
    (v < max M 1 ∧ i = bounded M v ++ o) ↔
      ((boundedDen M i).2 ≤ i.length ∧ (boundedDen M i).1 = v ∧
        i.drop (boundedDen M i).2 = o) := by
  have hk : M < 2 ^ M.log2 * 2 := by rw [← Nat.pow_succ]; exact Nat.lt_log2_self
  have h3 : M ≠ 0 → 2 ^ M.log2 ≤ M := fun h => Nat.log2_self_le h
  have h4 : M = 0 → M.log2 = 0 := by rintro rfl; rfl
  have hpos : 0 < 2 ^ M.log2 := Nat.pow_pos (by decide)
  constructor
  · rintro ⟨hv, rfl⟩
    have hv' : v < 2 ^ M.log2 * 2 := by omega
    have hmod : v % 2 ^ M.log2 = v ∨ v % 2 ^ M.log2 + 2 ^ M.log2 = v := by
      rcases Nat.lt_or_ge v (2 ^ M.log2) with h | h
      · exact Or.inl (Nat.mod_eq_of_lt h)
      · right
        rw [Nat.mod_eq_sub_mod h, Nat.mod_eq_of_lt (by omega)]
        omega
    have hlt := Nat.mod_lt v hpos
    have htake : bitsToNat ((bounded M v ++ o).take M.log2) = v % 2 ^ M.log2 := by
      unfold bounded
      rw [List.append_assoc, List.take_left' (bits_length _ _), bitsToNat_bits]
    unfold boundedDen
    rw [htake]
    by_cases hc : v % 2 ^ M.log2 + 2 ^ M.log2 < M
    · have hb : bounded M v = bits M.log2 v ++ [decide (2 ^ M.log2 ≤ v)] := by
        unfold bounded; rw [if_pos hc]
      have hl : (bounded M v).length = M.log2 + 1 := by rw [hb]; simp
      rw [if_neg (by omega)]
      simp only
      refine ⟨by simp [hl], ?_, ?_⟩
      · have : (bounded M v ++ o).getD M.log2 false = decide (2 ^ M.log2 ≤ v) := by
          rw [hb, List.append_assoc, List.getD_eq_getElem?_getD, List.getElem?_append_right (by simp)]
          simp
        rw [this]
        by_cases h : 2 ^ M.log2 ≤ v
        · rw [decide_eq_true h]; simp only [if_true]; omega
        · rw [decide_eq_false h]; simp; omega
      · rw [List.drop_left' hl]
    · have hb : bounded M v = bits M.log2 v := by
        unfold bounded; rw [if_neg hc]; simp
      have hl : (bounded M v).length = M.log2 := by rw [hb]; simp
      rw [if_pos (by omega)]
      simp only
      refine ⟨by simp [hl], ?_, ?_⟩
      · by_cases h1 : M ≤ 1
        · have : v = 0 := by omega
          rw [this]; simp
        · omega
      · rw [List.drop_left' hl]
  · rintro ⟨hl, rfl, rfl⟩
    have hk' := Nat.le_trans (le_boundedDen M i) hl
    refine ⟨boundedDen_lt M i, ?_⟩
    have hsplit : i = bits M.log2 (bitsToNat (i.take M.log2)) ++ i.drop M.log2 :=
      (bits_append_iff.2 ⟨hk', rfl, rfl⟩).2
    have hlt := bitsToNat_lt (i.take M.log2)
    rw [List.length_take, Nat.min_eq_left hk'] at hlt
    revert hl
    unfold boundedDen
    split
    · rename_i hc
      intro _
      unfold bounded
      rw [if_neg (by rw [Nat.mod_eq_of_lt hlt]; omega)]
      simpa using hsplit
    · rename_i hc
      simp only
      intro hl
      have hget := getD_split (i := i) (k := M.log2) (by omega)
      rw [hget] at hsplit
      cases hb : i.getD M.log2 false with
      | true =>
        rw [hb] at hsplit
        simp only [if_true]
        unfold bounded
        rw [if_pos (by rw [Nat.add_mod_right, Nat.mod_eq_of_lt hlt]; omega)]
        rw [decide_eq_true (by omega)]
        conv => lhs; rw [hsplit]
        rw [← bits_mod _ (_ + _), Nat.add_mod_right, Nat.mod_eq_of_lt hlt]
        simp
      | false =>
        rw [hb] at hsplit
        simp only [Bool.false_eq_true, if_false]
        unfold bounded
        rw [if_pos (by rw [Nat.mod_eq_of_lt hlt]; omega)]
        rw [decide_eq_false (by omega)]
        conv => lhs; rw [hsplit]
        simp

theorem bitWidth_log2 (M : Nat) : Nat.max (bitWidth M) 1 = M.log2 + 1 := by
  unfold bitWidth
  split
  · rename_i h; rw [h]; rfl
  · show max _ _ = _
    omega

/-- Running the unchecked bounded read with enough lookahead. -/
theorem peekBounded_run {M : Nat} {env : Env} {i : List Bool} {look : Nat}
    (h : M.log2 + 1 ≤ look) (hl : look ≤ i.length) :
    peekBitsMaxComputed (ε := ε) M.log2 M env ⟨i, look⟩ =
      .ok (boundedDen M i).1 ⟨i.drop (boundedDen M i).2, look - (boundedDen M i).2⟩ := by
  unfold peekBitsMaxComputed
  rw [BM.bind_ok (BM.debugAssert_true (by rw [bitWidth_log2]; simp)),
    BM.bind_ok (peek_run (by omega))]
  unfold boundedDen
  by_cases hc : M ≤ bitsToNat (i.take M.log2) + 2 ^ M.log2
  · rw [if_pos hc]
    simp only [hc, if_true]
    rfl
  · rw [if_neg hc]
    simp only [hc, if_false]
    rw [BM.bind_ok (peek_run (by omega))]
    have hget : (i.drop M.log2).take 1 = [i.getD M.log2 false] := by
      rw [getD_split (by omega)]; rfl
    rw [hget, List.drop_drop]
    cases i.getD M.log2 false <;> rfl

theorem BSpec.readBounded {N M : Nat} :
    BSpec N (readBitsMaxComputed M.log2 M)
      (fun v i o => v < max M 1 ∧ i = bounded M v ++ o) := by
  have hda : BSpec N (BM.debugAssert (ε := Unit) (Nat.max (bitWidth M) 1 == M.log2 + 1))
      (fun _ i o => i = o) := by
    have : BM.debugAssert (ε := Unit) (Nat.max (bitWidth M) 1 == M.log2 + 1) = Pure.pure () := by
      funext env r
      rw [BM.debugAssert_true (by rw [bitWidth_log2]; simp)]
      rfl
    rw [this]
    exact (BSpec.pure ()).congr (by simp)
  unfold readBitsMaxComputed
  refine (BSpec.bind' hda fun _ => BSpec.bind' (BSpec.readBits _) fun data =>
    BSpec.ite (fun _ => BSpec.pure _)
      (fun _ => BSpec.bind' BSpec.readBit fun x => BSpec.pure _)).congr ?_
  intro v i o _
  rw [bounded_append_iff]
  unfold boundedDen
  constructor
  · rintro ⟨_, _, rfl, data, j, h1, h2⟩
    obtain ⟨h3, rfl, rfl⟩ := bits_append_iff.1 h1
    by_cases hc : M ≤ bitsToNat (i.take M.log2) + 2 ^ M.log2
    · rw [if_pos hc] at h2
      obtain ⟨rfl, rfl⟩ := h2
      rw [if_pos hc]
      exact ⟨h3, rfl, rfl⟩
    · rw [if_neg hc] at h2
      obtain ⟨x, k, h4, rfl, rfl⟩ := h2
      rw [if_neg hc]
      have hlen : M.log2 < i.length := by
        have := congrArg List.length h4
        rw [List.length_drop, List.length_cons] at this
        omega
      rw [getD_split hlen] at h4
      injection h4 with h5 h6
      rw [h5]
      refine ⟨hlen, ?_, h6⟩
      cases x <;> rfl
  · rintro ⟨h1, h2, h3⟩
    have hk := h1
    by_cases hc : M ≤ bitsToNat (i.take M.log2) + 2 ^ M.log2
    · rw [if_pos hc] at h1 h2 h3
      refine ⟨(), i, rfl, _, _, bits_append_iff.2 ⟨h1, rfl, rfl⟩, ?_⟩
      rw [if_pos hc]
      exact ⟨h2.symm, h3⟩
    · rw [if_neg hc] at h1 h2 h3
      refine ⟨(), i, rfl, _, _, bits_append_iff.2 ⟨Nat.le_of_succ_le h1, rfl, rfl⟩, ?_⟩
      rw [if_neg hc]
      refine ⟨_, _, getD_split h1, ?_, h3⟩
      rw [← h2]

end Boxcars
