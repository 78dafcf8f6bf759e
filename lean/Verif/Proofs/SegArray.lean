import Verif.Model.FrameDecoder
/-!
# Hash maps and segmented arrays as finite maps
-/
namespace Boxcars

namespace HMap
variable {ν : Type}

theorem get_nil (x : I32) : HMap.get ([] : HMap ν) x = none := rfl

theorem get_cons (k : I32) (v : ν) (m : HMap ν) (x : I32) :
    HMap.get ((k, v) :: m) x = if x = k then some v else m.get x := by
  unfold HMap.get
  rw [List.lookup_cons]
  by_cases h : x = k
  · subst h; simp
  · have : (x == k) = false := by simpa using h
    rw [this, if_neg h]

theorem get_insert (m : HMap ν) (k : I32) (v : ν) (x : I32) :
    (m.insert k v).get x = if x = k then some v else m.get x := by
  induction m with
  | nil => rw [HMap.insert, get_cons]
  | cons p m ih =>
    obtain ⟨k', v'⟩ := p
    rw [HMap.insert]
    split
    · rw [get_cons]
    · split
      · rename_i _ h
        subst h
        rw [get_cons, get_cons]
        by_cases h : x = k <;> simp [h]
      · rename_i _ h
        rw [get_cons, ih, get_cons]
        by_cases h1 : x = k'
        · subst h1
          rw [if_pos rfl, if_pos rfl, if_neg (fun e => h e.symm)]
        · rw [if_neg h1, if_neg h1]

theorem get_remove (m : HMap ν) (k x : I32) :
    (m.remove k).get x = if x = k then none else m.get x := by
  induction m with
  | nil => simp [HMap.remove, HMap.get]
  | cons p m ih =>
    obtain ⟨k', v'⟩ := p
    unfold HMap.remove at ih ⊢
    rw [List.filter_cons]
    by_cases h : k' = k
    · subst h
      rw [if_neg (by simp), ih, get_cons]
      by_cases h1 : x = k' <;> simp [h1]
    · rw [if_pos (by simpa using h), get_cons, ih, get_cons]
      by_cases h1 : x = k'
      · subst h1; rw [if_pos rfl, if_pos rfl, if_neg h]
      · rw [if_neg h1, if_neg h1]

/-- Keys strictly increasing: the canonical form of a hash map. -/
def Sorted (m : HMap ν) : Prop := m.Pairwise (fun p q => p.1.toNat < q.1.toNat)

theorem sorted_nil : Sorted ([] : HMap ν) := List.Pairwise.nil

theorem mem_insert {m : HMap ν} {k : I32} {v : ν} {p : I32 × ν} (h : p ∈ m.insert k v) :
    p = (k, v) ∨ p ∈ m := by
  induction m with
  | nil => rw [HMap.insert] at h; simpa using h
  | cons q m ih =>
    obtain ⟨k', v'⟩ := q
    rw [HMap.insert] at h
    split at h
    · simpa using h
    · split at h
      · rcases List.mem_cons.1 h with h | h
        · exact .inl h
        · exact .inr (List.mem_cons_of_mem _ h)
      · rcases List.mem_cons.1 h with h | h
        · exact .inr (h ▸ List.mem_cons_self)
        · rcases ih h with h | h
          · exact .inl h
          · exact .inr (List.mem_cons_of_mem _ h)

theorem sorted_insert {m : HMap ν} (h : m.Sorted) (k : I32) (v : ν) : (m.insert k v).Sorted := by
  induction m with
  | nil => rw [HMap.insert]; exact List.pairwise_singleton _ _
  | cons q m ih =>
    obtain ⟨k', v'⟩ := q
    obtain ⟨h1, h2⟩ := List.pairwise_cons.1 h
    rw [HMap.insert]
    split
    · rename_i hlt
      refine List.pairwise_cons.2 ⟨?_, h⟩
      intro p hp
      rcases List.mem_cons.1 hp with rfl | hp
      · exact hlt
      · exact Nat.lt_trans hlt (h1 p hp)
    · rename_i hlt
      split
      · rename_i hk
        subst hk
        exact List.pairwise_cons.2 ⟨h1, h2⟩
      · rename_i hk
        refine List.pairwise_cons.2 ⟨?_, ih h2⟩
        intro p hp
        rcases mem_insert hp with rfl | hp
        · have : k.toNat ≠ k'.toNat := fun e => hk (BitVec.eq_of_toNat_eq e)
          show k'.toNat < k.toNat
          omega
        · exact h1 p hp

theorem sorted_extend (kvs : List (I32 × ν)) {m : HMap ν} (h : m.Sorted) :
    (m.extend kvs).Sorted := by
  unfold HMap.extend
  induction kvs generalizing m with
  | nil => exact h
  | cons p ps ih => exact ih (sorted_insert h _ _)

theorem get_none_of_lt {m : HMap ν} {x : I32} (h : ∀ p ∈ m, x.toNat < p.1.toNat) :
    m.get x = none := by
  induction m with
  | nil => rfl
  | cons p m ih =>
    obtain ⟨k, v⟩ := p
    rw [get_cons, if_neg, ih (fun p hp => h p (List.mem_cons_of_mem _ hp))]
    rintro rfl
    exact Nat.lt_irrefl _ (h _ List.mem_cons_self)

/-- Canonical hash maps with the same lookups are equal. -/
theorem ext {m m' : HMap ν} (h : m.Sorted) (h' : m'.Sorted) (hg : ∀ x, m.get x = m'.get x) :
    m = m' := by
  induction m generalizing m' with
  | nil =>
    cases m' with
    | nil => rfl
    | cons p m' =>
      have := hg p.1
      rw [get_nil, get_cons, if_pos rfl] at this
      cases this
  | cons p m ih =>
    obtain ⟨k, v⟩ := p
    cases m' with
    | nil =>
      have := hg k
      rw [get_nil, get_cons, if_pos rfl] at this
      cases this
    | cons p' m' =>
      obtain ⟨k', v'⟩ := p'
      obtain ⟨h1, h2⟩ := List.pairwise_cons.1 h
      obtain ⟨h1', h2'⟩ := List.pairwise_cons.1 h'
      have hk : k = k' := by
        have a := hg k
        have b := hg k'
        rw [get_cons, if_pos rfl, get_cons] at a
        rw [get_cons, get_cons, if_pos rfl] at b
        refine Classical.byContradiction fun hne => ?_
        rw [if_neg hne] at a
        rw [if_neg (fun e => hne e.symm)] at b
        rcases Nat.lt_trichotomy k.toNat k'.toNat with hlt | heq | hlt
        · rw [get_none_of_lt (fun p hp => Nat.lt_trans hlt (h1' p hp))] at a
          cases a
        · exact hne (BitVec.eq_of_toNat_eq heq)
        · rw [get_none_of_lt (fun p hp => Nat.lt_trans hlt (h1 p hp))] at b
          cases b
      subst hk
      have hv : v = v' := by
        have a := hg k
        rw [get_cons, if_pos rfl, get_cons, if_pos rfl] at a
        exact Option.some.inj a
      subst hv
      have : m = m' := by
        refine ih h2 h2' ?_
        intro x
        have a := hg x
        rw [get_cons, get_cons] at a
        by_cases hx : x = k
        · subst hx
          rw [get_none_of_lt h1, get_none_of_lt h1']
        · rwa [if_neg hx, if_neg hx] at a
      rw [this]

end HMap

namespace SegArray
variable {ν : Type}

theorem inArray_iff (a : SegArray ν) (hl : a.array.length ≤ 2 ^ 31) (k : I32) :
    a.inArray k = true ↔ k.toNat < a.array.length := by
  unfold inArray
  rw [Bool.and_eq_true, decide_eq_true_iff, decide_eq_true_iff, BitVec.toInt_eq_toNat_cond]
  constructor
  · exact fun h => h.2
  · intro h
    refine ⟨?_, h⟩
    split <;> omega

theorem insert_length (a : SegArray ν) (k : I32) (v : ν) :
    (a.insert k v).array.length = a.array.length := by
  unfold insert; split <;> simp

theorem delete_length (a : SegArray ν) (k : I32) : (a.delete k).array.length = a.array.length := by
  unfold delete; split <;> rfl

theorem inArray_congr {a b : SegArray ν} (h : a.array.length = b.array.length) (k : I32) :
    a.inArray k = b.inArray k := by
  unfold inArray; rw [h]

theorem get_new (size : Nat) (x : I32) : (SegArray.new size : SegArray ν).get x = none := by
  unfold get new
  split
  · simp only [List.getElem?_replicate]
    split <;> rfl
  · rfl

theorem get_insert (a : SegArray ν) (k : I32) (v : ν) (x : I32) :
    (a.insert k v).get x = if x = k then some v else a.get x := by
  have hc := inArray_congr (insert_length a k v) x
  unfold get
  rw [hc]
  by_cases hk : a.inArray k = true
  · have e : a.insert k v = { a with array := a.array.set k.toNat (some v) } := by
      unfold insert; rw [if_pos hk]
    rw [e]
    by_cases hx : x = k
    · subst hx
      have hlt : x.toNat < a.array.length := by
        unfold inArray at hk; simp only [Bool.and_eq_true, decide_eq_true_eq] at hk; exact hk.2
      rw [if_pos hk, if_pos rfl]
      simp [hlt]
    · rw [if_neg hx]
      by_cases hxa : a.inArray x = true
      · rw [if_pos hxa, if_pos hxa]
        have : k.toNat ≠ x.toNat := fun e => hx (BitVec.eq_of_toNat_eq e).symm
        simp only [List.getElem?_set_ne this]
      · rw [if_neg hxa, if_neg hxa]
  · have e : a.insert k v = { a with map := a.map.insert k v } := by
      unfold insert; rw [if_neg hk]
    rw [e]
    by_cases hxa : a.inArray x = true
    · rw [if_pos hxa, if_pos hxa, if_neg]
      rintro rfl; exact hk hxa
    · rw [if_neg hxa, if_neg hxa]
      exact HMap.get_insert _ _ _ _

theorem get_delete (a : SegArray ν) (k x : I32) :
    (a.delete k).get x = if x = k ∧ a.inArray k = false then none else a.get x := by
  have hc := inArray_congr (delete_length a k) x
  unfold get
  rw [hc]
  by_cases hk : a.inArray k = true
  · have e : a.delete k = a := by unfold delete; rw [if_pos hk]
    rw [e, if_neg (c := x = k ∧ a.inArray k = false)]
    rintro ⟨_, h⟩; rw [hk] at h; cases h
  · have e : a.delete k = { a with map := a.map.remove k } := by unfold delete; rw [if_neg hk]
    rw [e]
    have hk' : a.inArray k = false := by simpa using hk
    by_cases hxa : a.inArray x = true
    · rw [if_pos hxa, if_pos hxa, if_neg]
      rintro ⟨rfl, h⟩; exact hk hxa
    · rw [if_neg hxa, if_neg hxa]
      simp only [hk', and_true]
      exact HMap.get_remove _ _ _

end SegArray

/-- `x as usize` is injective. -/
theorem usizeOfI32_nonneg (env : Env) {x : I32} (h : 0 ≤ x.toInt) : env.usizeOfI32 x = x.toNat := by
  unfold Env.usizeOfI32; rw [if_neg (by omega)]

theorem usizeOfI32_neg (env : Env) {x : I32} (h : x.toInt < 0) : 2 ^ 31 ≤ env.usizeOfI32 x := by
  unfold Env.usizeOfI32
  rw [if_pos h]
  have h1 : -2147483648 ≤ x.toInt := by have := BitVec.le_toInt x; simpa using this
  rcases env.usizeBits_eq with h2 | h2 <;> rw [h2] <;> omega

theorem usizeOfI32_inj (env : Env) {x y : I32} (h : env.usizeOfI32 x = env.usizeOfI32 y) :
    x = y := by
  have hx : x.toNat < 2 ^ 32 := x.isLt
  have hy : y.toNat < 2 ^ 32 := y.isLt
  have bx := BitVec.toInt_eq_toNat_cond x
  have by' := BitVec.toInt_eq_toNat_cond y
  unfold Env.usizeOfI32 at h
  apply BitVec.eq_of_toNat_eq
  rcases env.usizeBits_eq with h2 | h2 <;> rw [h2] at h <;> split at h <;> split at h <;>
    split at bx <;> split at by' <;> omega

/-- A slice indexed by an `i32` converted to `usize`, independently of the width. -/
def nth {α : Type} (xs : List α) (id : I32) : Option α :=
  if 0 ≤ id.toInt then xs[id.toNat]? else none

theorem nth_eq {α : Type} (env : Env) {xs : List α} (hl : xs.length ≤ 2 ^ 31) (id : I32) :
    xs[env.usizeOfI32 id]? = nth xs id := by
  unfold nth
  split
  · rw [usizeOfI32_nonneg env (by assumption)]
  · have := usizeOfI32_neg env (x := id) (by omega)
    exact List.getElem?_eq_none (by omega)

end Boxcars
