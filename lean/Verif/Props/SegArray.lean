import Verif.Proofs.SegArray
/-!
# C41: the table of actors and of attributes
-/
namespace Boxcars.Props
open Boxcars

/-- An operation on a table. -/
inductive TableOp (ν : Type) where
  | insert (k : I32) (v : ν)
  | delete (k : I32)

/-- A table after operations. -/
def tableAfter {ν : Type} (size : Nat) (ops : List (TableOp ν)) : SegArray ν :=
  ops.foldl (fun a op => match op with
    | .insert k v => a.insert k v
    | .delete k => a.delete k) (SegArray.new size)

/-- Below the threshold, read as a signed number. -/
def Below (size : Nat) (k : I32) : Prop := 0 ≤ k.toInt ∧ k.toInt < size

/-- What a map holds under `k` after operations, the last one first: deletions of keys below the
threshold are ignored. -/
inductive Holds {ν : Type} (size : Nat) (k : I32) : List (TableOp ν) → Option ν → Prop where
  | empty : Holds size k [] none
  | inserted {v ops} : Holds size k (.insert k v :: ops) (some v)
  | deleted {ops} : ¬Below size k → Holds size k (.delete k :: ops) none
  | kept {ops o} : Below size k → Holds size k ops o → Holds size k (.delete k :: ops) o
  | otherInsert {k' v ops o} : k' ≠ k → Holds size k ops o → Holds size k (.insert k' v :: ops) o
  | otherDelete {k' ops o} : k' ≠ k → Holds size k ops o → Holds size k (.delete k' :: ops) o

theorem tableAfter_snoc {ν : Type} (size : Nat) (ops : List (TableOp ν)) (op : TableOp ν) :
    tableAfter size (ops ++ [op]) = match op with
      | .insert k v => (tableAfter size ops).insert k v
      | .delete k => (tableAfter size ops).delete k := by
  unfold tableAfter
  rw [List.foldl_append]
  rfl

theorem tableAfter_length {ν : Type} (size : Nat) (ops : List (TableOp ν)) :
    (tableAfter size ops).array.length = size := by
  have key : ∀ rops : List (TableOp ν), (tableAfter size rops.reverse).array.length = size := by
    intro rops
    induction rops with
    | nil => simp [tableAfter, SegArray.new]
    | cons op ops ih =>
      rw [List.reverse_cons, tableAfter_snoc]
      cases op with
      | insert k v => simp only [SegArray.insert_length, ih]
      | delete k => simp only [SegArray.delete_length, ih]
  have := key ops.reverse
  rwa [List.reverse_reverse] at this

/-- C41. For every sequence of operations and every threshold, a lookup returns what a map
would hold. -/
theorem table_lookup {ν : Type} (size : Nat) (ops : List (TableOp ν)) (k : I32) (o : Option ν) :
    (tableAfter size ops).get k = o ↔ Holds size k ops.reverse o := by
  have key : ∀ rops : List (TableOp ν), Holds size k rops ((tableAfter size rops.reverse).get k) := by
    intro rops
    induction rops with
    | nil =>
      have : (tableAfter size ([] : List (TableOp ν)).reverse).get k = none := SegArray.get_new _ _
      rw [this]
      exact .empty
    | cons op ops ih =>
      rw [List.reverse_cons, tableAfter_snoc]
      cases op with
      | insert k' v =>
        simp only [SegArray.get_insert]
        by_cases h : k = k'
        · subst h; rw [if_pos rfl]; exact .inserted
        · rw [if_neg h]; exact .otherInsert (Ne.symm h) ih
      | delete k' =>
        simp only [SegArray.get_delete]
        by_cases h : k = k'
        · subst h
          have hb : (tableAfter size ops.reverse).inArray k = true ↔ Below size k := by
            unfold SegArray.inArray Below
            rw [tableAfter_length, Bool.and_eq_true, decide_eq_true_iff, decide_eq_true_iff,
              BitVec.toInt_eq_toNat_cond]
            split <;> omega
          by_cases hc : Below size k
          · rw [hb.2 hc]
            simp only [Bool.true_eq_false, and_false, if_false]
            exact .kept hc ih
          · have : (tableAfter size ops.reverse).inArray k = false := by
              rw [← Bool.not_eq_true, hb]; exact hc
            rw [if_pos ⟨rfl, this⟩]
            exact .deleted hc
        · rw [if_neg (fun hh => h hh.1)]; exact .otherDelete (Ne.symm h) ih
  have uniq : ∀ {rops : List (TableOp ν)} {a b : Option ν}, Holds size k rops a →
      Holds size k rops b → a = b := by
    intro rops a b ha
    induction ha with
    | empty => intro hb; cases hb; rfl
    | inserted => intro hb; cases hb with
      | inserted => rfl
      | otherInsert h => exact absurd rfl h
    | deleted h => intro hb; cases hb with
      | deleted => rfl
      | kept h' => exact absurd h' h
      | otherDelete h => exact absurd rfl h
    | kept h _ ih => intro hb; cases hb with
      | deleted h' => exact absurd h h'
      | kept _ hb => exact ih hb
      | otherDelete h => exact absurd rfl h
    | otherInsert h _ ih => intro hb; cases hb with
      | inserted => exact absurd rfl h
      | otherInsert _ hb => exact ih hb
    | otherDelete h _ ih => intro hb; cases hb with
      | deleted => exact absurd rfl h
      | kept => exact absurd rfl h
      | otherDelete _ hb => exact ih hb
  have := key ops.reverse
  rw [List.reverse_reverse] at this
  constructor
  · rintro rfl; exact this
  · intro h; exact uniq this h

/-- With a threshold of 200: a deletion below it leaves the value, one above removes it. -/
example : (tableAfter 200 [TableOp.insert 5 'a', .insert 300 'b', .delete 5, .delete 300]).get 5 =
      some 'a' ∧
    (tableAfter 200 [TableOp.insert 5 'a', .insert 300 'b', .delete 5, .delete 300]).get 300 =
      none ∧
    (tableAfter 200 [TableOp.insert (-1) 'a', .insert 300 'b', .delete (-1)]).get (-1) = none :=
  ⟨(table_lookup _ _ _ _).2 (.otherDelete (by decide)
      (.kept (by unfold Below; decide) (.otherInsert (by decide) .inserted))),
   (table_lookup _ _ _ _).2 (.deleted (by unfold Below; decide)),
   (table_lookup _ _ _ _).2 (.deleted (by unfold Below; decide))⟩

/-! ## The keys

The crate converts ids to `usize` and keys array and map by that; the model keys by the id. -/

/-- `RawSegmentedArray<T>` with its `usize` keys, `src/network/frame_decoder.rs:14-55`; the
hash map as a function. -/
structure RawTable (ν : Type) where
  array : List (Option ν)
  map : Nat → Option ν

/-- `RawSegmentedArray::new`, lines 20-27. -/
def RawTable.new {ν : Type} (size : Nat) : RawTable ν := ⟨List.replicate size none, fun _ => none⟩

/-- `RawSegmentedArray::insert`, lines 29-38. -/
def RawTable.insert {ν : Type} (a : RawTable ν) (key : Nat) (v : ν) : RawTable ν :=
  match a.array[key]? with
  | some _ => { a with array := a.array.set key (some v) }
  | none => { a with map := fun k => if k = key then some v else a.map k }

/-- `RawSegmentedArray::get`, lines 40-45. -/
def RawTable.get {ν : Type} (a : RawTable ν) (key : Nat) : Option ν :=
  match a.array[key]? with
  | some x => x
  | none => a.map key

/-- `RawSegmentedArray::delete`, lines 47-54. -/
def RawTable.delete {ν : Type} (a : RawTable ν) (key : Nat) : RawTable ν :=
  match a.array[key]? with
  | some _ => a
  | none => { a with map := fun k => if k = key then none else a.map k }

/-- `SegmentedArray`: operations with ids converted to `usize`, lines 100-119. -/
def rawAfter {ν : Type} (env : Env) (size : Nat) (ops : List (TableOp ν)) : RawTable ν :=
  ops.foldl (fun a op => match op with
    | .insert k v => a.insert (env.usizeOfI32 k) v
    | .delete k => a.delete (env.usizeOfI32 k)) (RawTable.new size)

/-- Related tables. -/
structure SameTable {ν : Type} (env : Env) (a : SegArray ν) (b : RawTable ν) : Prop where
  array : a.array = b.array
  map : ∀ k, a.map.get k = b.map (env.usizeOfI32 k)

theorem position {ν : Type} (env : Env) (a : SegArray ν) (hl : a.array.length ≤ 2 ^ 31) (k : I32) :
    (a.inArray k = true ∧ env.usizeOfI32 k = k.toNat ∧ k.toNat < a.array.length) ∨
    (a.inArray k = false ∧ a.array.length ≤ env.usizeOfI32 k) := by
  by_cases h : 0 ≤ k.toInt
  · have e := usizeOfI32_nonneg env h
    unfold SegArray.inArray
    by_cases h2 : k.toNat < a.array.length
    · left; simp [h, h2, e]
    · right; rw [e]; simp [h2]; omega
  · have e := usizeOfI32_neg env (x := k) (by omega)
    right
    unfold SegArray.inArray
    refine ⟨by simp [h], by omega⟩

/-- The model's table, keyed by ids, and the crate's, keyed by ids converted to `usize`,
agree after all operations on all lookups, for thresholds up to `2^31` (the crate uses 64 and
200). -/
theorem usize_key_faithful {ν : Type} (env : Env) (size : Nat) (hs : size ≤ 2 ^ 31)
    (ops : List (TableOp ν)) (k : I32) :
    (rawAfter env size ops).get (env.usizeOfI32 k) = (tableAfter size ops).get k := by
  have step : ∀ (ops : List (TableOp ν)) (a : SegArray ν) (b : RawTable ν), a.array.length = size →
      SameTable env a b →
      SameTable env
        (ops.foldl (fun a op => match op with
          | .insert k v => a.insert k v
          | .delete k => a.delete k) a)
        (ops.foldl (fun a op => match op with
          | .insert k v => a.insert (env.usizeOfI32 k) v
          | .delete k => a.delete (env.usizeOfI32 k)) b) := by
    intro ops
    induction ops with
    | nil => intro a b _ h; exact h
    | cons op ops ih =>
      intro a b hl h
      simp only [List.foldl_cons]
      cases op with
      | insert k v =>
        refine ih _ _ (by simp only [SegArray.insert_length, hl]) ?_
        simp only [SegArray.insert, RawTable.insert]
        rcases position env a (by omega) k with ⟨h1, h2, h3⟩ | ⟨h1, h2⟩
        · rw [if_pos h1, h2, ← h.array, List.getElem?_eq_getElem h3]
          exact ⟨by simp only [h.array], h.map⟩
        · rw [if_neg (by rw [h1]; decide), ← h.array, List.getElem?_eq_none h2]
          refine ⟨rfl, fun x => ?_⟩
          simp only [HMap.get_insert, h.map]
          by_cases hx : x = k
          · subst hx; simp
          · rw [if_neg hx, if_neg (fun e => hx (usizeOfI32_inj env e))]
      | delete k =>
        refine ih _ _ (by simp only [SegArray.delete_length, hl]) ?_
        simp only [SegArray.delete, RawTable.delete]
        rcases position env a (by omega) k with ⟨h1, h2, h3⟩ | ⟨h1, h2⟩
        · rw [if_pos h1, h2, ← h.array, List.getElem?_eq_getElem h3]
          exact h
        · rw [if_neg (by rw [h1]; decide), ← h.array, List.getElem?_eq_none h2]
          refine ⟨rfl, fun x => ?_⟩
          simp only [HMap.get_remove, h.map]
          by_cases hx : x = k
          · subst hx; simp
          · rw [if_neg hx, if_neg (fun e => hx (usizeOfI32_inj env e))]
  have h := step ops (SegArray.new size) (RawTable.new size) (by simp [SegArray.new])
    ⟨rfl, fun _ => rfl⟩
  have hl := tableAfter_length size ops
  unfold tableAfter at hl ⊢
  unfold rawAfter
  generalize ops.foldl _ (SegArray.new size) = a at h hl ⊢
  generalize ops.foldl _ (RawTable.new size) = b at h ⊢
  unfold RawTable.get SegArray.get
  rcases position env a (by omega) k with ⟨h1, h2, h3⟩ | ⟨h1, h2⟩
  · rw [if_pos h1, h2, ← h.array, List.getElem?_eq_getElem h3]
    rfl
  · rw [if_neg (by rw [h1]; decide), ← h.array, List.getElem?_eq_none h2, h.map]

end Boxcars.Props
