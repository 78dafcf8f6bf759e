import Verif.Spec.Tables
/-!
# The class tree has bounded depth
-/
namespace Boxcars
open Spec

theorem utf8Encode_size (l : List Char) : l.utf8Encode.size = Str.byteLen l := by
  unfold Str.byteLen
  induction l with
  | nil => rfl
  | cons c l ih =>
    rw [List.utf8Encode_cons, ByteArray.size_append, ih]
    have : [c].utf8Encode.size = c.utf8Size := by
      rw [← String.toByteArray_singleton]; exact String.utf8ByteSize_singleton
    rw [this]
    rfl

theorem byteLen_toList (s : String) : Str.byteLen s.toList = s.utf8ByteSize := by
  rw [← utf8Encode_size, String.utf8Encode_toList]; rfl

/-- Following parents from `s` ends within `n` steps. -/
def walkOk : Nat → String → Bool
  | 0, _ => false
  | n + 1, s =>
    match parentClasses.lookup s with
    | none => true
    | some p => walkOk n p

set_option maxRecDepth 100000 in
theorem parents_walk : parentClasses.all (fun p => walkOk 10 p.2) = true := by decide +kernel

/-- The parent names of more than 38 bytes. -/
def longParents : List String := ["TAGame.CarComponent_TerritoryDemolish_TA",
  "TAGame.CarComponent_DoubleJump_Robin_TA", "TAGame.SpecialPickup_HauntedBallBeam_TA"]

set_option maxRecDepth 100000 in
theorem parents_short :
    parentClasses.all (fun p => decide (p.2.utf8ByteSize ≤ 38) || longParents.contains p.2) = true := by
  decide +kernel

set_option maxRecDepth 100000 in
theorem longParents_plain : longParents.all (fun s =>
    (stripPrefix worldPrefix s.toList).isNone &&
    ((afterFirstDot s.toList).bind (stripPrefix worldPrefix)).isNone) = true := by decide +kernel

theorem longParents_normal {s : String} (h : s ∈ longParents) :
    normalizeObject s.toList = s.toList := by
  have := List.all_eq_true.1 longParents_plain _ h
  rw [Bool.and_eq_true, Option.isNone_iff_eq_none, Option.isNone_iff_eq_none] at this
  unfold normalizeObject
  split
  · rfl
  · rw [this.1, Option.orElse_none, this.2]

theorem lookup_mem {α β : Type} [BEq α] [LawfulBEq α] {l : List (α × β)} {a : α} {b : β}
    (h : l.lookup a = some b) : (a, b) ∈ l := by
  induction l with
  | nil => cases h
  | cons p l ih =>
    obtain ⟨x, y⟩ := p
    rw [List.lookup_cons] at h
    by_cases hx : (a == x) = true
    · rw [hx] at h
      cases h
      rw [eq_of_beq hx]
      exact List.mem_cons_self
    · simp only [Bool.not_eq_true] at hx
      rw [hx] at h
      exact List.mem_cons_of_mem _ (ih h)

theorem parentClass_eq {n p : Str} (h : parentClass n = some p) :
    ∃ s : String, p = s.toList ∧ walkOk 10 s = true ∧ normalizeObject p = p := by
  unfold parentClass at h
  obtain ⟨s, hs, rfl⟩ := Option.map_eq_some_iff.1 h
  have hm := lookup_mem hs
  refine ⟨s, rfl, List.all_eq_true.1 parents_walk _ hm, ?_⟩
  have := List.all_eq_true.1 parents_short _ hm
  rw [Bool.or_eq_true, decide_eq_true_iff, List.contains_iff_mem] at this
  rcases this with h1 | h1
  · simp only at h1
    unfold normalizeObject
    rw [byteLen_toList, if_pos h1]
  · exact longParents_normal h1

theorem lineage_of_walk {k : Nat} {s : String} (hw : walkOk k s = true)
    (hn : normalizeObject s.toList = s.toList) : ∃ ns, Lineage s.toList ns ∧ ns.length < k := by
  induction k generalizing s with
  | zero => cases hw
  | succ k ih =>
    rw [walkOk] at hw
    cases hl : parentClasses.lookup s with
    | none =>
      refine ⟨[], .root ?_, by simp⟩
      unfold parentOf parentClass
      rw [hn, String.ofList_toList, hl]
      rfl
    | some p =>
      rw [hl] at hw
      have hp : parentOf s.toList = some p.toList := by
        unfold parentOf parentClass
        rw [hn, String.ofList_toList, hl]
        rfl
      have hnp : normalizeObject p.toList = p.toList := by
        obtain ⟨q, hq, _, hq'⟩ := parentClass_eq hp
        exact hq'
      obtain ⟨ns, h1, h2⟩ := ih hw hnp
      exact ⟨s.toList :: ns, .step hp h1, by simp; omega⟩

/-- Following parents from any name ends after at most ten steps. -/
theorem lineage_exists (n : Str) : ∃ ns, Lineage n ns ∧ ns.length ≤ 10 := by
  cases h : parentOf n with
  | none => exact ⟨[], .root h, by simp⟩
  | some p =>
    obtain ⟨s, rfl, hw, hn⟩ := parentClass_eq h
    obtain ⟨ns, h1, h2⟩ := lineage_of_walk hw hn
    exact ⟨n :: ns, .step h h1, by simp; omega⟩

theorem lineage_unique {n : Str} {ns ms : List Str} (h : Lineage n ns) (h' : Lineage n ms) :
    ns = ms := by
  induction h generalizing ms with
  | root h =>
    cases h' with
    | root => rfl
    | step h1 _ => rw [h] at h1; cases h1
  | step h _ ih =>
    cases h' with
    | root h1 => rw [h] at h1; cases h1
    | step h1 h2 =>
      rw [h] at h1
      cases h1
      rw [ih h2]

theorem lineage_length {n : Str} {ns : List Str} (h : Lineage n ns) : ns.length ≤ 10 := by
  obtain ⟨ms, h1, h2⟩ := lineage_exists n
  rw [lineage_unique h h1]; exact h2

/-! ### Positions -/

theorem findName_eq (n : Str) (k : Nat) (objects : List Str) :
    findName n k objects = (position objects n).map fun i => i32OfNat (k + i) := by
  unfold position
  induction objects generalizing k with
  | nil => rfl
  | cons m ms ih =>
    rw [findName, List.findIdx?_cons]
    by_cases h : m = n
    · subst h; simp
    · rw [if_neg h, ih]
      have : (m == n) = false := by simpa using h
      rw [this]
      simp only [Bool.false_eq_true, if_false, Option.map_map]
      congr 1
      funext i
      show i32OfNat (k + 1 + i) = i32OfNat (k + (i + 1))
      congr 1
      omega

theorem byName_eq (objects : List Str) (n : Str) :
    byName objects n = (position objects n).map i32OfNat := by
  unfold byName
  rw [findName_eq]
  simp

theorem position_iff {objects : List Str} {n : Str} {i : Nat} :
    position objects n = some i ↔ FirstAt objects n i := by
  unfold position FirstAt
  rw [List.findIdx?_eq_some_iff_getElem]
  constructor
  · rintro ⟨h, h1, h2⟩
    refine ⟨by rw [List.getElem?_eq_getElem h]; exact congrArg some (eq_of_beq h1), ?_⟩
    intro j hj he
    have := h2 j hj
    rw [List.getElem?_eq_getElem (by omega)] at he
    cases he
    simp at this
  · rintro ⟨h1, h2⟩
    obtain ⟨h, he⟩ := List.getElem?_eq_some_iff.1 h1
    refine ⟨h, by simp [he], ?_⟩
    intro j hj
    have := h2 j hj
    rw [List.getElem?_eq_getElem (by omega)] at this
    simpa using this

theorem position_lt {objects : List Str} {n : Str} {i : Nat} (h : position objects n = some i) :
    i < objects.length :=
  (List.getElem?_eq_some_iff.1 (position_iff.1 h).1).1

theorem position_get {objects : List Str} {n : Str} {i : Nat} (h : position objects n = some i) :
    objects[i]? = some n := (position_iff.1 h).1

theorem position_inj {objects : List Str} {n m : Str} {i : Nat} (h : position objects n = some i)
    (h' : position objects m = some i) : n = m := by
  have := (position_get h).symm.trans (position_get h')
  exact Option.some.inj this

theorem position_mem {objects : List Str} {n : Str} (h : n ∈ objects) :
    ∃ i, position objects n = some i := by
  unfold position
  have : (objects.findIdx? (fun m => m == n)).isSome = true := by
    rw [List.findIdx?_isSome, List.any_eq_true]
    exact ⟨n, h, by simp⟩
  exact Option.isSome_iff_exists.1 this

/-! ### The walk of the model -/

/-- The ids of the listed names of a lineage. -/
def lineIds (objects : List Str) (ns : List Str) : List ObjectId :=
  ns.filterMap fun n => (position objects n).map i32OfNat

theorem hierarchyAux_eq (objects : List Str) {n : Str} {ns : List Str} (h : Lineage n ns)
    (fuel : Nat) (hf : ns.length < fuel) :
    hierarchyAux objects fuel n = some (lineIds objects ns) := by
  induction h generalizing fuel with
  | @root n h =>
    obtain ⟨f, rfl⟩ : ∃ f, fuel = f + 1 := ⟨fuel - 1, by simp at hf; omega⟩
    rw [hierarchyAux]
    have h : parentClass (normalizeObject n) = none := h
    rw [h]
    rfl
  | @step n p ns h _ ih =>
    obtain ⟨f, rfl⟩ : ∃ f, fuel = f + 1 := ⟨fuel - 1, by simp at hf; omega⟩
    rw [hierarchyAux]
    have h : parentClass (normalizeObject n) = some p := h
    rw [h]
    simp only
    rw [ih f (by simp at hf; omega), byName_eq]
    unfold lineIds
    simp only [List.filterMap_cons]
    cases position objects n <;> rfl

theorem hier_eq (objects : List Str) {n : Str} {ns : List Str} (h : Lineage n ns) :
    (Option.some (lineIds objects ns)) = hierarchy objects n := by
  unfold hierarchy ancestorFuel
  rw [hierarchyAux_eq objects h]
  have := lineage_length h
  omega

end Boxcars
