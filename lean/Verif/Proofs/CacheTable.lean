import Verif.Proofs.SpawnTable
/-!
# The table of inherited attributes
-/
namespace Boxcars
open Spec Network

/-! ### Association lists where the last entry wins -/

/-- The last value of a key. -/
def lastOf {ν : Type} (l : List (I32 × ν)) (x : I32) : Option ν :=
  (l.reverse.find? (fun p => p.1 == x)).map Prod.snd

variable {ν : Type}

theorem lastOf_nil (x : I32) : lastOf ([] : List (I32 × ν)) x = none := rfl

theorem lastOf_append (a b : List (I32 × ν)) (x : I32) :
    lastOf (a ++ b) x = (lastOf b x).orElse fun _ => lastOf a x := by
  unfold lastOf
  rw [List.reverse_append, List.find?_append]
  cases b.reverse.find? (fun p => p.1 == x) <;> rfl

theorem lastOf_cons (p : I32 × ν) (l : List (I32 × ν)) (x : I32) :
    lastOf (p :: l) x = (lastOf l x).orElse fun _ => if x = p.1 then some p.2 else none := by
  rw [← List.singleton_append, lastOf_append]
  congr 1
  funext _
  unfold lastOf
  rw [List.reverse_singleton, List.find?_singleton]
  by_cases h : x = p.1
  · subst h; simp
  · have : (p.1 == x) = false := by rw [beq_eq_false_iff_ne]; exact fun e => h e.symm
    rw [this]; simp [h]

theorem get_extend (l : List (I32 × ν)) (m : HMap ν) (x : I32) :
    (HMap.extend m l).get x = (lastOf l x).orElse fun _ => m.get x := by
  unfold HMap.extend
  induction l generalizing m with
  | nil => rfl
  | cons p l ih =>
    rw [List.foldl_cons, ih, HMap.get_insert, lastOf_cons]
    cases lastOf l x with
    | some v => rfl
    | none =>
      simp only [Option.orElse_none]
      split <;> rfl

theorem lastOf_map {β : Type} (f : β → I32 × ν) (l : List β) (x : I32) :
    lastOf (l.map f) x = (l.reverse.find? (fun b => (f b).1 == x)).map (fun b => (f b).2) := by
  unfold lastOf
  rw [← List.map_reverse, List.find?_map, Option.map_map]
  rfl

/-- With distinct keys every order of the entries gives the same lookups. -/
theorem lastOf_perm {l : List (I32 × ν)} {m : HMap ν} (hm : m.Sorted) (hp : l.Perm m) (x : I32) :
    lastOf l x = m.get x := by
  have hnd : (m.map Prod.fst).Nodup := by
    rw [List.Nodup, List.pairwise_map]
    refine hm.imp ?_
    intro a b hab he
    rw [he] at hab
    exact Nat.lt_irrefl _ hab
  have hnd' : (l.map Prod.fst).Nodup := (hp.map _).nodup_iff.2 hnd
  have hmem : ∀ (l : List (I32 × ν)), (l.map Prod.fst).Nodup → ∀ v, lastOf l x = some v ↔ (x, v) ∈ l := by
    intro l hl v
    induction l with
    | nil => simp [lastOf_nil]
    | cons p l ih =>
      obtain ⟨k, w⟩ := p
      rw [List.map_cons, List.nodup_cons] at hl
      have ih := ih hl.2
      rw [lastOf_cons, List.mem_cons]
      cases hv : lastOf l x with
      | some u =>
        simp only [Option.orElse_some]
        rw [hv] at ih
        constructor
        · intro h; exact .inr (ih.1 h)
        · rintro (h | h)
          · cases h
            have : ∃ v, (x, v) ∈ l := by
              have := (List.find?_some (p := fun p : I32 × ν => p.1 == x) (l := l.reverse)
                (a := (l.reverse.find? (fun p => p.1 == x)).get (by
                  unfold lastOf at hv
                  cases hf : l.reverse.find? (fun p => p.1 == x) with
                  | none => rw [hf] at hv; cases hv
                  | some q => rfl)) (by simp))
              unfold lastOf at hv
              obtain ⟨q, hq, rfl⟩ := Option.map_eq_some_iff.1 hv
              have hq' := List.mem_of_find?_eq_some hq
              have hk := List.find?_some hq
              have : q.1 = x := by simpa using hk
              exact ⟨q.2, by rw [← this]; simpa using hq'⟩
            obtain ⟨v', hv'⟩ := this
            exact absurd (List.mem_map.2 ⟨_, hv', rfl⟩) hl.1
          · exact ih.2 h
      | none =>
        rw [hv] at ih
        simp only [Option.orElse_none]
        constructor
        · intro h
          split at h
          · rename_i he; cases h; left; rw [he]
          · cases h
        · rintro (h | h)
          · cases h; simp
          · exact absurd (ih.2 h) (by simp)
  have hget : ∀ v, m.get x = some v ↔ (x, v) ∈ m := by
    intro v
    clear hp hnd'
    induction m with
    | nil => simp [HMap.get]
    | cons p m ih =>
      obtain ⟨k, w⟩ := p
      rw [List.map_cons, List.nodup_cons] at hnd
      have ih := ih (List.pairwise_cons.1 hm).2 hnd.2
      rw [HMap.get_cons, List.mem_cons]
      by_cases he : x = k
      · subst he
        rw [if_pos rfl]
        constructor
        · intro h; cases h; exact .inl rfl
        · rintro (h | h)
          · cases h; rfl
          · exact absurd (List.mem_map.2 ⟨_, h, rfl⟩) hnd.1
      · rw [if_neg he, ih]
        constructor
        · exact .inr
        · rintro (h | h)
          · cases h; exact absurd rfl he
          · exact h
  apply Option.ext
  intro v
  rw [hmem l hnd' v, hget v, hp.mem_iff]

/-! ### Declarations -/

/-- A declaration as a table entry. -/
def declAttr (objects : List Str) (p : CacheProp) : StreamId × ObjectAttribute :=
  (p.streamId, ⟨attrType objects p.objectInd, p.objectInd⟩)

theorem cacheProps_ok (env : Env) (objects : List Str)
    (ps : List CacheProp)
    (h : ∀ p ∈ ps, 0 ≤ p.objectInd.toInt ∧ p.objectInd.toNat < objects.length) :
    cacheProps env objects ps = .ok (ps.map (declAttr objects)) := by
  induction ps with
  | nil => rfl
  | cons p ps ih =>
    obtain ⟨h1, h2⟩ := h p List.mem_cons_self
    have hg : objects[env.usizeOfI32 p.objectInd]? = some objects[p.objectInd.toNat] := by
      rw [usizeOfI32_nonneg env h1, List.getElem?_eq_getElem h2]
    rw [cacheProps, hg]
    simp only
    rw [ih (fun q hq => h q (List.mem_cons_of_mem _ hq)), Res.ok_bind]
    simp [declAttr, attrType, List.getElem?_eq_getElem h2]

theorem cacheProps_err (env : Env) (objects : List Str) (hl : objects.length ≤ 2 ^ 31)
    (ps : List CacheProp)
    (h : ¬∀ p ∈ ps, 0 ≤ p.objectInd.toInt ∧ p.objectInd.toNat < objects.length) :
    ∃ a p b, ps = a ++ p :: b ∧
      (∀ q ∈ a, 0 ≤ q.objectInd.toInt ∧ q.objectInd.toNat < objects.length) ∧
      ¬(0 ≤ p.objectInd.toInt ∧ p.objectInd.toNat < objects.length) ∧
      cacheProps env objects ps = .err (.streamTooLargeIndex p.streamId p.objectInd) := by
  induction ps with
  | nil => exact absurd (by simp) h
  | cons p ps ih =>
    by_cases hp : 0 ≤ p.objectInd.toInt ∧ p.objectInd.toNat < objects.length
    · have h' : ¬∀ p ∈ ps, 0 ≤ p.objectInd.toInt ∧ p.objectInd.toNat < objects.length := by
        intro hh
        apply h
        intro q hq
        rcases List.mem_cons.1 hq with rfl | hq
        · exact hp
        · exact hh q hq
      obtain ⟨a, q, b, h1, h2, h3, h4⟩ := ih h'
      refine ⟨p :: a, q, b, by rw [h1]; rfl, ?_, h3, ?_⟩
      · intro q hq
        rcases List.mem_cons.1 hq with rfl | hq
        · exact hp
        · exact h2 q hq
      · have hg : objects[env.usizeOfI32 p.objectInd]? = some objects[p.objectInd.toNat] := by
          rw [usizeOfI32_nonneg env hp.1, List.getElem?_eq_getElem hp.2]
        rw [cacheProps, hg]
        simp only
        rw [h4]
        rfl
    · refine ⟨[], p, ps, rfl, by simp, hp, ?_⟩
      have hg : objects[env.usizeOfI32 p.objectInd]? = none := by
        apply List.getElem?_eq_none
        by_cases h1 : 0 ≤ p.objectInd.toInt
        · rw [usizeOfI32_nonneg env h1]
          omega
        · have := usizeOfI32_neg env (x := p.objectInd) (by omega)
          omega
      rw [cacheProps, hg]

theorem netProperties_ok (env : Env) (objects : List Str)
    (cs : List ClassNetCache) (h : InRange objects cs)
    (m : HMap (List (StreamId × ObjectAttribute))) :
    ∃ m', netProperties env objects cs m = .ok m' ∧ ∀ o, (m'.get o).getD [] =
      (m.get o).getD [] ++
        ((cs.filter (fun c => c.objectInd == o)).flatMap (·.properties)).map (declAttr objects) := by
  induction cs generalizing m with
  | nil => exact ⟨m, rfl, by simp⟩
  | cons c cs ih =>
    rw [netProperties, cacheProps_ok env objects c.properties (h c List.mem_cons_self),
      Res.ok_bind]
    obtain ⟨m', h1, h2⟩ := ih (fun c hc => h c (List.mem_cons_of_mem _ hc))
      (m.insert c.objectInd ((m.get c.objectInd).getD [] ++ c.properties.map (declAttr objects)))
    refine ⟨m', h1, ?_⟩
    intro o
    rw [h2 o, HMap.get_insert, List.filter_cons]
    by_cases he : o = c.objectInd
    · subst he
      simp
    · have : (c.objectInd == o) = false := by
        rw [beq_eq_false_iff_ne]; exact fun e => he e.symm
      rw [this, if_neg he]
      simp

theorem netProperties_err (env : Env) (objects : List Str) (hl : objects.length ≤ 2 ^ 31)
    (cs : List ClassNetCache) (h : ¬InRange objects cs)
    (m : HMap (List (StreamId × ObjectAttribute))) :
    ∃ a p b, cs.flatMap (·.properties) = a ++ p :: b ∧
      (∀ q ∈ a, 0 ≤ q.objectInd.toInt ∧ q.objectInd.toNat < objects.length) ∧
      ¬(0 ≤ p.objectInd.toInt ∧ p.objectInd.toNat < objects.length) ∧
      netProperties env objects cs m = .err (.streamTooLargeIndex p.streamId p.objectInd) := by
  induction cs generalizing m with
  | nil => exact absurd (fun c hc => by cases hc) h
  | cons c cs ih =>
    by_cases hc : ∀ p ∈ c.properties, 0 ≤ p.objectInd.toInt ∧ p.objectInd.toNat < objects.length
    · have h' : ¬InRange objects cs := by
        intro hh
        apply h
        intro d hd
        rcases List.mem_cons.1 hd with rfl | hd
        · exact hc
        · exact hh d hd
      rw [netProperties, cacheProps_ok env objects c.properties hc, Res.ok_bind]
      obtain ⟨a, p, b, h1, h2, h3, h4⟩ := ih h' (m.insert c.objectInd ((m.get c.objectInd).getD [] ++ c.properties.map (declAttr objects)))
      refine ⟨c.properties ++ a, p, b, by rw [List.flatMap_cons, h1]; simp, ?_, h3, h4⟩
      intro q hq
      rcases List.mem_append.1 hq with hq | hq
      · exact hc q hq
      · exact h2 q hq
    · obtain ⟨a, p, b, h1, h2, h3, h4⟩ := cacheProps_err env objects hl c.properties hc
      refine ⟨a, p, b ++ cs.flatMap (·.properties), ?_, h2, h3, ?_⟩
      · rw [List.flatMap_cons, h1]; simp
      · rw [netProperties, h4]
        rfl

/-! ### Memoised traversal -/

/-- The attribute a lineage gives a stream id, in terms of a table of declarations. -/
def lineAttr (objects : List Str) (props : HMap (List (StreamId × ObjectAttribute)))
    (ns : List Str) (s : StreamId) : Option ObjectAttribute :=
  ns.findSome? fun n => (position objects n).bind fun i =>
    lastOf ((props.get (i32OfNat i)).getD []) s

structure MemoInv (objects : List Str) (props : HMap (List (StreamId × ObjectAttribute)))
    (memo : HMap (HMap ObjectAttribute)) : Prop where
  sorted : memo.Sorted
  sound : ∀ o t, memo.get o = some t → t.Sorted ∧ ∃ n i ns, o = i32OfNat i ∧
    position objects n = some i ∧ Lineage n ns ∧ ns ≠ [] ∧
    ∀ s, t.get s = lineAttr objects props ns s

theorem netWalk_stack (env : Env) (memo : HMap (HMap ObjectAttribute)) (ids stack : List ObjectId) :
    netWalk env memo ids stack =
      ((netWalk env memo ids []).1, stack ++ (netWalk env memo ids []).2) := by
  induction ids generalizing stack with
  | nil => simp [netWalk]
  | cons o os ih =>
    rw [netWalk, netWalk]
    cases memo.get o with
    | some t => simp
    | none =>
      simp only
      rw [ih (stack ++ [o]), ih ([] ++ [o])]
      simp

theorem netFill_snoc (props : HMap (List (StreamId × ObjectAttribute))) (xs : List ObjectId)
    (o : ObjectId) (acc : List (StreamId × ObjectAttribute)) (memo : HMap (HMap ObjectAttribute)) :
    netFill props (xs ++ [o]) acc memo =
      (netFill props xs acc memo).insert o (HMap.extend []
        (acc ++ xs.flatMap (fun o => (props.get o).getD []) ++ (props.get o).getD [])) := by
  induction xs generalizing acc memo with
  | nil => simp [netFill]
  | cons x xs ih =>
    rw [List.cons_append, netFill, netFill, ih]
    simp

theorem netStep (env : Env) (objects : List Str) (hl : objects.length ≤ 2 ^ 31)
    (props : HMap (List (StreamId × ObjectAttribute))) (memo : HMap (HMap ObjectAttribute))
    (hi : MemoInv objects props memo) {n : Str} {ns : List Str} (hn : Lineage n ns) :
    let w := netWalk env memo (lineIds objects ns) []
    let memo' := netFill props w.2.reverse w.1 memo
    MemoInv objects props memo' ∧
    (∀ o, (memo.get o).isSome → (memo'.get o).isSome) ∧
    (∀ s, lastOf (w.1 ++ w.2.reverse.flatMap (fun o => (props.get o).getD [])) s =
      lineAttr objects props ns s) ∧
    (∀ i, ns ≠ [] → position objects n = some i → (memo'.get (i32OfNat i)).isSome) := by
  induction hn with
  | root h =>
    refine ⟨hi, fun o h => h, ?_, fun i h => absurd rfl h⟩
    intro s; rfl
  | @step n p ns h hp ih =>
    obtain ⟨ih1, ih2, ih3, ih4⟩ := ih
    cases hpos : position objects n with
    | none =>
      have e : lineIds objects (n :: ns) = lineIds objects ns := by
        unfold lineIds; rw [List.filterMap_cons, hpos]; rfl
      rw [e]
      refine ⟨ih1, ih2, ?_, fun i _ hi' => by cases hi'⟩
      intro s
      rw [ih3 s]
      unfold lineAttr
      rw [List.findSome?_cons, hpos]
      rfl
    | some i =>
      have hilt := position_lt hpos
      have e : lineIds objects (n :: ns) = i32OfNat i :: lineIds objects ns := by
        unfold lineIds; rw [List.filterMap_cons, hpos]; rfl
      rw [e, netWalk]
      have hcons : ∀ s, lineAttr objects props (n :: ns) s =
          (lastOf ((props.get (i32OfNat i)).getD []) s).orElse fun _ =>
            lineAttr objects props ns s := by
        intro s
        unfold lineAttr
        rw [List.findSome?_cons, hpos]
        simp only [Option.bind_some]
        cases lastOf ((props.get (i32OfNat i)).getD []) s <;> rfl
      cases hg : memo.get (i32OfNat i) with
      | some t =>
        obtain ⟨ht, n', i', ns', hid, hpos', hlin', _, hval⟩ := hi.sound _ _ hg
        have hii : i = i' := i32OfNat_inj (by omega) (by have := position_lt hpos'; omega) hid
        subst hii
        have hnn := position_inj hpos hpos'
        subst hnn
        have hns := lineage_unique hlin' (.step h hp)
        subst hns
        refine ⟨hi, fun o h => h, ?_, ?_⟩
        · intro s
          simp only [List.reverse_nil, List.flatMap_nil, List.append_nil]
          rw [lastOf_perm ht (env.perm_perm t), hval]
        · intro j _ hj
          cases hj
          simp only [List.reverse_nil, netFill]
          rw [hg]; rfl
      | none =>
        simp only
        rw [netWalk_stack]
        simp only [List.nil_append, List.singleton_append, List.reverse_cons]
        rw [netFill_snoc]
        have hval : ∀ s, (HMap.extend [] ((netWalk env memo (lineIds objects ns) []).1 ++
              (netWalk env memo (lineIds objects ns) []).2.reverse.flatMap
                (fun o => (props.get o).getD []) ++ (props.get (i32OfNat i)).getD [])).get s =
            lineAttr objects props (n :: ns) s := by
          intro s
          rw [get_extend, lastOf_append, ih3 s, hcons s]
          cases lastOf ((props.get (i32OfNat i)).getD []) s with
          | some v => rfl
          | none =>
            simp only [Option.orElse_none]
            cases lineAttr objects props ns s <;> rfl
        refine ⟨⟨HMap.sorted_insert ih1.sorted _ _, ?_⟩, ?_, ?_, ?_⟩
        · intro o t ho
          rw [HMap.get_insert] at ho
          split at ho
          · rename_i he
            cases ho
            exact ⟨HMap.sorted_extend _ HMap.sorted_nil, n, i, n :: ns, he, hpos, .step h hp,
              by simp, hval⟩
          · exact ih1.sound o t ho
        · intro o ho
          rw [HMap.get_insert]
          split
          · rfl
          · exact ih2 o ho
        · intro s
          rw [List.flatMap_append, ← List.append_assoc, lastOf_append, ih3 s, hcons s]
          simp
        · intro j _ hj
          cases hj
          rw [HMap.get_insert, if_pos rfl]
          rfl

theorem netLoop_run {ε : Type} (env : Env) (objects : List Str) (hl : objects.length ≤ 2 ^ 31)
    (props : HMap (List (StreamId × ObjectAttribute))) (names : List Str)
    (memo : HMap (HMap ObjectAttribute)) (hi : MemoInv objects props memo) :
    ∃ memo', (netLoop env objects props names memo : Res ε _) = .ok memo' ∧
      MemoInv objects props memo' ∧
      (∀ o, (memo.get o).isSome → (memo'.get o).isSome) ∧
      (∀ n ∈ names, ∀ p i, parentOf n = some p → position objects n = some i →
        (memo'.get (i32OfNat i)).isSome) := by
  induction names generalizing memo with
  | nil => exact ⟨memo, rfl, hi, fun _ h => h, by simp⟩
  | cons n names ih =>
    obtain ⟨ns, hlin, _⟩ := lineage_exists n
    have hh : (hier objects n : Res ε _) = .ok (lineIds objects ns) := by
      unfold hier; rw [← hier_eq objects hlin]
    obtain ⟨h1, h2, h3, h4⟩ := netStep env objects hl props memo hi hlin
    obtain ⟨m', k1, k2, k3, k4⟩ := ih _ h1
    refine ⟨m', ?_, k2, fun o ho => k3 o (h2 o ho), ?_⟩
    · rw [netLoop, hh, Res.ok_bind]
      exact k1
    · intro m hm p i hp hpos
      rcases List.mem_cons.1 hm with rfl | hm
      · refine k3 _ (h4 i ?_ hpos)
        cases hlin with
        | root h => rw [h] at hp; cases hp
        | step => simp
      · exact k4 m hm p i hp hpos

/-! ### Cache entries -/

theorem foldInsert_length {ν : Type} (l : List (I32 × ν)) (a : SegArray ν) :
    (l.foldl (fun a p => a.insert p.1 p.2) a).array.length = a.array.length := by
  induction l generalizing a with
  | nil => rfl
  | cons p l ih => rw [List.foldl_cons, ih, SegArray.insert_length]

theorem foldInsert_get {ν : Type} (l : List (I32 × ν)) (a : SegArray ν) (x : I32) :
    (l.foldl (fun a p => a.insert p.1 p.2) a).get x = (lastOf l x).orElse fun _ => a.get x := by
  induction l generalizing a with
  | nil => rfl
  | cons p l ih =>
    rw [List.foldl_cons, ih, SegArray.get_insert, lastOf_cons]
    cases lastOf l x with
    | some v => rfl
    | none =>
      simp only [Option.orElse_none]
      split <;> rfl

/-- Canonical form: sorted overflow map without array keys. -/
structure SegArray.Canon {ν : Type} (a : SegArray ν) : Prop where
  sorted : a.map.Sorted
  sep : ∀ x, a.inArray x = true → a.map.get x = none

theorem SegArray.canon_insert {ν : Type} {a : SegArray ν} (h : a.Canon) (k : I32) (v : ν) :
    (a.insert k v).Canon := by
  have hc := fun x => SegArray.inArray_congr (SegArray.insert_length a k v) x
  by_cases hk : a.inArray k = true
  · have e : a.insert k v = { a with array := a.array.set k.toNat (some v) } := by
      unfold SegArray.insert; rw [if_pos hk]
    refine ⟨by rw [e]; exact h.sorted, fun x hx => ?_⟩
    rw [hc] at hx
    rw [e]; exact h.sep x hx
  · have e : a.insert k v = { a with map := a.map.insert k v } := by
      unfold SegArray.insert; rw [if_neg hk]
    refine ⟨by rw [e]; exact HMap.sorted_insert h.sorted _ _, fun x hx => ?_⟩
    rw [hc] at hx
    rw [e]
    simp only
    rw [HMap.get_insert, if_neg, h.sep x hx]
    rintro rfl
    exact hk hx

theorem SegArray.canon_fold {ν : Type} (l : List (I32 × ν)) {a : SegArray ν} (h : a.Canon) :
    (l.foldl (fun a p => a.insert p.1 p.2) a).Canon := by
  induction l generalizing a with
  | nil => exact h
  | cons p l ih => exact ih (SegArray.canon_insert h _ _)

theorem SegArray.canon_new {ν : Type} (n : Nat) : (SegArray.new n : SegArray ν).Canon :=
  ⟨HMap.sorted_nil, fun _ _ => rfl⟩

theorem SegArray.ext_get {ν : Type} {a b : SegArray ν} (hl : a.array.length = b.array.length)
    (hs : a.array.length ≤ 2 ^ 31) (ha : a.Canon) (hb : b.Canon) (hg : ∀ x, a.get x = b.get x) :
    a = b := by
  obtain ⟨aa, am⟩ := a
  obtain ⟨ba, bm⟩ := b
  simp only at hl hs
  have h1 : aa = ba := by
    apply List.ext_getElem? 
    intro i
    by_cases hi : i < aa.length
    · have hk : (SegArray.mk aa am).inArray (i32OfNat i) = true := by
        rw [SegArray.inArray_iff _ hs]
        rw [i32OfNat_toNat (by omega)]; exact hi
      have hk' : (SegArray.mk ba bm).inArray (i32OfNat i) = true := by
        rw [SegArray.inArray_iff _ (by rw [← hl]; exact hs)]
        rw [i32OfNat_toNat (by omega)]; simp only; omega
      have := hg (i32OfNat i)
      unfold SegArray.get at this
      rw [if_pos hk, if_pos hk'] at this
      simp only [i32OfNat_toNat (show i < 2 ^ 31 by omega)] at this
      rw [List.getElem?_eq_getElem hi, List.getElem?_eq_getElem (by omega)] at this ⊢
      simp only [Option.getD_some] at this
      rw [this]
    · rw [List.getElem?_eq_none (by omega), List.getElem?_eq_none (by omega)]
  subst h1
  have h2 : am = bm := by
    apply HMap.ext ha.sorted hb.sorted
    intro x
    by_cases hk : (SegArray.mk aa am).inArray x = true
    · rw [ha.sep x hk, hb.sep x hk]
    · have hk' : ¬ (SegArray.mk aa bm).inArray x = true := hk
      have := hg x
      unfold SegArray.get at this
      rwa [if_neg hk, if_neg hk'] at this
  rw [h2]

theorem cacheInfo_get (env : Env) {t : HMap ObjectAttribute} (ht : t.Sorted) (s : StreamId) :
    (cacheInfo env t).attributes.get s = t.get s := by
  unfold cacheInfo
  simp only
  rw [foldInsert_get, lastOf_perm ht (env.perm_perm t), SegArray.get_new]
  cases t.get s <;> rfl

theorem cacheInfo_env (env env' : Env) {t : HMap ObjectAttribute} (ht : t.Sorted) :
    cacheInfo env t = cacheInfo env' t := by
  have : (cacheInfo env t).attributes = (cacheInfo env' t).attributes := by
    apply SegArray.ext_get
    · unfold cacheInfo; simp only [foldInsert_length]
    · unfold cacheInfo; simp only [foldInsert_length, SegArray.new, List.length_replicate]; decide
    · exact SegArray.canon_fold _ (SegArray.canon_new _)
    · exact SegArray.canon_fold _ (SegArray.canon_new _)
    · intro x; rw [cacheInfo_get env ht, cacheInfo_get env' ht]
  unfold cacheInfo at this ⊢
  simp only at this ⊢
  rw [this]

/-! ### The table -/

theorem cacheFill_run {ε : Type} (env : Env) (n : Nat) (hn : n ≤ 2 ^ 31)
    (l : List (ObjectId × HMap ObjectAttribute))
    (hk : ∀ p ∈ l, ∃ i, p.1 = i32OfNat i ∧ i < n) (xs : List (Option CacheInfo))
    (hx : xs.length = n) :
    ∃ xs', (cacheFill env l xs : Res ε _) = .ok xs' ∧ xs'.length = n ∧
      ∀ i, i < n → xs'[i]? = match lastOf l (i32OfNat i) with
        | some t => some (some (cacheInfo env t))
        | none => xs[i]? := by
  induction l generalizing xs with
  | nil => exact ⟨xs, rfl, hx, fun i _ => rfl⟩
  | cons p l ih =>
    obtain ⟨o, t⟩ := p
    obtain ⟨j, hj, hjn⟩ := hk _ List.mem_cons_self
    simp only at hj
    subst hj
    rw [cacheFill, setIdx_ok env (by omega) (by omega), Res.ok_bind]
    obtain ⟨xs', h1, h2, h3⟩ := ih (fun p hp => hk p (List.mem_cons_of_mem _ hp))
      (xs.set j (some (cacheInfo env t))) (by simpa using hx)
    refine ⟨xs', h1, h2, ?_⟩
    intro i hi
    rw [h3 i hi, lastOf_cons]
    cases lastOf l (i32OfNat i) with
    | some u => rfl
    | none =>
      simp only [Option.orElse_none]
      by_cases he : i = j
      · subst he
        rw [if_pos rfl, List.getElem?_set_self (by omega)]
      · have : i32OfNat i ≠ i32OfNat j := fun e => he (i32OfNat_inj (by omega) (by omega) e)
        rw [if_neg this, List.getElem?_set_ne (fun e => he e.symm)]

theorem lineAttr_eq (objects : List Str) (cs : List ClassNetCache)
    (props : HMap (List (StreamId × ObjectAttribute)))
    (h : ∀ o, (props.get o).getD [] =
      ((cs.filter (fun c => c.objectInd == o)).flatMap (·.properties)).map (declAttr objects))
    (ns : List Str) (s : StreamId) :
    lineAttr objects props ns s = (inherited objects cs ns s).map
      fun p => ⟨attrType objects p.objectInd, p.objectInd⟩ := by
  unfold lineAttr inherited
  induction ns with
  | nil => rfl
  | cons n ns ih =>
    rw [List.findSome?_cons, List.findSome?_cons, ih]
    have e : ((position objects n).bind fun i => lastOf ((props.get (i32OfNat i)).getD []) s) =
        (((position objects n).bind fun i => declared cs s i).map
          fun p => (⟨attrType objects p.objectInd, p.objectInd⟩ : ObjectAttribute)) := by
      cases position objects n with
      | none => rfl
      | some i =>
        simp only [Option.bind_some]
        rw [h, lastOf_map]
        rfl
    rw [e]
    cases (position objects n).bind fun i => declared cs s i <;> rfl

theorem HMap.get_of_mem {ν : Type} {m : HMap ν} (hs : m.Sorted) {p : I32 × ν} (hp : p ∈ m) :
    m.get p.1 = some p.2 := by
  induction m with
  | nil => cases hp
  | cons q m ih =>
    obtain ⟨hs1, hs2⟩ := List.pairwise_cons.1 hs
    obtain ⟨k, v⟩ := q
    rw [HMap.get_cons]
    rcases List.mem_cons.1 hp with rfl | hp'
    · rw [if_pos rfl]
    · have hlt := hs1 p hp'
      rw [if_neg, ih hs2 hp']
      rintro rfl
      exact Nat.lt_irrefl _ hlt

/-- The attribute table of the object at position `i`: none for names without a parent and for
later occurrences of a name; otherwise what the lineage gives. -/
theorem cacheTable_run (env : Env) (objects : List Str) (hl : objects.length ≤ 2 ^ 31)
    (cs : List ClassNetCache) (h : InRange objects cs) :
    ∃ caches, cacheTable env objects cs = .ok caches ∧ caches.length = objects.length ∧
      (∀ i n, objects[i]? = some n → ¬(FirstAt objects n i ∧ parentOf n ≠ none) →
        caches[i]? = some none) ∧
      (∀ i n ns, FirstAt objects n i → Lineage n ns → ns ≠ [] →
        ∃ t : HMap ObjectAttribute, t.Sorted ∧
          (∀ s, t.get s = (inherited objects cs ns s).map
            fun p => ⟨attrType objects p.objectInd, p.objectInd⟩) ∧
          caches[i]? = some (some (cacheInfo env t))) := by
  obtain ⟨props, h1, h2⟩ := netProperties_ok env objects cs h []
  have h2 : ∀ o, (props.get o).getD [] =
      ((cs.filter (fun c => c.objectInd == o)).flatMap (·.properties)).map (declAttr objects) := by
    intro o; rw [h2 o]; rfl
  obtain ⟨memo, g1, g2, _, g4⟩ := netLoop_run (ε := NetworkError) env objects hl props objects []
    ⟨HMap.sorted_nil, fun o t ho => by cases ho⟩
  have hkeys : ∀ p ∈ env.perm memo, ∃ i, p.1 = i32OfNat i ∧ i < objects.length := by
    intro p hp
    have hp := (env.perm_perm memo).mem_iff.1 hp
    have hnd := HMap.get_of_mem g2.sorted hp
    obtain ⟨_, n, i, _, hid, hpos, _⟩ := g2.sound _ _ hnd
    exact ⟨i, hid, position_lt hpos⟩
  obtain ⟨caches, k1, k2, k3⟩ := cacheFill_run (ε := NetworkError) env objects.length hl
    (env.perm memo) hkeys (List.replicate objects.length none) List.length_replicate
  refine ⟨caches, ?_, k2, ?_, ?_⟩
  · unfold cacheTable
    rw [h1, Res.ok_bind, g1, Res.ok_bind, k1]
  · intro i n hn hc
    have hilt : i < objects.length := (List.getElem?_eq_some_iff.1 hn).1
    rw [k3 i hilt, lastOf_perm g2.sorted (env.perm_perm memo)]
    cases hg : memo.get (i32OfNat i) with
    | none => simp [hilt]
    | some t =>
      obtain ⟨_, n', i', ns, hid, hpos, hlin, hne, _⟩ := g2.sound _ _ hg
      have := i32OfNat_inj (by omega) (by have := position_lt hpos; omega) hid
      subst this
      have hn' := position_get hpos
      rw [hn] at hn'
      cases hn'
      exfalso
      apply hc
      refine ⟨position_iff.1 hpos, ?_⟩
      cases hlin with
      | root => exact absurd rfl hne
      | step h => rw [h]; simp
  · intro i n ns hf hlin hne
    have hpos := position_iff.2 hf
    have hilt := position_lt hpos
    have hsome : (memo.get (i32OfNat i)).isSome := by
      cases hlin with
      | root => exact absurd rfl hne
      | @step _ p _ h hp => exact g4 n (List.mem_of_getElem? hf.1) p i h hpos
    obtain ⟨t, ht⟩ := Option.isSome_iff_exists.1 hsome
    obtain ⟨hts, n', i', ns', hid, hpos', hlin', _, hval⟩ := g2.sound _ _ ht
    have := i32OfNat_inj (by omega) (by have := position_lt hpos'; omega) hid
    subst this
    have := position_inj hpos hpos'
    subst this
    have := lineage_unique hlin hlin'
    subst this
    refine ⟨t, hts, ?_, ?_⟩
    · intro s
      rw [hval s, lineAttr_eq objects cs props h2]
    · rw [k3 i hilt, lastOf_perm g2.sorted (env.perm_perm memo), ht]

theorem cacheTable_err (env : Env) (objects : List Str) (hl : objects.length ≤ 2 ^ 31)
    (cs : List ClassNetCache) (h : ¬InRange objects cs) :
    ∃ a p b, cs.flatMap (·.properties) = a ++ p :: b ∧
      (∀ q ∈ a, 0 ≤ q.objectInd.toInt ∧ q.objectInd.toNat < objects.length) ∧
      ¬(0 ≤ p.objectInd.toInt ∧ p.objectInd.toNat < objects.length) ∧
      cacheTable env objects cs = .err (.streamTooLargeIndex p.streamId p.objectInd) := by
  obtain ⟨a, p, b, h1, h2, h3, h4⟩ := netProperties_err env objects hl cs h []
  refine ⟨a, p, b, h1, h2, h3, ?_⟩
  unfold cacheTable
  rw [h4]
  rfl

end Boxcars
