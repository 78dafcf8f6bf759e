import Verif.Proofs.Tree
import Verif.Proofs.SegArray
import Verif.Model.Network
/-!
# The spawn table
-/
namespace Boxcars
open Spec Network

/-! ### Indices -/

theorem i32OfNat_toInt {i : Nat} (h : i < 2 ^ 31) : (i32OfNat i).toInt = i := by
  have h2 : (i32OfNat i).toNat = i := by
    unfold i32OfNat; rw [BitVec.toNat_ofNat]; omega
  rw [BitVec.toInt_eq_toNat_cond, h2, if_pos (by omega)]

theorem i32OfNat_toNat {i : Nat} (h : i < 2 ^ 31) : (i32OfNat i).toNat = i := by
  unfold i32OfNat
  rw [BitVec.toNat_ofNat]
  omega

theorem usize_i32OfNat (env : Env) {i : Nat} (h : i < 2 ^ 31) : env.usizeOfI32 (i32OfNat i) = i := by
  rw [usizeOfI32_nonneg env (by rw [i32OfNat_toInt h]; omega), i32OfNat_toNat h]

theorem i32OfNat_inj {i j : Nat} (hi : i < 2 ^ 31) (hj : j < 2 ^ 31) (h : i32OfNat i = i32OfNat j) :
    i = j := by
  rw [← i32OfNat_toNat hi, ← i32OfNat_toNat hj, h]

theorem nth_i32OfNat {α : Type} (xs : List α) {i : Nat} (h : i < 2 ^ 31) :
    nth xs (i32OfNat i) = xs[i]? := by
  unfold nth
  rw [if_pos (by rw [i32OfNat_toInt h]; omega), i32OfNat_toNat h]

theorem Res.ok_bind {ε α β : Type} (a : α) (f : α → Res ε β) : ((Res.ok a : Res ε α) >>= f) = f a := rfl
theorem Res.err_bind {ε α β : Type} (e : ε) (f : α → Res ε β) :
    ((Res.err e : Res ε α) >>= f) = .err e := rfl

theorem idx_ok {ε α : Type} (env : Env) {xs : List α} {i : Nat} {a : α} (hi : i < 2 ^ 31)
    (h : xs[i]? = some a) : (idx env xs (i32OfNat i) : Res ε α) = .ok a := by
  unfold idx
  rw [usize_i32OfNat env hi, h]

theorem setIdx_ok {ε α : Type} (env : Env) {xs : List α} {i : Nat} {a : α} (hi : i < 2 ^ 31)
    (h : i < xs.length) : (setIdx env xs (i32OfNat i) a : Res ε _) = .ok (xs.set i a) := by
  unfold setIdx
  rw [usize_i32OfNat env hi, if_pos h]

/-! ### Initial entries -/

theorem spawnStats_parents : spawnStats.all (fun p => decide (p.1.utf8ByteSize ≤ 38) &&
    (parentClasses.lookup p.1).isSome) = true := by decide +kernel

theorem spawnStats_nodup : (spawnStats.map Prod.fst).Nodup := by decide +kernel

theorem spawnDecl_parent {n : Str} {sp : SpawnTrajectory} (h : spawnDecl n = some sp) :
    ∃ p, parentOf n = some p := by
  have := List.all_eq_true.1 spawnStats_parents _ (lookup_mem h)
  rw [Bool.and_eq_true, decide_eq_true_iff] at this
  obtain ⟨h1, h2⟩ := this
  obtain ⟨p, hp⟩ := Option.isSome_iff_exists.1 h2
  refine ⟨p.toList, ?_⟩
  unfold parentOf parentClass normalizeObject
  have hl : Str.byteLen n ≤ 38 := by
    have := byteLen_toList (String.ofList n)
    rw [String.toList_ofList] at this
    rw [this]; exact h1
  rw [if_pos hl, hp]
  rfl

theorem spawnInit_run {ε : Type} (env : Env) (objects : List Str) (hl : objects.length ≤ 2 ^ 31)
    (l : List (String × SpawnTrajectory)) (hnd : (l.map Prod.fst).Nodup)
    (spawns : List (Option SpawnTrajectory)) (hs : spawns.length = objects.length) :
    ∃ spawns', (spawnInit env objects l spawns : Res ε _) = .ok spawns' ∧
      spawns'.length = objects.length ∧
      (∀ m i, position objects m = some i → spawns'[i]? =
        match l.lookup (String.ofList m) with
        | some sp => some (some sp)
        | none => spawns[i]?) ∧
      (∀ i, (∀ m, position objects m ≠ some i) → spawns'[i]? = spawns[i]?) := by
  induction l generalizing spawns with
  | nil => exact ⟨spawns, rfl, hs, fun m i _ => rfl, fun i _ => rfl⟩
  | cons p l ih =>
    obtain ⟨name, sp⟩ := p
    rw [List.map_cons, List.nodup_cons] at hnd
    rw [spawnInit, byName_eq]
    have key : ∀ m, m ≠ name.toList → (String.ofList m == name) = false := by
      intro m hm
      rw [beq_eq_false_iff_ne]
      rintro rfl
      exact hm (String.toList_ofList).symm
    cases hp : position objects name.toList with
    | none =>
      obtain ⟨s', h1, h2, h3, h4⟩ := ih hnd.2 spawns hs
      refine ⟨s', h1, h2, ?_, h4⟩
      intro m i hm
      rw [h3 m i hm, List.lookup_cons, key m]
      rintro rfl
      rw [hp] at hm; cases hm
    | some j =>
      have hj := position_lt hp
      simp only [Option.map_some]
      rw [setIdx_ok env (by omega) (by omega), Res.ok_bind]
      obtain ⟨s', h1, h2, h3, h4⟩ := ih hnd.2 (spawns.set j (some sp)) (by simpa using hs)
      refine ⟨s', h1, h2, ?_, ?_⟩
      · intro m i hm
        rw [h3 m i hm, List.lookup_cons]
        by_cases he : m = name.toList
        · subst he
          rw [hp] at hm
          cases hm
          have : l.lookup name = none := by
            cases hx : l.lookup name with
            | none => rfl
            | some x => exact absurd (List.mem_map.2 ⟨_, lookup_mem hx, rfl⟩) hnd.1
          rw [String.ofList_toList, this, beq_self_eq_true]
          simp only
          rw [List.getElem?_set_self (by omega)]
        · have hij : j ≠ i := by
            rintro rfl
            exact he (position_inj hm hp)
          rw [key m he, List.getElem?_set_ne hij]
      · intro i hi
        rw [h4 i hi, List.getElem?_set_ne]
        rintro rfl
        exact hi _ hp

/-! ### Memoisation -/

/-- Entries made so far are right. -/
structure SpawnInv (objects : List Str) (spawns : List (Option SpawnTrajectory)) : Prop where
  length : spawns.length = objects.length
  sound : ∀ m ns i sp, position objects m = some i → Lineage m ns →
    spawns[i]? = some (some sp) → sp = spawnOf objects ns
  decl : ∀ m i sp, position objects m = some i → spawnDecl m = some sp →
    spawns[i]? = some (some sp)
  dup : ∀ i, i < objects.length → (∀ m, position objects m ≠ some i) → spawns[i]? = some none

/-- The entry has been made. -/
def Done (spawns : List (Option SpawnTrajectory)) (i : Nat) : Prop :=
  ∃ sp, spawns[i]? = some (some sp)

theorem spawnOf_cons_decl {objects : List Str} {n : Str} {ns : List Str} {i : Nat}
    {sp : SpawnTrajectory} (h : position objects n = some i) (hd : spawnDecl n = some sp) :
    spawnOf objects (n :: ns) = sp := by
  unfold spawnOf
  rw [List.findSome?_cons, h]
  simp [hd]

theorem spawnOf_cons_skip {objects : List Str} {n : Str} {ns : List Str}
    (h : position objects n = none ∨ spawnDecl n = none) :
    spawnOf objects (n :: ns) = spawnOf objects ns := by
  unfold spawnOf
  rw [List.findSome?_cons]
  rcases h with h | h
  · rw [h]; rfl
  · rw [h]
    cases position objects n <;> rfl

theorem spawnInit_inv {ε : Type} (env : Env) (objects : List Str) (hl : objects.length ≤ 2 ^ 31) :
    ∃ spawns, (spawnInit env objects spawnStats (List.replicate objects.length none) : Res ε _)
      = .ok spawns ∧ SpawnInv objects spawns := by
  obtain ⟨s, h1, h2, h3, h4⟩ := spawnInit_run (ε := ε) env objects hl spawnStats spawnStats_nodup
    (List.replicate objects.length none) List.length_replicate
  refine ⟨s, h1, h2, ?_, ?_, ?_⟩
  · intro m ns i sp hm hn hs
    rw [h3 m i hm] at hs
    cases hd : spawnDecl m with
    | some sp' =>
      have hd' : spawnStats.lookup (String.ofList m) = some sp' := hd
      rw [hd'] at hs
      cases hs
      obtain ⟨p, hp⟩ := spawnDecl_parent hd
      cases hn with
      | root h => rw [h] at hp; cases hp
      | step _ _ => exact (spawnOf_cons_decl hm hd).symm
    | none =>
      have hd' : spawnStats.lookup (String.ofList m) = none := hd
      rw [hd'] at hs
      simp only [List.getElem?_replicate] at hs
      split at hs <;> cases hs
  · intro m i sp hm hd
    have hd' : spawnStats.lookup (String.ofList m) = some sp := hd
    rw [h3 m i hm, hd']
  · intro i hi hd
    rw [h4 i hd, List.getElem?_replicate, if_pos hi]

theorem spawnWalk_run {ε : Type} (env : Env) (objects : List Str) (hl : objects.length ≤ 2 ^ 31)
    (spawns : List (Option SpawnTrajectory)) (hi : SpawnInv objects spawns)
    {n : Str} {ns : List Str} (hn : Lineage n ns) (stack : List ObjectId) :
    ∃ mid, (spawnWalk env spawns (lineIds objects ns) stack : Res ε _) =
        .ok (spawnOf objects ns, stack ++ mid) ∧
      (∀ id ∈ mid, ∃ m i ms, id = i32OfNat i ∧ position objects m = some i ∧ Lineage m ms ∧
        spawnDecl m = none ∧ spawnOf objects ms = spawnOf objects ns) ∧
      (∀ i, ns ≠ [] → position objects n = some i → Done spawns i ∨ i32OfNat i ∈ mid) := by
  induction hn generalizing stack with
  | root h => exact ⟨[], by simp [lineIds, spawnWalk, spawnOf], by simp, fun i h => absurd rfl h⟩
  | @step n p ns h hp ih =>
    cases hpos : position objects n with
    | none =>
      obtain ⟨mid, h1, h2, h3⟩ := ih stack
      have e : lineIds objects (n :: ns) = lineIds objects ns := by
        unfold lineIds; rw [List.filterMap_cons, hpos]; rfl
      rw [e, h1, spawnOf_cons_skip (.inl hpos)]
      exact ⟨mid, rfl, h2, fun i _ hi' => by cases hi'⟩
    | some i =>
      have hilt := position_lt hpos
      have e : lineIds objects (n :: ns) = i32OfNat i :: lineIds objects ns := by
        unfold lineIds; rw [List.filterMap_cons, hpos]; rfl
      rw [e, spawnWalk]
      have hget : ∃ x, spawns[i]? = some x :=
        ⟨_, List.getElem?_eq_getElem (by rw [hi.length]; exact hilt)⟩
      obtain ⟨x, hx⟩ := hget
      rw [idx_ok env (by omega) hx, Res.ok_bind]
      cases x with
      | some sp =>
        have := hi.sound n (n :: ns) i sp hpos (.step h hp) hx
        subst this
        refine ⟨[], by simp, by simp, ?_⟩
        intro j _ hj
        cases hj
        exact .inl ⟨_, hx⟩
      | none =>
        have hd : spawnDecl n = none := by
          cases hd : spawnDecl n with
          | none => rfl
          | some sp =>
            have := hi.decl n i sp hpos hd
            rw [hx] at this; cases this
        obtain ⟨mid, h1, h2, h3⟩ := ih (stack ++ [i32OfNat i])
        simp only
        rw [h1, spawnOf_cons_skip (.inr hd)]
        refine ⟨i32OfNat i :: mid, by simp, ?_, ?_⟩
        · intro id hid
          rcases List.mem_cons.1 hid with rfl | hid
          · exact ⟨n, i, n :: ns, rfl, hpos, .step h hp, hd, spawnOf_cons_skip (.inr hd)⟩
          · exact h2 id hid
        · intro j _ hj
          cases hj
          exact .inr List.mem_cons_self

theorem spawnFill_run {ε : Type} (env : Env) (objects : List Str) (hl : objects.length ≤ 2 ^ 31)
    (result : SpawnTrajectory) (ids : List ObjectId)
    (hids : ∀ id ∈ ids, ∃ m i ms, id = i32OfNat i ∧ position objects m = some i ∧ Lineage m ms ∧
        spawnDecl m = none ∧ spawnOf objects ms = result)
    (spawns : List (Option SpawnTrajectory)) (hi : SpawnInv objects spawns) :
    ∃ spawns', (spawnFill env result ids spawns : Res ε _) = .ok spawns' ∧
      SpawnInv objects spawns' ∧ (∀ i, Done spawns i → Done spawns' i) ∧
      (∀ i, i < 2 ^ 31 → i32OfNat i ∈ ids → Done spawns' i) := by
  induction ids generalizing spawns with
  | nil => exact ⟨spawns, rfl, hi, fun _ h => h, by simp⟩
  | cons o ids ih =>
    obtain ⟨m, i, ms, rfl, hpos, hlin, hdecl, hsp⟩ := hids o List.mem_cons_self
    have hilt := position_lt hpos
    rw [spawnFill, setIdx_ok env (by omega) (by rw [hi.length]; exact hilt), Res.ok_bind]
    have hset : ∀ j, (spawns.set i (some result))[j]? =
        if i = j then some (some result) else spawns[j]? := by
      intro j
      rw [List.getElem?_set]
      split
      · rw [if_pos (by rw [hi.length]; omega)]
      · rfl
    have hinv : SpawnInv objects (spawns.set i (some result)) := by
      refine ⟨by rw [List.length_set]; exact hi.length, ?_, ?_, ?_⟩
      · intro m' ns' j sp hm' hn' hs
        rw [hset] at hs
        split at hs
        · rename_i hij
          subst hij
          cases hs
          have := position_inj hpos hm'
          subst this
          rw [lineage_unique hn' hlin, hsp]
        · exact hi.sound m' ns' j sp hm' hn' hs
      · intro m' j sp hm' hd
        rw [hset, if_neg]
        · exact hi.decl m' j sp hm' hd
        · rintro rfl
          have := position_inj hpos hm'
          subst this
          rw [hdecl] at hd; cases hd
      · intro j hj hd
        rw [hset, if_neg]
        · exact hi.dup j hj hd
        · rintro rfl
          exact hd _ hpos
    obtain ⟨s', h1, h2, h3, h4⟩ := ih (fun id hid => hids id (List.mem_cons_of_mem _ hid)) _ hinv
    have hmono : ∀ j, Done spawns j → Done (spawns.set i (some result)) j := by
      rintro j ⟨sp, hj⟩
      unfold Done
      rw [hset]
      split
      · exact ⟨_, rfl⟩
      · exact ⟨sp, hj⟩
    refine ⟨s', h1, h2, fun j hj => h3 j (hmono j hj), ?_⟩
    intro j hj hmem
    rcases List.mem_cons.1 hmem with he | hmem
    · have := i32OfNat_inj hj (by omega) he
      subst this
      exact h3 j ⟨result, by rw [hset, if_pos rfl]⟩
    · exact h4 j hj hmem

theorem spawnLoop_run {ε : Type} (env : Env) (objects : List Str) (hl : objects.length ≤ 2 ^ 31)
    (names : List Str) (spawns : List (Option SpawnTrajectory)) (hi : SpawnInv objects spawns) :
    ∃ spawns', (spawnLoop env objects names spawns : Res ε _) = .ok spawns' ∧
      SpawnInv objects spawns' ∧ (∀ i, Done spawns i → Done spawns' i) ∧
      (∀ n ∈ names, ∀ p i, parentOf n = some p → position objects n = some i →
        Done spawns' i) := by
  induction names generalizing spawns with
  | nil => exact ⟨spawns, rfl, hi, fun _ h => h, by simp⟩
  | cons n names ih =>
    obtain ⟨ns, hlin, _⟩ := lineage_exists n
    have hh : (hier objects n : Res ε _) = .ok (lineIds objects ns) := by
      unfold hier; rw [← hier_eq objects hlin]
    obtain ⟨mid, h1, h2, h3⟩ := spawnWalk_run (ε := ε) env objects hl spawns hi hlin []
    rw [spawnLoop, hh, Res.ok_bind, h1, Res.ok_bind]
    simp only [List.nil_append]
    obtain ⟨s1, g1, g2, g3, g4⟩ := spawnFill_run (ε := ε) env objects hl (spawnOf objects ns) mid h2
      spawns hi
    rw [g1, Res.ok_bind]
    obtain ⟨s', k1, k2, k3, k4⟩ := ih s1 g2
    refine ⟨s', k1, k2, fun i hd => k3 i (g3 i hd), ?_⟩
    intro m hm p i hp hpos
    rcases List.mem_cons.1 hm with rfl | hm
    · refine k3 i ?_
      have hne : ns ≠ [] := by
        cases hlin with
        | root h => rw [h] at hp; cases hp
        | step => simp
      rcases h3 i hne hpos with hd | hd
      · exact g3 i hd
      · exact g4 i (by have := position_lt hpos; omega) hd
    · exact k4 m hm p i hp hpos

/-- The spawn table: the first object of each name has the behaviour of its lineage, later
ones none. -/
theorem spawnTable_run {ε : Type} (env : Env) (objects : List Str) (hl : objects.length ≤ 2 ^ 31) :
    ∃ spawns, (spawnTable env objects : Res ε _) = .ok spawns ∧
      spawns.length = objects.length ∧
      (∀ i n ns, FirstAt objects n i → Lineage n ns →
        (spawns.map (fun x => x.getD .none))[i]? = some (spawnOf objects ns)) ∧
      (∀ i n, objects[i]? = some n → ¬FirstAt objects n i →
        (spawns.map (fun x => x.getD .none))[i]? = some .none) := by
  obtain ⟨s0, h1, h2⟩ := spawnInit_inv (ε := ε) env objects hl
  obtain ⟨s1, g1, g2, g3, g4⟩ := spawnLoop_run (ε := ε) env objects hl objects s0 h2
  refine ⟨s1, by unfold spawnTable; rw [h1, Res.ok_bind, g1], g2.length, ?_, ?_⟩
  · intro i n ns hf hlin
    have hpos := position_iff.2 hf
    have hilt := position_lt hpos
    rw [List.getElem?_map]
    cases hx : s1[i]? with
    | none => rw [List.getElem?_eq_none_iff, g2.length] at hx; omega
    | some x =>
      cases x with
      | some sp =>
        have := g2.sound n ns i sp hpos hlin hx
        subst this
        rfl
      | none =>
        cases hlin with
        | root h => rfl
        | @step _ p _ h hp =>
          obtain ⟨sp, hd⟩ := g4 n (List.mem_of_getElem? hf.1) p i h hpos
          rw [hx] at hd; cases hd
  · intro i n hn hf
    rw [List.getElem?_map, g2.dup i (List.getElem?_eq_some_iff.1 hn).1]
    · rfl
    · intro m hm
      obtain ⟨h5, h6⟩ := position_iff.1 hm
      rw [hn] at h5
      cases h5
      exact hf ⟨hn, h6⟩

end Boxcars
