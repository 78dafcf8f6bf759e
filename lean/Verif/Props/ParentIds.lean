import Verif.Spec.ParentIds
import Verif.Props.Tables
import Verif.Props.Depends
/-!
# C78: inheritance by parent ids
-/
namespace Boxcars.Props
open Boxcars Spec Network

/-! ### Lineages and descent -/

theorem descends_length {n m : Str} (h : Descends n m) {ns ms : List Str} (hn : Lineage n ns)
    (hm : Lineage m ms) : ms.length ≤ ns.length := by
  induction h generalizing ns with
  | refl => rw [lineage_unique hn hm]
  | step hp _ ih =>
    cases hn with
    | root h0 => rw [hp] at h0; cases h0
    | step h1 h2 =>
      rw [hp] at h1
      cases h1
      have := ih h2 hm
      rw [List.length_cons]
      omega

theorem descends_trans {n m k : Str} (h : Descends n m) (h' : Descends m k) : Descends n k := by
  induction h with
  | refl => exact h'
  | step hp _ ih => exact .step hp (ih h')

/-- No name is above itself. -/
theorem above_irrefl {n p : Str} (hp : parentOf n = some p) : ¬Descends p n := by
  intro hd
  obtain ⟨ns, h1, -⟩ := lineage_exists n
  cases h1 with
  | root h0 => rw [hp] at h0; cases h0
  | step h2 h3 =>
    rw [hp] at h2
    cases h2
    have := descends_length hd h3 (.step hp h3)
    rw [List.length_cons] at this
    omega

/-! ### Entries -/

section
variable {objects : List Str} {cs : List ClassNetCache}

theorem filter_single (hd : (cs.map (·.objectInd)).Nodup) {c : ClassNetCache} (hc : c ∈ cs) :
    cs.filter (fun x => x.objectInd == c.objectInd) = [c] := by
  induction cs with
  | nil => cases hc
  | cons x cs ih =>
    rw [List.map_cons, List.nodup_cons] at hd
    rcases List.mem_cons.1 hc with rfl | hc
    · rw [List.filter_cons_of_pos (by simp)]
      congr 1
      rw [List.filter_eq_nil_iff]
      intro y hy h
      rw [beq_iff_eq] at h
      exact hd.1 (List.mem_map.2 ⟨y, hy, h⟩)
    · rw [List.filter_cons_of_neg, ih hd.2 hc]
      intro h
      rw [beq_iff_eq] at h
      exact hd.1 (List.mem_map.2 ⟨c, hc, h.symm⟩)

theorem declared_entry (hc : Consistent objects cs) {c : ClassNetCache} (h : c ∈ cs) {n : Str}
    (hn : EntryFor objects c n) (s : StreamId) :
    (position objects n).bind (declared cs s) =
      c.properties.reverse.find? (fun p => p.streamId == s) := by
  obtain ⟨n', hf⟩ := hc.first c h
  have : n' = n := Option.some.inj (hf.1.symm.trans hn)
  subst this
  rw [position_iff.2 hf, Option.bind_some, declared, declarations, BitVec.ofNat_toNat,
    BitVec.setWidth_eq, filter_single hc.single h]
  simp

theorem declared_none (hl : objects.length ≤ 2 ^ 31) {n : Str}
    (hn : ∀ c ∈ cs, ¬EntryFor objects c n) (s : StreamId) :
    (position objects n).bind (declared cs s) = none := by
  cases hp : position objects n with
  | none => rfl
  | some i =>
    have hi := position_lt hp
    rw [Option.bind_some, declared, declarations]
    have : cs.filter (fun c => c.objectInd == BitVec.ofNat 32 i) = [] := by
      rw [List.filter_eq_nil_iff]
      intro c hc h
      rw [beq_iff_eq] at h
      apply hn c hc
      rw [EntryFor, h, BitVec.toNat_ofNat, Nat.mod_eq_of_lt (by omega)]
      exact (position_iff.1 hp).1
    rw [this]
    rfl

theorem inherited_cons (n : Str) (ns : List Str) (s : StreamId) :
    inherited objects cs (n :: ns) s =
      ((position objects n).bind (declared cs s)).or (inherited objects cs ns s) := by
  rw [inherited, List.findSome?_cons, ← inherited]
  cases (position objects n).bind (declared cs s) <;> rfl

/-- Names without an entry add nothing. -/
theorem inherited_nearest (hl : objects.length ≤ 2 ^ 31) {n m : Str} (hd : Descends n m)
    (hq : ∀ q ∈ cs, ∀ k, EntryFor objects q k → Descends n k → Descends m k) {ns ms : List Str}
    (hn : Lineage n ns) (hm : Lineage m ms) (s : StreamId) :
    inherited objects cs ns s = inherited objects cs ms s := by
  induction hd generalizing ns with
  | refl => rw [lineage_unique hn hm]
  | @step n p m hp hd ih =>
    cases hn with
    | root h0 => rw [hp] at h0; cases h0
    | step h1 h2 =>
      rw [hp] at h1
      cases h1
      rw [inherited_cons, declared_none hl, Option.none_or]
      · exact ih (fun q h k h3 h4 => hq q h k h3 (.step hp h4)) h2 hm
      · intro c hc he
        exact above_irrefl hp (descends_trans hd (hq c hc n he .refl))

theorem inherited_nothing (hl : objects.length ≤ 2 ^ 31) {n : Str} {ns : List Str}
    (hn : Lineage n ns) (hq : ∀ q ∈ cs, ∀ k, EntryFor objects q k → ¬Descends n k)
    (s : StreamId) : inherited objects cs ns s = none := by
  induction hn with
  | root => rfl
  | @step n p ns hp _ ih =>
    rw [inherited_cons, declared_none hl (fun c hc he => hq c hc n he .refl), Option.none_or]
    exact ih fun q h k h3 h4 => hq q h k h3 (.step hp h4)

/-- If there is an entry at or above a name, there is a nearest one. -/
theorem nearest_exists {n : Str} {ns : List Str} (hn : Lineage n ns)
    (he : ∃ q ∈ cs, ∃ k, EntryFor objects q k ∧ Descends n k) :
    ∃ p ∈ cs, ∃ m, EntryFor objects p m ∧ Descends n m ∧
      ∀ q ∈ cs, ∀ k, EntryFor objects q k → Descends n k → Descends m k := by
  induction hn with
  | @root n h0 =>
    obtain ⟨q, hq, k, h1, h2⟩ := he
    cases h2 with
    | refl => exact ⟨q, hq, n, h1, .refl, fun _ _ _ _ h => h⟩
    | step h3 => rw [h0] at h3; cases h3
  | @step n p ns hp _ ih =>
    by_cases h : ∃ q ∈ cs, EntryFor objects q n
    · obtain ⟨q, hq, h1⟩ := h
      exact ⟨q, hq, n, h1, .refl, fun _ _ _ _ h => h⟩
    · have down : ∀ q ∈ cs, ∀ k, EntryFor objects q k → Descends n k → Descends p k := by
        intro q hq k h1 h2
        cases h2 with
        | refl => exact absurd ⟨q, hq, h1⟩ h
        | step h3 h4 => rw [hp] at h3; cases h3; exact h4
      obtain ⟨q, hq, k, h1, h2⟩ := he
      obtain ⟨e, he, m, h3, h4, h5⟩ := ih ⟨q, hq, k, h1, down q hq k h1 h2⟩
      exact ⟨e, he, m, h3, .step hp h4, fun q hq k h6 h7 => h5 q hq k h6 (down q hq k h6 h7)⟩

theorem documented_cons (c : ClassNetCache) (es : List ClassNetCache) (s : StreamId) :
    documented (c :: es) s =
      (c.properties.reverse.find? (fun p => p.streamId == s)).or (documented es s) := by
  rw [documented, List.findSome?_cons, ← documented]
  cases c.properties.reverse.find? (fun p => p.streamId == s) <;> rfl

/-- Inheritance by parent ids is inheritance by names where the net cache agrees with the class
table. -/
theorem ancestry_inherited (hl : objects.length ≤ 2 ^ 31) (hc : Consistent objects cs)
    {c : ClassNetCache} {es : List ClassNetCache} (ha : Ancestry cs c es) (h : c ∈ cs) {n : Str}
    (hn : EntryFor objects c n) {ns : List Str} (hns : Lineage n ns) (s : StreamId) :
    inherited objects cs ns s = documented es s := by
  induction ha generalizing n ns with
  | @root c hr =>
    rw [documented_cons, show documented [] s = none from rfl, Option.or_none]
    cases hns with
    | root h0 => rw [hc.top c h n hn h0]; rfl
    | @step _ p ns hp h2 =>
      rw [inherited_cons, declared_entry hc h hn, inherited_nothing hl h2, Option.or_none]
      intro q hq k h3 h4
      obtain ⟨e, he, m, h5, h6, h7⟩ := nearest_exists h2 ⟨q, hq, k, h3, h4⟩
      refine hr e ((hc.parents c h e).2 ⟨he, n, m, hn, h5, ⟨p, hp, h6⟩, ?_⟩)
      rintro q hq k h8 ⟨p', h9, h10⟩
      rw [hp] at h9
      cases h9
      exact h7 q hq k h8 h10
  | @step c p es hr _ ih =>
    obtain ⟨hpm, n', m, h1, h2, ⟨a, h3, h4⟩, h5⟩ := (hc.parents c h p).1 hr
    have : n' = n := Option.some.inj (h1.symm.trans hn)
    subst this
    cases hns with
    | root h0 => rw [h3] at h0; cases h0
    | step h6 h7 =>
      rw [h3] at h6
      cases h6
      obtain ⟨ms, hms, -⟩ := lineage_exists m
      rw [documented_cons, inherited_cons, declared_entry hc h hn, ← ih hpm h2 hms,
        inherited_nearest hl h4 (fun q hq k h8 h9 => h5 q hq k h8 ⟨a, h3, h9⟩) h7 hms]

end

/-- C78, where the net cache agrees with the class table: the attributes of the class of an entry
are the properties of the entry and of those met by following parent ids, the nearest first.

Full statement: the same without the assumption `Consistent`.  It is false: see
`parent_id_false`. -/
theorem parent_id_partial (env : Env) (objects : List Str) (hl : objects.length ≤ 2 ^ 31)
    (cs : List ClassNetCache) (hc : Consistent objects cs) (caches : List (Option CacheInfo))
    (h : cacheTable env objects cs = .ok caches) (c : ClassNetCache) (hm : c ∈ cs) (n p : Str)
    (hn : EntryFor objects c n) (hp : parentOf n = some p) (es : List ClassNetCache)
    (ha : Ancestry cs c es) :
    ∃ ca, caches[c.objectInd.toNat]? = some (some ca) ∧ ∀ s, ca.attributes.get s =
      (documented es s).map fun p => ⟨attrType objects p.objectInd, p.objectInd⟩ := by
  obtain ⟨n', hf⟩ := hc.first c hm
  have : n' = n := Option.some.inj (hf.1.symm.trans hn)
  subst this
  obtain ⟨ns, hns, -⟩ := lineage_exists n'
  have hne : ns ≠ [] := by
    intro h0
    subst h0
    cases hns with
    | root h0 => rw [hp] at h0; cases h0
  obtain ⟨ca, h1, h2⟩ := inheritance_partial env objects hl cs caches h _ n' ns hf hns hne
  exact ⟨ca, h1, fun s => by rw [h2 s, ancestry_inherited hl hc ha hm hn hns]⟩

/-! ### The example of the documentation -/

/-- A name and what it descends from. -/
def climb : Nat → Str → List Str
  | 0, _ => []
  | k + 1, n => n :: match parentOf n with
    | some p => climb k p
    | none => []

theorem climb_eq {n : Str} {ns : List Str} (h : Lineage n ns) {k : Nat} (hk : ns.length < k)
    (m : Str) : m ∈ climb k n ↔ Descends n m := by
  induction h generalizing k with
  | @root n h0 =>
    obtain ⟨k, rfl⟩ : ∃ j, k = j + 1 := ⟨k - 1, by omega⟩
    rw [climb, h0, List.mem_singleton]
    constructor
    · rintro rfl; exact .refl
    · intro h
      cases h with
      | refl => rfl
      | step h1 => rw [h0] at h1; cases h1
  | @step n p ns hp _ ih =>
    obtain ⟨k, rfl⟩ : ∃ j, k = j + 1 := ⟨k - 1, by omega⟩
    rw [List.length_cons] at hk
    rw [climb, hp, List.mem_cons, ih (by omega)]
    constructor
    · rintro (rfl | h)
      · exact .refl
      · exact .step hp h
    · intro h
      cases h with
      | refl => exact .inl rfl
      | step h1 h2 => rw [hp] at h1; cases h1; exact .inr h2

theorem climb_iff (n m : Str) : m ∈ climb 11 n ↔ Descends n m := by
  obtain ⟨ns, h1, h2⟩ := lineage_exists n
  exact climb_eq h1 (by omega) m

instance (n m : Str) : Decidable (Descends n m) := decidable_of_iff _ (climb_iff n m)

instance (n m : Str) : Decidable (Above n m) :=
  decidable_of_iff ((parentOf n).any (fun p => decide (Descends p m)) = true) (by
    unfold Above
    cases parentOf n <;> simp)

/-- Check of `Consistent`. -/
def consistent (objects : List Str) (cs : List ClassNetCache) : Bool :=
  cs.all (fun c => match objects[c.objectInd.toNat]? with
    | none => false
    | some n => position objects n == some c.objectInd.toNat &&
      (parentOf n != none || c.properties == []) &&
      cs.all (fun p => decide (p ≠ c ∧ p.cacheId = c.parentId) ==
        match objects[p.objectInd.toNat]? with
        | none => false
        | some m => decide (Above n m) && cs.all fun q => match objects[q.objectInd.toNat]? with
          | none => false
          | some k => !decide (Above n k) || decide (Descends m k))) &&
  decide ((cs.map (·.objectInd)).Nodup)

theorem consistent_of {objects : List Str} {cs : List ClassNetCache}
    (h : consistent objects cs = true) : Consistent objects cs := by
  unfold consistent at h
  rw [Bool.and_eq_true, List.all_eq_true, decide_eq_true_iff] at h
  obtain ⟨h1, h2⟩ := h
  have name : ∀ c ∈ cs, ∃ n, EntryFor objects c n := by
    intro c hc
    have := h1 c hc
    cases hn : objects[c.objectInd.toNat]? with
    | none => rw [hn] at this; cases this
    | some n => exact ⟨n, hn⟩
  have all : ∀ c ∈ cs, ∀ n, EntryFor objects c n →
      position objects n = some c.objectInd.toNat ∧
      (parentOf n = none → c.properties = []) ∧
      ∀ p ∈ cs, ∀ m, EntryFor objects p m → ((p ≠ c ∧ p.cacheId = c.parentId) ↔
        (Above n m ∧ ∀ q ∈ cs, ∀ k, EntryFor objects q k → Above n k → Descends m k)) := by
    intro c hc n hn
    have h3 := h1 c hc
    unfold EntryFor at hn
    rw [hn] at h3
    simp only [Bool.and_eq_true, beq_iff_eq, Bool.or_eq_true, bne_iff_ne, ne_eq,
      List.all_eq_true] at h3
    obtain ⟨⟨h4, h5⟩, h6⟩ := h3
    refine ⟨h4, fun h => h5.resolve_left (fun h' => h' h), ?_⟩
    intro p hp m hm
    have h7 := h6 p hp
    unfold EntryFor at hm
    rw [hm] at h7
    simp only at h7
    rw [Bool.eq_iff_iff] at h7
    simp only [decide_eq_true_iff, Bool.and_eq_true, List.all_eq_true] at h7
    refine Iff.trans h7 (and_congr_right fun _ => ?_)
    constructor
    · intro h8 q hq k hk hab
      have h9 := h8 q hq
      unfold EntryFor at hk
      rw [hk] at h9
      simp only [Bool.or_eq_true, Bool.not_eq_true', decide_eq_false_iff_not,
        decide_eq_true_iff] at h9
      exact h9.resolve_left (fun h => h hab)
    · intro h8 q hq
      obtain ⟨k, hk⟩ := name q hq
      have h9 := h8 q hq k hk
      unfold EntryFor at hk
      rw [hk]
      simp only [Bool.or_eq_true, Bool.not_eq_true', decide_eq_false_iff_not, decide_eq_true_iff]
      by_cases hab : Above n k
      · exact .inr (h9 hab)
      · exact .inl hab
  refine ⟨?_, h2, ?_, ?_⟩
  · intro c hc
    obtain ⟨n, hn⟩ := name c hc
    exact ⟨n, position_iff.1 (all c hc n hn).1⟩
  · intro c hc p
    obtain ⟨n, hn⟩ := name c hc
    constructor
    · rintro ⟨hp, h3⟩
      obtain ⟨m, hm⟩ := name p hp
      exact ⟨hp, n, m, hn, hm, ((all c hc n hn).2.2 p hp m hm).1 h3⟩
    · rintro ⟨hp, n', m, hn', hm, h3⟩
      cases Option.some.inj (hn.symm.trans hn')
      exact ⟨hp, ((all c hc n hn).2.2 p hp m hm).2 h3⟩
  · intro c hc n hn h0
    exact (all c hc n hn).2.1 h0

/-- Objects with the five names of the example at their places, `src/parser.rs:169-197`. -/
def docObjects : List Str :=
  "Core.Object".toList :: [] :: "Engine.Actor:RelativeLocation".toList ::
    List.replicate 19 [] ++ ["Engine.Actor", "TAGame.VehiclePickup_TA:ReplicatedPickupData",
      "TAGame.VehiclePickup_TA"].map String.toList

/-- The three entries of the example. -/
def docCache : List ClassNetCache :=
  [⟨0, 0, 0, []⟩, ⟨22, 0, 21, [⟨2, 1⟩]⟩, ⟨24, 21, 22, [⟨23, 21⟩]⟩]

set_option maxRecDepth 100000 in
theorem doc_consistent : Consistent docObjects docCache :=
  consistent_of (by decide +kernel)

theorem doc_ancestry : Ancestry docCache ⟨24, 21, 22, [⟨23, 21⟩]⟩
    [⟨24, 21, 22, [⟨23, 21⟩]⟩, ⟨22, 0, 21, [⟨2, 1⟩]⟩, ⟨0, 0, 0, []⟩] := by
  refine .step (by unfold ParentEntry docCache; decide)
    (.step (by unfold ParentEntry docCache; decide) (.root ?_))
  rintro p ⟨h1, h2, h3⟩
  revert h1 h2 h3
  unfold docCache
  simp only [List.mem_cons, List.not_mem_nil, or_false]
  rintro (rfl | rfl | rfl) <;> decide

/-- What the table says about the length of stream ids: one more than the largest, and the number
of bits that are always read. -/
def idBits (objects : List Str) (cs : List ClassNetCache) (i : Nat) : Option (Nat × Nat) :=
  match cacheTable Env.default64 objects cs with
  | .ok caches => (caches[i]?).join.map fun c => (c.maxPropId.toNat, c.propIdBits)
  | _ => none

set_option maxRecDepth 100000 in
/-- The example of the documentation: the pickup has its own property and that of the actor, by
the stream ids 21 and 1.  "The largest stream_id for a TAGame.VehiclePickup_TA is 21, so 4 bits are
needed with an optional 5th bit"; "for Engine.Actor, only 1 bit needs to be read". -/
theorem documented_example :
    entryOf docObjects docCache 24 21 = some (some ⟨.pickup, 23⟩) ∧
    entryOf docObjects docCache 24 1 = some (some ⟨.notImplemented, 2⟩) ∧
    entryOf docObjects docCache 24 0 = some none ∧
    entryOf docObjects docCache 22 1 = some (some ⟨.notImplemented, 2⟩) ∧
    entryOf docObjects docCache 22 21 = some none ∧
    entryOf docObjects docCache 0 1 = none ∧
    idBits docObjects docCache 24 = some (22, 4) ∧
    idBits docObjects docCache 22 = some (2, 1) := by decide +kernel

/-- `parent_id_partial` on the example. -/
example (caches : List (Option CacheInfo))
    (h : cacheTable Env.default64 docObjects docCache = .ok caches) :
    ∃ ca, caches[24]? = some (some ca) ∧ ca.attributes.get 21 = some ⟨.pickup, 23⟩ ∧
      ca.attributes.get 1 = some ⟨.notImplemented, 2⟩ ∧ ca.attributes.get 2 = none := by
  obtain ⟨ca, h1, h2⟩ := parent_id_partial Env.default64 docObjects (by decide) docCache
    doc_consistent caches h _ (by unfold docCache; decide) "TAGame.VehiclePickup_TA".toList
    "Engine.ReplicationInfo".toList (by unfold EntryFor; decide +kernel) (by decide +kernel) _
    doc_ancestry
  refine ⟨ca, h1, ?_, ?_, ?_⟩ <;> rw [h2] <;> decide +kernel

/-! ### Parent ids are not used -/

/-- Parent ids and cache ids have no influence on the attributes of the classes. -/
theorem parent_ids_unused (env : Env) (objects : List Str) {cs cs' : List ClassNetCache}
    (h : cs.map (fun c => (c.objectInd, c.properties)) =
      cs'.map (fun c => (c.objectInd, c.properties))) :
    cacheTable env objects cs = cacheTable env objects cs' := by
  unfold cacheTable
  rw [netProperties_same env objects h]

/-- The example with the parent of the actor and that of the pickup exchanged: now the parent ids
say that the actor is a pickup. -/
def crossCache : List ClassNetCache :=
  [⟨0, 0, 0, []⟩, ⟨22, 22, 21, [⟨2, 1⟩]⟩, ⟨24, 0, 22, [⟨23, 21⟩]⟩]

theorem cross_ancestry : Ancestry crossCache ⟨22, 22, 21, [⟨2, 1⟩]⟩
    [⟨22, 22, 21, [⟨2, 1⟩]⟩, ⟨24, 0, 22, [⟨23, 21⟩]⟩, ⟨0, 0, 0, []⟩] := by
  refine .step (by unfold ParentEntry crossCache; decide)
    (.step (by unfold ParentEntry crossCache; decide) (.root ?_))
  rintro p ⟨h1, h2, h3⟩
  revert h1 h2 h3
  unfold crossCache
  simp only [List.mem_cons, List.not_mem_nil, or_false]
  rintro (rfl | rfl | rfl) <;> decide

set_option maxRecDepth 100000 in
theorem cross_table : (match cacheTable Env.default64 docObjects crossCache with
    | .ok caches => (caches[22]?).join.map fun c => c.attributes.get 21
    | _ => none) = some none := by decide +kernel

/-- C78 is false of the code: the actor, whose parent id refers to the pickup, does not have the
property of the pickup. -/
theorem parent_id_false : ¬ ∀ (objects : List Str) (cs : List ClassNetCache)
    (caches : List (Option CacheInfo)), cacheTable Env.default64 objects cs = .ok caches →
    ∀ c ∈ cs, ∀ es, Ancestry cs c es → ∀ ca, caches[c.objectInd.toNat]? = some (some ca) →
    ∀ s p, documented es s = some p → ca.attributes.get s ≠ none := by
  intro h
  have ht := cross_table
  cases hc : cacheTable Env.default64 docObjects crossCache with
  | ok caches =>
    rw [hc] at ht
    simp only at ht
    cases hx : caches[22]? with
    | none => rw [hx] at ht; cases ht
    | some x =>
      cases x with
      | none => rw [hx] at ht; cases ht
      | some ca =>
        rw [hx] at ht
        exact h _ _ _ hc _ (by unfold crossCache; decide) _ cross_ancestry ca hx 21 ⟨23, 21⟩
          (by decide) (Option.some.inj ht)
  | err e => rw [hc] at ht; cases ht
  | fault p => rw [hc] at ht; cases ht

end Boxcars.Props
