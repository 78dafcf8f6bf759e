import Verif.Proofs.NetworkSpec
/-!
# C37, C38, C39, C40: class tables

`objects` has at most `2^31` entries; a parsed replay has far fewer
(`Proofs/Replay.lean: fileSecs_sizes`).
-/
namespace Boxcars.Props
open Boxcars Spec Network

/-! ## C37 -/

/-- C37, except for `duplicate_has_no_attributes` and
`root_has_no_attributes`: for the first object with its name
that has a parent class, the table holds for every stream id the declaration nearest to the
object in its lineage, and within a class the last one; nothing else.

Full statement: the same for every object, with a lineage that includes the topmost class.
It is false: see `duplicate_has_no_attributes` and `root_has_no_attributes`. -/
theorem inheritance_partial (env : Env) (objects : List Str) (hl : objects.length ≤ 2 ^ 31)
    (cs : List ClassNetCache) (caches : List (Option CacheInfo))
    (h : cacheTable env objects cs = .ok caches) (i : Nat) (n : Str) (ns : List Str)
    (hi : FirstAt objects n i) (hns : Lineage n ns) (hp : ns ≠ []) :
    ∃ c, caches[i]? = some (some c) ∧ ∀ s, c.attributes.get s =
      (inherited objects cs ns s).map fun p => ⟨attrType objects p.objectInd, p.objectInd⟩ := by
  by_cases hr : InRange objects cs
  · obtain ⟨ca, h1, _, _, h4⟩ := cacheTable_run env objects hl cs hr
    rw [h] at h1
    cases h1
    obtain ⟨t, t1, t2, t3⟩ := h4 i n ns hi hns hp
    exact ⟨_, t3, fun s => by rw [cacheInfo_get env t1, t2 s]⟩
  · obtain ⟨_, _, _, _, _, _, he⟩ := cacheTable_err env objects hl cs hr
    rw [h] at he
    cases he

/-- C37. The other entries: repetitions of a name and names without a parent have no
attributes at all. -/
theorem no_attributes (env : Env) (objects : List Str) (hl : objects.length ≤ 2 ^ 31)
    (cs : List ClassNetCache) (caches : List (Option CacheInfo))
    (h : cacheTable env objects cs = .ok caches) (i : Nat) (n : Str)
    (hn : objects[i]? = some n) (hc : ¬(FirstAt objects n i ∧ parentOf n ≠ none)) :
    caches[i]? = some none := by
  by_cases hr : InRange objects cs
  · obtain ⟨ca, h1, _, h3, _⟩ := cacheTable_run env objects hl cs hr
    rw [h] at h1
    cases h1
    exact h3 i n hn hc
  · obtain ⟨_, _, _, _, _, _, he⟩ := cacheTable_err env objects hl cs hr
    rw [h] at he
    cases he

/-- C37. The table exists exactly when every declaration refers to a listed object. -/
theorem table_exists (env : Env) (objects : List Str) (hl : objects.length ≤ 2 ^ 31)
    (cs : List ClassNetCache) :
    (∃ caches, cacheTable env objects cs = .ok caches) ↔ InRange objects cs := by
  constructor
  · rintro ⟨ca, h⟩
    apply Classical.byContradiction
    intro hr
    obtain ⟨_, _, _, _, _, _, he⟩ := cacheTable_err env objects hl cs hr
    rw [h] at he
    cases he
  · intro hr
    obtain ⟨ca, h1, _⟩ := cacheTable_run env objects hl cs hr
    exact ⟨ca, h1⟩

/-- C37. Otherwise the first declaration that does not is reported. -/
theorem table_error (env : Env) (objects : List Str) (hl : objects.length ≤ 2 ^ 31)
    (cs : List ClassNetCache) (a b : List CacheProp) (p : CacheProp)
    (hd : cs.flatMap (·.properties) = a ++ p :: b)
    (ha : ∀ q ∈ a, 0 ≤ q.objectInd.toInt ∧ q.objectInd.toNat < objects.length)
    (hp : ¬(0 ≤ p.objectInd.toInt ∧ p.objectInd.toNat < objects.length)) :
    cacheTable env objects cs = .err (.streamTooLargeIndex p.streamId p.objectInd) := by
  have hr : ¬InRange objects cs := by
    intro hr
    have : p ∈ cs.flatMap (·.properties) := by rw [hd]; simp
    obtain ⟨c, hc, hpc⟩ := List.mem_flatMap.1 this
    exact hp (hr c hc p hpc)
  obtain ⟨a', p', b', h1, h2, h3, h4⟩ := cacheTable_err env objects hl cs hr
  rw [h4]
  rw [hd] at h1
  have : p' = p := by
    clear hd h4
    induction a generalizing a' with
    | nil =>
      cases a' with
      | nil => simp at h1; exact h1.1.symm
      | cons q a' =>
        simp at h1
        rw [h1.1] at hp
        exact absurd (h2 q List.mem_cons_self) hp
    | cons q a ih =>
      cases a' with
      | nil =>
        simp at h1
        rw [← h1.1] at h3
        exact absurd (ha q List.mem_cons_self) h3
      | cons q' a' =>
        simp at h1
        exact ih (fun r hr => ha r (List.mem_cons_of_mem _ hr)) a' h1.2
          (fun r hr => h2 r (List.mem_cons_of_mem _ hr))
  rw [this]

/-- C37. Hash order and platform do not matter. -/
theorem table_deterministic (env env' : Env) (objects : List Str) (hl : objects.length ≤ 2 ^ 31)
    (cs : List ClassNetCache) : cacheTable env objects cs = cacheTable env' objects cs :=
  cacheTable_env env env' objects hl cs

/-- A ball, an unrelated object, its parent class, and three attributes. -/
def treeObjects : List Str :=
  ["TAGame.Ball_TA", "Core.Object", "TAGame.RBActor_TA", "TAGame.RBActor_TA:ReplicatedRBState",
   "TAGame.Ball_TA:GameEvent", "TAGame.RBActor_TA:bFrozen", "TAGame.Ball_TA"].map String.toList

/-- The parent declares stream ids 5 and 6, the ball overrides 5 twice; the topmost class
declares 7. -/
def treeCache : List ClassNetCache :=
  [⟨0, 0, 0, [⟨3, 5⟩]⟩, ⟨2, 0, 0, [⟨3, 5⟩, ⟨5, 6⟩]⟩, ⟨0, 0, 0, [⟨4, 5⟩]⟩, ⟨1, 0, 0, [⟨5, 7⟩]⟩,
   ⟨6, 0, 0, [⟨5, 8⟩]⟩]

/-- What the table says about an object and a stream id. -/
def entryOf (objects : List Str) (cs : List ClassNetCache) (i : Nat) (s : StreamId) :
    Option (Option ObjectAttribute) :=
  match cacheTable Env.default64 objects cs with
  | .ok caches => (caches[i]?).join.map fun c => c.attributes.get s
  | _ => none

set_option maxRecDepth 100000 in
/-- The ball has its own 5 (the later one) and the inherited 6; the parent keeps its 5. -/
example : entryOf treeObjects treeCache 0 5 = some (some ⟨.activeActor, 4⟩) ∧
    entryOf treeObjects treeCache 0 6 = some (some ⟨.boolean, 5⟩) ∧
    entryOf treeObjects treeCache 2 5 = some (some ⟨.rigidBody, 3⟩) := by decide +kernel

set_option maxRecDepth 100000 in
/-- Declarations for the topmost class are not inherited. -/
theorem root_has_no_attributes : entryOf treeObjects treeCache 0 7 = some none ∧
    entryOf treeObjects treeCache 1 7 = none := by decide +kernel

set_option maxRecDepth 100000 in
/-- The second object with the same name has no attributes, not even those declared for it. -/
theorem duplicate_has_no_attributes : entryOf treeObjects treeCache 6 5 = none ∧
    entryOf treeObjects treeCache 6 8 = none := by decide +kernel

/-! ## C38 -/

/-- C38, except for `duplicate_spawn`: the spawn behaviour of the first object with its name
is that of the nearest listed name of its lineage with a declared behaviour, `None` without
one.

Full statement: the same for every object.  It is false: see `duplicate_spawn`. -/
theorem spawn_inheritance_partial (env : Env) (objects : List Str) (hl : objects.length ≤ 2 ^ 31) :
    ∃ spawns, (spawnTable env objects : Res NetworkError _) = .ok spawns ∧
      spawns.length = objects.length ∧
      ∀ i n ns, FirstAt objects n i → Lineage n ns →
        (spawns[i]?).map (fun x => x.getD .none) = some (spawnOf objects ns) := by
  obtain ⟨sp, h1, h2, h3, _⟩ := spawnTable_run (ε := NetworkError) env objects hl
  refine ⟨sp, h1, h2, ?_⟩
  intro i n ns hf hlin
  have := h3 i n ns hf hlin
  rwa [List.getElem?_map] at this

/-- C38. Repetitions of a name spawn without location and rotation. -/
theorem spawn_repeated (env : Env) (objects : List Str) (hl : objects.length ≤ 2 ^ 31)
    (spawns : List (Option SpawnTrajectory))
    (h : (spawnTable env objects : Res NetworkError _) = .ok spawns) (i : Nat) (n : Str)
    (hn : objects[i]? = some n) (hf : ¬FirstAt objects n i) :
    (spawns[i]?).map (fun x => x.getD .none) = some .none := by
  obtain ⟨sp, h1, h2, _, h4⟩ := spawnTable_run (ε := NetworkError) env objects hl
  rw [h] at h1
  cases h1
  have := h4 i n hn hf
  rwa [List.getElem?_map] at this

/-- C38. A name with a declared behaviour has a parent class, so leaving the topmost class
out of lineages loses nothing here. -/
theorem spawn_declared_parent (n : Str) (sp : SpawnTrajectory) (h : spawnDecl n = some sp) :
    ∃ p, parentOf n = some p := spawnDecl_parent h

/-- What the spawn table says about an object. -/
def spawnEntry (objects : List Str) (i : Nat) : Option SpawnTrajectory :=
  match (spawnTable Env.default64 objects : Res NetworkError _) with
  | .ok spawns => (spawns[i]?).map (fun x => x.getD .none)
  | _ => none

set_option maxRecDepth 100000 in
/-- An archetype of the ball inherits location and rotation from a physics object; a second
object with that name does not have it. -/
theorem duplicate_spawn :
    spawnEntry (["Archetypes.Ball.Ball_Default", "TAGame.RBActor_TA", "TAGame.RBActor_TA"].map
      String.toList) 0 = some .locationAndRotation ∧
    spawnEntry (["Archetypes.Ball.Ball_Default", "TAGame.RBActor_TA", "TAGame.RBActor_TA"].map
      String.toList) 1 = some .locationAndRotation ∧
    spawnEntry (["Archetypes.Ball.Ball_Default", "TAGame.RBActor_TA", "TAGame.RBActor_TA"].map
      String.toList) 2 = some .none := by decide +kernel

/-! ## C39 -/

/-- C39. Following parents from any name ends after at most ten steps. -/
theorem lineage_bounded (n : Str) : ∃ ns, Lineage n ns ∧ ns.length ≤ 10 := lineage_exists n

/-- C39. The walk of the code visits exactly the listed names of the lineage, each by the
first position of its name. -/
theorem walk_eq (objects : List Str) (n : Str) (ns : List Str) (h : Lineage n ns) :
    hierarchy objects n =
      some (ns.filterMap fun m => (position objects m).map (BitVec.ofNat 32)) :=
  (hier_eq objects h).symm

/-- C39. A name resolves to its first position. -/
theorem by_name_first (objects : List Str) (hl : objects.length ≤ 2 ^ 31) (n : Str)
    (o : ObjectId) : byName objects n = some o ↔ FirstAt objects n o.toNat := by
  rw [byName_eq, ← position_iff]
  constructor
  · intro h
    obtain ⟨i, hi, rfl⟩ := Option.map_eq_some_iff.1 h
    have := position_lt hi
    rw [i32OfNat_toNat (by omega)]
    exact hi
  · intro h
    rw [h]
    simp [i32OfNat]

/-- The kinds of objects with one instance per place in a stadium. -/
def kinds : List String := ["CrowdActor_TA", "CrowdManager_TA", "VehiclePickup_Boost_TA",
  "InMapScoreboard_TA", "BreakOutActor_Platform_TA", "PlayerStart_Platform_TA"]

/-- A stadium prefix: empty, or a name without dots followed by a dot. -/
def StadiumPrefix (pre : Str) : Prop :=
  pre = [] ∨ ∃ s, pre = s ++ ['.'] ∧ '.' ∉ s ∧ s ≠ "TheWorld:PersistentLevel".toList

theorem stripPrefix_append (p s : Str) : stripPrefix p (p ++ s) = some s := by
  induction p with
  | nil => cases s <;> rfl
  | cons c p ih => rw [List.cons_append, stripPrefix, if_pos rfl, ih]

theorem stripPrefix_eq {p s t : Str} (h : stripPrefix p s = some t) : s = p ++ t := by
  induction p generalizing s with
  | nil => rw [stripPrefix] at h; cases h; rfl
  | cons c p ih =>
    cases s with
    | nil => rw [stripPrefix] at h; cases h
    | cons d s =>
      rw [stripPrefix] at h
      split at h
      · rename_i he; rw [he, ih h]; rfl
      · cases h

theorem afterFirstDot_append (s t : Str) (h : '.' ∉ s) :
    afterFirstDot (s ++ '.' :: t) = some t := by
  induction s with
  | nil => rw [List.nil_append, afterFirstDot, if_pos rfl]
  | cons c s ih =>
    rw [List.mem_cons, not_or] at h
    rw [List.cons_append, afterFirstDot, if_neg (fun e => h.1 e.symm), ih h.2]

theorem afterFirstDot_eq {n t : Str} (h : afterFirstDot n = some t) :
    ∃ s, n = s ++ '.' :: t ∧ '.' ∉ s := by
  induction n with
  | nil => cases h
  | cons c n ih =>
    rw [afterFirstDot] at h
    split at h
    · rename_i he; cases h; exact ⟨[], by rw [he]; rfl, by simp⟩
    · rename_i he
      obtain ⟨s, h1, h2⟩ := ih h
      exact ⟨c :: s, by rw [h1]; rfl, by
        rw [List.mem_cons, not_or]; exact ⟨fun e => he e.symm, h2⟩⟩

/-- Two words that differ at a common position. -/
def clash : Str → Str → Bool
  | c :: cs, d :: ds => c != d || clash cs ds
  | _, _ => false

theorem stripPrefix_clash {p k : Str} (h : clash p k = true) (s : Str) :
    stripPrefix p (k ++ s) = none := by
  induction p generalizing k with
  | nil => cases k <;> cases h
  | cons c p ih =>
    cases k with
    | nil => cases h
    | cons d k =>
      rw [List.cons_append, stripPrefix]
      by_cases he : c = d
      · rw [if_pos he]
        subst he
        apply ih
        simpa [clash] using h
      · rw [if_neg he]

theorem stripPrefix_append_right {p : Str} {s u t : Str} (h : stripPrefix p s = some t) :
    stripPrefix p (s ++ u) = some (t ++ u) := by
  rw [stripPrefix_eq h, List.append_assoc, stripPrefix_append]

theorem world_split : worldPrefix = "TheWorld:PersistentLevel".toList ++ ['.'] := by
  decide +kernel

theorem world_nodot : '.' ∉ "TheWorld:PersistentLevel".toList := by decide +kernel

theorem world_byteLen : Str.byteLen worldPrefix = 25 := by decide +kernel

/-- Dotless words before the same kind of dot agree. -/
theorem dot_split {a b x y : Str} (ha : '.' ∉ a) (hb : '.' ∉ b)
    (h : a ++ '.' :: x = b ++ '.' :: y) : a = b ∧ x = y := by
  induction a generalizing b with
  | nil =>
    cases b with
    | nil => simp at h; exact ⟨rfl, h⟩
    | cons c b => simp at h; rw [List.mem_cons, not_or] at hb; exact absurd h.1 hb.1
  | cons c a ih =>
    rw [List.mem_cons, not_or] at ha
    cases b with
    | nil => simp at h; exact absurd h.1.symm ha.1
    | cons d b =>
      rw [List.mem_cons, not_or] at hb
      simp at h
      obtain ⟨h1, h2⟩ := ih ha.2 hb.2 h.2
      exact ⟨by rw [h.1, h1], h2⟩

/-- The part after the world prefix, for a name with a stadium prefix. -/
theorem rest_of (pre rest : Str) (h : StadiumPrefix pre) :
    ((stripPrefix worldPrefix (pre ++ (worldPrefix ++ rest))).orElse fun _ =>
      (afterFirstDot (pre ++ (worldPrefix ++ rest))).bind (stripPrefix worldPrefix)) =
      some rest := by
  rcases h with rfl | ⟨s, rfl, hs, hne⟩
  · rw [List.nil_append, stripPrefix_append]; rfl
  · have e : s ++ ['.'] ++ (worldPrefix ++ rest) = s ++ '.' :: (worldPrefix ++ rest) := by simp
    rw [e]
    cases hp : stripPrefix worldPrefix (s ++ '.' :: (worldPrefix ++ rest)) with
    | none =>
      rw [Option.orElse_none, afterFirstDot_append _ _ hs, Option.bind_some, stripPrefix_append]
    | some t =>
      exfalso
      have := stripPrefix_eq hp
      rw [world_split] at this
      have e2 : "TheWorld:PersistentLevel".toList ++ ['.'] ++ t =
        "TheWorld:PersistentLevel".toList ++ '.' :: t := by simp
      rw [e2] at this
      exact hne (dot_split hs world_nodot this).1

theorem kinds_rules : kinds.all (fun k =>
    decide (13 ≤ Str.byteLen k.toList) &&
    (match normalizeRules.find? (fun r => !clash r.1.toList k.toList) with
     | some r => r.1 == k && decide (r.2.toList = worldPrefix ++ k.toList)
     | none => false)) = true := by decide +kernel

theorem applyRules_kind (name s : Str) (k : String) (rules : List (String × String))
    (r : String × String)
    (h : rules.find? (fun r => !clash r.1.toList k.toList) = some r) (hr : r.1 = k) :
    applyRules name (k.toList ++ s) rules = r.2.toList := by
  induction rules with
  | nil => cases h
  | cons q rules ih =>
    obtain ⟨p, n⟩ := q
    rw [applyRules]
    rw [List.find?_cons] at h
    cases hc : clash p.toList k.toList with
    | true =>
      simp only [hc, Bool.not_true] at h
      rw [stripPrefix_clash hc]
      simp only [Option.isSome_none, Bool.false_eq_true, if_false]
      exact ih h
    | false =>
      simp only [hc, Bool.not_false] at h
      cases h
      simp only at hr
      subst hr
      rw [stripPrefix_append]
      rfl

theorem byteLen_append (a b : Str) : Str.byteLen (a ++ b) = Str.byteLen a + Str.byteLen b := by
  unfold Str.byteLen; simp

theorem byteLen_pos (c : Char) (a : Str) : 0 < Str.byteLen (c :: a) := by
  unfold Str.byteLen
  have := Char.utf8Size_pos c
  simp only [List.map_cons, List.sum_cons]
  omega

/-- C39, for the six kinds: whatever the stadium prefix and the instance suffix, the name
resolves like the bare one.

Full statement: the same for every kind of object.  It is false: see
`other_instances_differ` (the class table lists two instances of another kind) and
`strange_prefix` (what a stadium prefix must not be). -/
theorem normalize_instance_partial (k : String) (hk : k ∈ kinds) (pre suf : Str)
    (hpre : StadiumPrefix pre) :
    normalizeObject (pre ++ (worldPrefix ++ (k.toList ++ suf))) = worldPrefix ++ k.toList := by
  have h := List.all_eq_true.1 kinds_rules k hk
  rw [Bool.and_eq_true, decide_eq_true_iff] at h
  obtain ⟨hlen, h⟩ := h
  cases hf : normalizeRules.find? (fun r => !clash r.1.toList k.toList) with
  | none => rw [hf] at h; cases h
  | some r =>
    rw [hf] at h
    simp only [Bool.and_eq_true, beq_iff_eq, decide_eq_true_iff] at h
    unfold normalizeObject
    split
    · rename_i hle
      rw [byteLen_append, byteLen_append, byteLen_append, world_byteLen] at hle
      have hp : pre = [] := by
        cases pre with
        | nil => rfl
        | cons c p => have := byteLen_pos c p; omega
      have hs : suf = [] := by
        cases suf with
        | nil => rfl
        | cons c p => have := byteLen_pos c p; omega
      rw [hp, hs]; simp
    · rw [rest_of pre _ hpre]
      simp only
      rw [applyRules_kind _ suf k _ r hf h.1, h.2]

theorem applyRules_or (name rest : Str) (rules : List (String × String)) :
    applyRules name rest rules = name ∨
      ∃ r ∈ rules, applyRules name rest rules = r.2.toList ∧ ∃ s, rest = r.1.toList ++ s := by
  induction rules with
  | nil => left; rfl
  | cons q rules ih =>
    obtain ⟨p, n⟩ := q
    rw [applyRules]
    split
    · rename_i h
      obtain ⟨t, ht⟩ := Option.isSome_iff_exists.1 h
      exact .inr ⟨(p, n), List.mem_cons_self, rfl, t, stripPrefix_eq ht⟩
    · rcases ih with h | ⟨r, hr, h1, h2⟩
      · exact .inl h
      · exact .inr ⟨r, List.mem_cons_of_mem _ hr, h1, h2⟩

theorem rules_kinds : normalizeRules.all (fun r => kinds.contains r.1) = true := by
  decide +kernel

/-- C39. Every other name is left as it is. -/
theorem normalize_other (n : Str)
    (h : ∀ k ∈ kinds, ∀ pre suf, StadiumPrefix pre →
      n ≠ pre ++ (worldPrefix ++ (k.toList ++ suf))) : normalizeObject n = n := by
  unfold normalizeObject
  split
  · rfl
  · split
    · rfl
    · rename_i rest hrest
      rcases applyRules_or n rest normalizeRules with ha | ⟨r, hr, _, s, hs⟩
      · exact ha
      · exfalso
        have hk : r.1 ∈ kinds := by
          have := List.all_eq_true.1 rules_kinds r hr
          simpa using this
        cases hp : stripPrefix worldPrefix n with
        | some t =>
          rw [hp] at hrest
          cases hrest
          refine h r.1 hk [] s (.inl rfl) ?_
          rw [stripPrefix_eq hp, hs]; rfl
        | none =>
          rw [hp, Option.orElse_none] at hrest
          obtain ⟨t, ht, hst⟩ := Option.bind_eq_some_iff.1 hrest
          obtain ⟨a, ha, hd⟩ := afterFirstDot_eq ht
          refine h r.1 hk (a ++ ['.']) s (.inr ⟨a, rfl, hd, ?_⟩) ?_
          · rintro rfl
            rw [ha] at hp
            have : "TheWorld:PersistentLevel".toList ++ '.' :: t = worldPrefix ++ t := by
              rw [world_split]; simp
            rw [this, stripPrefix_append] at hp
            cases hp
          · rw [ha, stripPrefix_eq hst, hs]; simp

/-- C39. Hence two instances have the same parent. -/
theorem instances_same_parent (k : String) (hk : k ∈ kinds) (pre suf pre' suf' : Str)
    (h : StadiumPrefix pre) (h' : StadiumPrefix pre') :
    parentOf (pre ++ (worldPrefix ++ (k.toList ++ suf))) =
      parentOf (pre' ++ (worldPrefix ++ (k.toList ++ suf'))) := by
  unfold parentOf
  rw [normalize_instance_partial k hk pre suf h, normalize_instance_partial k hk pre' suf' h']

set_option maxRecDepth 100000 in
example : parentOf "stadium_foggy_p.TheWorld:PersistentLevel.VehiclePickup_Boost_TA_30".toList =
    some "TAGame.VehiclePickup_Boost_TA".toList := by decide +kernel

set_option maxRecDepth 100000 in
/-- Instances of a kind outside the six are told apart. -/
theorem other_instances_differ :
    parentOf "Haunted_TrainStation_P.TheWorld:PersistentLevel.HauntedBallTrapTrigger_TA_1".toList ≠
    parentOf "Haunted_TrainStation_P.TheWorld:PersistentLevel.HauntedBallTrapTrigger_TA_2".toList := by
  decide +kernel

set_option maxRecDepth 100000 in
/-- A prefix with a dot, or one that looks like the world prefix, is not recognised. -/
theorem strange_prefix :
    parentOf "a.b.TheWorld:PersistentLevel.CrowdActor_TA".toList = none ∧
    parentOf "TheWorld:PersistentLevel.TheWorld:PersistentLevel.CrowdActor_TA".toList = none := by
  decide +kernel

/-! ## C40 -/

/-- Every entry of the table has the bound and width its declarations call for. -/
theorem entry_limit (env : Env) (objects : List Str) (hl : objects.length ≤ 2 ^ 31)
    (cs : List ClassNetCache) (caches : List (Option CacheInfo))
    (h : cacheTable env objects cs = .ok caches) (i : Nat) (c : CacheInfo)
    (hc : caches[i]? = some (some c)) :
    c.Ok ∧ IsLimit (fun s => c.attributes.get s ≠ none) c.maxPropId.toInt := by
  have hr := (table_exists env objects hl cs).1 ⟨_, h⟩
  obtain ⟨ca, c1, c2, c3, c4⟩ := cacheTable_run env objects hl cs hr
  rw [h] at c1
  cases c1
  have hi : i < objects.length := by
    have := (List.getElem?_eq_some_iff.1 hc).1; omega
  have hn := List.getElem?_eq_getElem hi
  by_cases hf : FirstAt objects objects[i] i ∧ parentOf objects[i] ≠ none
  · obtain ⟨ns, hlin, _⟩ := lineage_exists objects[i]
    have hne : ns ≠ [] := by
      cases hlin with
      | root h => exact absurd h hf.2
      | step => simp
    obtain ⟨t, t1, t2, t3⟩ := c4 _ _ ns hf.1 hlin hne
    rw [hc] at t3
    cases t3
    refine ⟨cacheInfo_ok env t1, ?_⟩
    have := maxProp_limit t1
    have e : (fun s => (cacheInfo env t).attributes.get s ≠ none) = (fun s => t.get s ≠ none) := by
      funext s; rw [cacheInfo_get env t1]
    rw [e]; exact this
  · rw [c3 _ _ hn hf] at hc
    cases hc

/-- C40, except for `i32::MAX` (`largest_id_unreachable`): in every entry of the table the
`propIdBits + 1` bits available hold every declared non-negative stream id, and it is below
the bound up to which ids are read.

Full statement: the same without `s.toInt < 2^31 - 1`. -/
theorem width_suffices_partial (env : Env) (objects : List Str) (hl : objects.length ≤ 2 ^ 31)
    (cs : List ClassNetCache) (caches : List (Option CacheInfo))
    (h : cacheTable env objects cs = .ok caches) (i : Nat) (c : CacheInfo)
    (hc : caches[i]? = some (some c)) (s : StreamId) (a : ObjectAttribute)
    (hs : c.attributes.get s = some a) (h0 : 0 ≤ s.toInt) (h1 : s.toInt < 2 ^ 31 - 1) :
    s.toNat < c.maxPropId.toNat ∧ 0 ≤ c.maxPropId.toInt ∧ s.toNat < 2 ^ (c.propIdBits + 1) := by
  obtain ⟨hok, hlim⟩ := entry_limit env objects hl cs caches h i c hc
  rcases hlim with ⟨hn, _⟩ | ⟨m, _, hm, he⟩
  · exact absurd hs (by have := hn s; simp only [ne_eq, Classical.not_not] at this; rw [this]; simp)
  · have hle := hm s (by simp only [hs]; simp)
    have hb := i32_bounds m
    have hlt : s.toInt < c.maxPropId.toInt := by rw [he]; omega
    have hpos : 0 ≤ c.maxPropId.toInt := by omega
    have e1 := BitVec.toInt_eq_toNat_cond s
    have e2 := BitVec.toInt_eq_toNat_cond c.maxPropId
    have l1 := s.isLt
    have l2 := c.maxPropId.isLt
    have hlt' : s.toNat < c.maxPropId.toNat := by
      split at e1 <;> split at e2 <;> omega
    refine ⟨hlt', hpos, ?_⟩
    rcases hok with ⟨_, h2, _⟩ | ⟨h2, _⟩
    · rw [h2]
      exact Nat.lt_trans hlt' Nat.lt_log2_self
    · omega

/-- The statements of the update loop that read a stream id,
`src/network/frame_decoder.rs:257-264`. -/
def readStreamId (c : CacheInfo) : BM Unit Nat := do
  refill
  let look ← lookaheadBits
  if look < c.propIdBits + 1 then BM.fail ()
  else peekBitsMaxComputed c.propIdBits c.maxPropId.toNat

/-- C40. An id that is read is not above the largest declared one; 2 if none is declared, 0
if all are negative. -/
theorem read_id_range (env env' : Env) (objects : List Str) (hl : objects.length ≤ 2 ^ 31)
    (cs : List ClassNetCache) (caches : List (Option CacheInfo))
    (h : cacheTable env objects cs = .ok caches) (i : Nat) (c : CacheInfo)
    (hc : caches[i]? = some (some c)) (r r' : Reader) (hv : r.Valid) (v : Nat)
    (hrun : readStreamId c env' r = .ok v r') :
    v < 2 ^ 31 - 1 ∧
    (((∀ s, c.attributes.get s = none) ∧ v ≤ 2) ∨
    ∃ s a, c.attributes.get s = some a ∧ (∀ t b, c.attributes.get t = some b → t.toInt ≤ s.toInt) ∧
      (v : Int) ≤ max s.toInt 0) := by
  obtain ⟨hok, hlim⟩ := entry_limit env objects hl cs caches h i c hc
  obtain ⟨h1, _, h2, _⟩ := ((FrameDecoder.propId_spec (N := r.bits.length) c hok ()).okIff env' r hv
    (Nat.le_refl _) v r'.bits).1 ⟨r', hrun, rfl⟩
  have e2 := BitVec.toInt_eq_toNat_cond c.maxPropId
  have l2 := c.maxPropId.isLt
  have e3 : c.maxPropId.toInt = c.maxPropId.toNat := by split at e2 <;> omega
  rcases hlim with ⟨hn, he⟩ | ⟨m, hm0, hm, he⟩
  · refine ⟨by omega, .inl ⟨fun s => ?_, by omega⟩⟩
    have := hn s
    simpa only [ne_eq, Classical.not_not] using this
  · refine ⟨by omega, .inr ?_⟩
    obtain ⟨a, ha⟩ := Option.ne_none_iff_exists'.1 hm0
    exact ⟨m, a, ha, fun t b ht => hm t (by simp only [ht]; simp), by omega⟩

/-- C40. The stream id `i32::MAX` is never read, even if it is declared: the bound, one more
than the largest id, saturates. -/
theorem largest_id_unreachable (env env' : Env) (objects : List Str)
    (hl : objects.length ≤ 2 ^ 31) (cs : List ClassNetCache) (caches : List (Option CacheInfo))
    (h : cacheTable env objects cs = .ok caches) (i : Nat) (c : CacheInfo)
    (hc : caches[i]? = some (some c)) (r r' : Reader) (hv : r.Valid) :
    readStreamId c env' r ≠ .ok (2 ^ 31 - 1) r' := by
  intro hrun
  exact absurd (read_id_range env env' objects hl cs caches h i c hc r r' hv _ hrun).1 (by omega)

/-- The bound and width of an object's stream ids. -/
def boundOf (objects : List Str) (cs : List ClassNetCache) (i : Nat) : Option (Int × Nat) :=
  match cacheTable Env.default64 objects cs with
  | .ok caches => (caches[i]?).join.map fun c => (c.maxPropId.toInt, c.propIdBits)
  | _ => none

set_option maxRecDepth 100000 in
/-- Ids 5 and 6 are declared: the bound is 7, the widths 2 and 3.  With `i32::MAX` declared
the bound is `i32::MAX`. -/
example : boundOf treeObjects treeCache 0 = some (7, 2) ∧
    boundOf treeObjects [⟨0, 0, 0, [⟨3, 0x7fffffff⟩]⟩] 0 = some (2147483647, 30) := by
  decide +kernel

end Boxcars.Props
