import Verif.Spec.Classes
import Verif.Props.Tables
/-!
# C67: the tables of classes, attributes and spawn behaviours fit together
-/
namespace Boxcars.Props
open Boxcars Spec

/-- The class that nothing is known about. -/
def voteActor : Str := "TAGame.VoteActor_TA".toList

def voteDefault : Str := "TAGame.Default__VoteActor_TA".toList

/-! ### Walking the table -/

/-- The names met when following parents, including the last one. -/
def walk : Nat → String → List String
  | 0, s => [s]
  | n + 1, s => s :: (match parentClasses.lookup s with
    | none => []
    | some p => walk n p)

def meets (targets l : List String) : Bool := l.any targets.contains

/-- The nearest declared spawn behaviour. -/
def spawnOn (l : List String) : Option SpawnTrajectory := l.findSome? fun s => spawnStats.lookup s

def movingNames : List String := ["TAGame.RBActor_TA", "TAGame.KeepUpIndicator_TA"]

def fixedNames : List String :=
  ["Engine.ZoneInfo", "TAGame.BreakOutActor_Platform_TA", "TAGame.CrowdActor_TA",
   "TAGame.CrowdManager_TA", "TAGame.HauntedBallTrapTrigger_TA", "TAGame.InMapScoreboard_TA",
   "TAGame.PlayerStart_Platform_TA", "TAGame.VehiclePickup_Boost_TA"]

def dataNames : List String :=
  ["TAGame.ProductAttribute_TA", "TAGame.Replay_TA", "TAGame.SaveData_GameEditor_Training_TA",
   "TAGame.TrainingEditorData_TA"]

/-- What holds for the names met from a class on. -/
def fits (l : List String) : Bool :=
  meets ["Core.Object"] l &&
  (if meets movingNames l then meets ["Engine.Actor"] l && spawnOn l == some .locationAndRotation
  else if meets fixedNames l then meets ["Engine.Actor"] l && spawnOn l == some .none
  else if meets ["Engine.Actor"] l then spawnOn l == some .location
  else meets dataNames l && spawnOn l == none)

set_option maxRecDepth 100000 in
theorem table_fits : parentClasses.all (fun p => p.1 == "TAGame.Default__VoteActor_TA" ||
    fits (p.1 :: walk 10 p.2)) = true := by
  decide +kernel

/-- The entry of the table used for a name that has a parent. -/
theorem entry_of {n p : Str} (h : parentOf n = some p) : ∃ k q : String,
    normalizeObject n = k.toList ∧ p = q.toList ∧ (k, q) ∈ parentClasses ∧
    normalizeObject p = p ∧ walkOk 10 q = true := by
  obtain ⟨q', h1, h2, hp⟩ := parentClass_eq h
  unfold parentOf parentClass at h
  obtain ⟨q, hq, rfl⟩ := Option.map_eq_some_iff.1 h
  rw [String.toList_inj.1 h1]
  exact ⟨_, _, (String.toList_ofList).symm, rfl, String.toList_inj.1 h1 ▸ lookup_mem hq,
    String.toList_inj.1 h1 ▸ hp, h2⟩

/-- The walk lists what the name descends from. -/
theorem walk_descends {k : Nat} {s : String} (hn : normalizeObject s.toList = s.toList)
    (hw : walkOk k s = true) (m : Str) :
    Descends s.toList m ↔ ∃ t ∈ walk k s, m = t.toList := by
  induction k generalizing s with
  | zero => cases hw
  | succ k ih =>
    rw [walkOk] at hw
    rw [walk]
    cases hl : parentClasses.lookup s with
    | none =>
      have hp : parentOf s.toList = none := by
        unfold parentOf parentClass
        rw [hn, String.ofList_toList, hl]
        rfl
      simp only [List.mem_singleton, exists_eq_left]
      constructor
      · intro h
        cases h with
        | refl => rfl
        | step h _ => rw [hp] at h; cases h
      · rintro rfl; exact .refl
    | some p =>
      rw [hl] at hw
      have hp : parentOf s.toList = some p.toList := by
        unfold parentOf parentClass
        rw [hn, String.ofList_toList, hl]
        rfl
      obtain ⟨_, _, _, hnp⟩ := parentClass_eq hp
      have := ih hnp hw
      simp only [List.mem_cons, exists_eq_or_imp]
      rw [← this]
      constructor
      · intro h
        cases h with
        | refl => exact .inl rfl
        | step h h2 => rw [hp] at h; cases h; exact .inr h2
      · rintro (rfl | h)
        · exact .refl
        · exact .step hp h

theorem meets_iff {k : Nat} {s : String} (hn : normalizeObject s.toList = s.toList)
    (hw : walkOk k s = true) (ts : List String) :
    meets ts (walk k s) = true ↔ ∃ m ∈ ts, Descends s.toList m.toList := by
  unfold meets
  rw [List.any_eq_true]
  constructor
  · rintro ⟨x, h1, h2⟩
    exact ⟨x, by simpa using h2, (walk_descends hn hw _).2 ⟨x, h1, rfl⟩⟩
  · rintro ⟨m, h1, h2⟩
    obtain ⟨x, h3, h4⟩ := (walk_descends hn hw _).1 h2
    exact ⟨x, h3, by rw [← String.toList_inj.1 h4]; simpa using h1⟩

/-- A name of the table, apart from `voteDefault`, fits. -/
theorem name_fits {n : Str} (hn : normalizeObject n = n) (hp : parentOf n ≠ none)
    (hv : n ≠ voteDefault) : ∃ s : String, n = s.toList ∧ walkOk 11 s = true ∧
      fits (walk 11 s) = true := by
  cases h : parentOf n with
  | none => exact absurd h hp
  | some p =>
    obtain ⟨k, q, h1, rfl, h3, _, h5⟩ := entry_of h
    rw [hn] at h1
    subst h1
    have hl : parentClasses.lookup k = some q := by
      unfold parentOf parentClass at h
      rw [hn, String.ofList_toList] at h
      obtain ⟨q', hq, e⟩ := Option.map_eq_some_iff.1 h
      rw [hq, String.toList_inj.1 e]
    have := List.all_eq_true.1 table_fits _ h3
    rw [Bool.or_eq_true] at this
    refine ⟨k, rfl, ?_, ?_⟩
    · rw [walkOk, hl]; exact h5
    · rw [walk, hl]
      rcases this with h | h
      · exfalso
        apply hv
        simp only [beq_iff_eq] at h
        rw [h]; rfl
      · exact h

/-! ### C67 -/

/-- C67, except for `class_root_false`: a class of the table descends from `Core.Object`.

Missing: `TAGame.Default__VoteActor_TA`, for which it is false. -/
theorem class_root_partial {n : Str} (hn : normalizeObject n = n) (hp : parentOf n ≠ none)
    (hv : n ≠ voteDefault) : Descends n "Core.Object".toList := by
  obtain ⟨s, rfl, hw, hf⟩ := name_fits hn hp hv
  unfold fits at hf
  rw [Bool.and_eq_true, meets_iff hn hw] at hf
  obtain ⟨m, h1, h2⟩ := hf.1
  rw [List.mem_singleton] at h1
  rwa [h1] at h2

/-- C67. Classes of actors and classes of other things. -/
theorem class_kind {n : Str} (hn : normalizeObject n = n) (hp : parentOf n ≠ none)
    (hv : n ≠ voteDefault) :
    Descends n "Engine.Actor".toList ∨ ∃ m ∈ dataClasses, Descends n m := by
  obtain ⟨s, rfl, hw, hf⟩ := name_fits hn hp hv
  have ha : meets ["Engine.Actor"] (walk 11 s) = true → Descends s.toList "Engine.Actor".toList := by
    rw [meets_iff hn hw]
    rintro ⟨m, h1, h2⟩
    rw [List.mem_singleton] at h1
    rwa [h1] at h2
  unfold fits at hf
  rw [Bool.and_eq_true] at hf
  have hf := hf.2
  split at hf
  · rw [Bool.and_eq_true] at hf; exact .inl (ha hf.1)
  · split at hf
    · rw [Bool.and_eq_true] at hf; exact .inl (ha hf.1)
    · split at hf
      · rename_i h; exact .inl (ha h)
      · rw [Bool.and_eq_true, meets_iff hn hw] at hf
        obtain ⟨m, h1, h2⟩ := hf.1
        exact .inr ⟨_, List.mem_map.2 ⟨m, h1, rfl⟩, h2⟩

/-- The walk gives the lineage and its nearest spawn behaviour. -/
theorem walk_spawn {k : Nat} {s : String} (hn : normalizeObject s.toList = s.toList)
    (hw : walkOk k s = true) :
    ∃ ns, Lineage s.toList ns ∧ ns.findSome? spawnDecl = spawnOn (walk k s) := by
  induction k generalizing s with
  | zero => cases hw
  | succ k ih =>
    rw [walkOk] at hw
    rw [walk]
    cases hl : parentClasses.lookup s with
    | none =>
      have hp : parentOf s.toList = none := by
        unfold parentOf parentClass
        rw [hn, String.ofList_toList, hl]
        rfl
      refine ⟨[], .root hp, ?_⟩
      have hs : spawnStats.lookup s = none := by
        cases hx : spawnStats.lookup s with
        | none => rfl
        | some t =>
          obtain ⟨_, h⟩ := spawn_declared_parent s.toList t (by
            unfold spawnDecl; rw [String.ofList_toList, hx])
          rw [hp] at h; cases h
      unfold spawnOn
      rw [List.findSome?_cons, hs]
      rfl
    | some p =>
      rw [hl] at hw
      have hp : parentOf s.toList = some p.toList := by
        unfold parentOf parentClass
        rw [hn, String.ofList_toList, hl]
        rfl
      obtain ⟨_, _, _, hnp⟩ := parentClass_eq hp
      obtain ⟨ns, h1, h2⟩ := ih hnp hw
      refine ⟨_, .step hp h1, ?_⟩
      unfold spawnOn at h2 ⊢
      rw [List.findSome?_cons, List.findSome?_cons, h2]
      have : spawnDecl s.toList = spawnStats.lookup s := by
        unfold spawnDecl; rw [String.ofList_toList]
      rw [this]

theorem spawnOf_listed {objects ns : List Str} (h : ∀ m ∈ ns, m ∈ objects) :
    spawnOf objects ns = (ns.findSome? spawnDecl).getD .none := by
  unfold spawnOf
  congr 1
  induction ns with
  | nil => rfl
  | cons n ns ih =>
    obtain ⟨i, hi⟩ := position_mem (h n List.mem_cons_self)
    rw [List.findSome?_cons, List.findSome?_cons, hi, Option.bind_some,
      ih fun m hm => h m (List.mem_cons_of_mem _ hm)]

/-- C67. How actors of a class are spawned if its ancestors are listed: those that move with a
location and a rotation, those that are part of the map with neither, all other actors with a
location. -/
theorem spawn_kinds {n : Str} (hn : normalizeObject n = n) (hp : parentOf n ≠ none)
    (hv : n ≠ voteDefault) {objects ns : List Str} (hl : Lineage n ns)
    (ho : ∀ m ∈ ns, m ∈ objects) :
    ((∃ m ∈ movingClasses, Descends n m) → spawnOf objects ns = .locationAndRotation) ∧
    ((¬∃ m ∈ movingClasses, Descends n m) → (∃ m ∈ fixedClasses, Descends n m) →
      spawnOf objects ns = .none) ∧
    ((¬∃ m ∈ movingClasses, Descends n m) → (¬∃ m ∈ fixedClasses, Descends n m) →
      Descends n "Engine.Actor".toList → spawnOf objects ns = .location) ∧
    (¬Descends n "Engine.Actor".toList → spawnOf objects ns = .none) := by
  obtain ⟨s, rfl, hw, hf⟩ := name_fits hn hp hv
  obtain ⟨ns', h1, h2⟩ := walk_spawn hn hw
  rw [lineage_unique hl h1, spawnOf_listed (by rw [← lineage_unique hl h1]; exact ho), h2]
  have hmap : ∀ ts : List String, (∃ m ∈ ts.map String.toList, Descends s.toList m) ↔
      meets ts (walk 11 s) = true := by
    intro ts
    rw [meets_iff hn hw]
    simp only [List.mem_map, exists_exists_and_eq_and]
  have hone : Descends s.toList "Engine.Actor".toList ↔ meets ["Engine.Actor"] (walk 11 s) = true := by
    rw [meets_iff hn hw]
    simp only [List.mem_singleton, exists_eq_left]
  rw [show movingClasses = movingNames.map String.toList from rfl,
    show fixedClasses = fixedNames.map String.toList from rfl, hmap, hmap, hone]
  unfold fits at hf
  rw [Bool.and_eq_true] at hf
  have hf := hf.2
  generalize meets movingNames (walk 11 s) = a at *
  generalize meets fixedNames (walk 11 s) = b at *
  generalize meets ["Engine.Actor"] (walk 11 s) = c at *
  generalize meets dataNames (walk 11 s) = d at *
  generalize spawnOn (walk 11 s) = w at *
  cases a <;> cases b <;> cases c <;> simp at hf ⊢ <;> simp [hf]

/-! ### The exception -/

set_option maxRecDepth 100000 in
theorem vote_parent : parentOf voteDefault = some voteActor := by decide +kernel

set_option maxRecDepth 100000 in
theorem vote_root : parentOf voteActor = none := by decide +kernel

/-- C67 is false of the table: nothing is known about `TAGame.VoteActor_TA`, the class of
`TAGame.Default__VoteActor_TA`. -/
theorem class_root_false : parentOf voteDefault ≠ none ∧
    ¬Descends voteDefault "Core.Object".toList := by
  refine ⟨by rw [vote_parent]; simp, ?_⟩
  intro h
  have e1 : voteDefault ≠ "Core.Object".toList := by decide +kernel
  have e2 : voteActor ≠ "Core.Object".toList := by decide +kernel
  generalize "Core.Object".toList = c at *
  cases h with
  | refl => exact e1 rfl
  | step h h2 =>
    rw [vote_parent] at h
    cases h
    cases h2 with
    | refl => exact e2 rfl
    | step h _ => rw [vote_root] at h; cases h

/-- So the attributes that `TAGame.VoteActor_TA` and `Engine.Actor` declare are unknown for it: an
actor of `TAGame.Default__VoteActor_TA` has those attributes only that are declared for that name
itself. -/
theorem vote_attributes (env : Env) (objects : List Str) (hl : objects.length ≤ 2 ^ 31)
    (cs : List ClassNetCache) (caches : List (Option CacheInfo))
    (h : Network.cacheTable env objects cs = .ok caches) (i : Nat)
    (hi : FirstAt objects voteDefault i) :
    ∃ c, caches[i]? = some (some c) ∧ ∀ s, c.attributes.get s =
      (declared cs s i).map fun p => ⟨attrType objects p.objectInd, p.objectInd⟩ := by
  obtain ⟨c, h1, h2⟩ := inheritance_partial env objects hl cs caches h i voteDefault [voteDefault] hi
    (.step vote_parent (.root vote_root)) (by simp)
  refine ⟨c, h1, ?_⟩
  intro s
  rw [h2]
  congr 1
  unfold inherited
  rw [List.findSome?_cons, position_iff.2 hi, Option.bind_some]
  cases declared cs s i <;> rfl

/-- Its actors are spawned without a location. -/
theorem vote_spawn (objects : List Str) : spawnOf objects [voteDefault] = .none := by
  unfold spawnOf
  have : spawnDecl voteDefault = none := by decide +kernel
  rw [List.findSome?_cons, this]
  cases position objects voteDefault <;> rfl

/-- A replay that lists the object, its class, and one of the attributes every actor has. -/
def voteObjects : List Str :=
  ["TAGame.Default__VoteActor_TA", "TAGame.VoteActor_TA", "Engine.Actor", "Engine.Actor:bHidden",
   "TAGame.Ball_TA"].map String.toList

def voteCache : List ClassNetCache := [⟨2, 0, 0, [⟨3, 7⟩]⟩, ⟨1, 0, 1, []⟩]

set_option maxRecDepth 100000 in
/-- The ball has the attribute, the vote has not. -/
theorem vote_sample : entryOf voteObjects voteCache 4 7 = some (some ⟨.boolean, 3⟩) ∧
    entryOf voteObjects voteCache 0 7 = some none := by decide +kernel

end Boxcars.Props
