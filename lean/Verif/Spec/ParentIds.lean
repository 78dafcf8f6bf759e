import Verif.Spec.Classes
/-!
# Inheritance as documented

`src/parser.rs:165-197` and `src/models.rs:259`: the parent of an entry of the net cache is the
entry whose cache id is the parent id; the child inherits all properties of the parent.
-/
namespace Boxcars.Spec

/-- The parent id of `c` refers to the other entry `p`. -/
def ParentEntry (cs : List ClassNetCache) (c p : ClassNetCache) : Prop :=
  p ∈ cs ∧ p ≠ c ∧ p.cacheId = c.parentId

/-- An entry and those met by following parent ids. -/
inductive Ancestry (cs : List ClassNetCache) : ClassNetCache → List ClassNetCache → Prop where
  | root {c} : (∀ p, ¬ParentEntry cs c p) → Ancestry cs c [c]
  | step {c p es} : ParentEntry cs c p → Ancestry cs p es → Ancestry cs c (c :: es)

/-- The property with a stream id, of the nearest entry that has one. -/
def documented (es : List ClassNetCache) (s : StreamId) : Option CacheProp :=
  es.findSome? fun c => c.properties.reverse.find? (fun p => p.streamId == s)

/-- The class of an entry is `n`. -/
def EntryFor (objects : List Str) (c : ClassNetCache) (n : Str) : Prop :=
  objects[c.objectInd.toNat]? = some n

/-- The class `m` is a proper ancestor of `n` in the class table. -/
def Above (n m : Str) : Prop := ∃ p, parentOf n = some p ∧ Descends p m

/-- `p` is the entry of the nearest proper ancestor, in the class table, that has one. -/
def NearestEntry (objects : List Str) (cs : List ClassNetCache) (c p : ClassNetCache) : Prop :=
  p ∈ cs ∧ ∃ n m, EntryFor objects c n ∧ EntryFor objects p m ∧ Above n m ∧
    ∀ q ∈ cs, ∀ k, EntryFor objects q k → Above n k → Descends m k

/-- A net cache that agrees with the class table: one entry for each class, by the first object
with its name; the parent ids refer to the nearest ancestors; no properties for a class without
a parent. -/
structure Consistent (objects : List Str) (cs : List ClassNetCache) : Prop where
  first : ∀ c ∈ cs, ∃ n, FirstAt objects n c.objectInd.toNat
  single : (cs.map (·.objectInd)).Nodup
  parents : ∀ c ∈ cs, ∀ p, ParentEntry cs c p ↔ NearestEntry objects cs c p
  top : ∀ c ∈ cs, ∀ n, EntryFor objects c n → parentOf n = none → c.properties = []

end Boxcars.Spec
