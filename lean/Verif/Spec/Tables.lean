import Verif.Model.ObjectIndex
import Verif.Model.Header
/-!
# Class tree, inherited attributes and spawn behaviour

Direct definitions, without tables or memoisation.  They share with the model the data
tables, `parentClass` and `normalizeObject` (characterised by
`Props/Tables.lean: normalize_instance_partial`).
-/
namespace Boxcars.Spec

/-- The parent class of a listed object or class. -/
def parentOf (n : Str) : Option Str := parentClass (normalizeObject n)

/-- The names met when following parents, without the last one, which has no parent. -/
inductive Lineage : Str → List Str → Prop where
  | root {n} : parentOf n = none → Lineage n []
  | step {n p ns} : parentOf n = some p → Lineage p ns → Lineage n (n :: ns)

/-- `i` is the first position of the name. -/
def FirstAt (objects : List Str) (n : Str) (i : Nat) : Prop :=
  objects[i]? = some n ∧ ∀ j, j < i → objects[j]? ≠ some n

/-- First position of a name. -/
def position (objects : List Str) (n : Str) : Option Nat := objects.findIdx? (fun m => m == n)

/-- All declarations for the object at position `i`, in file order. -/
def declarations (cs : List ClassNetCache) (i : Nat) : List CacheProp :=
  (cs.filter (fun c => c.objectInd == BitVec.ofNat 32 i)).flatMap (·.properties)

/-- The last declaration of a stream id for the object at position `i`. -/
def declared (cs : List ClassNetCache) (s : StreamId) (i : Nat) : Option CacheProp :=
  (declarations cs i).reverse.find? (fun p => p.streamId == s)

/-- The declaration of a stream id nearest to the start of a lineage. -/
def inherited (objects : List Str) (cs : List ClassNetCache) (ns : List Str) (s : StreamId) :
    Option CacheProp :=
  ns.findSome? fun n => (position objects n).bind (declared cs s)

/-- The type of an attribute is given by the name of the object it refers to. -/
def attrType (objects : List Str) (o : ObjectId) : AttributeTag :=
  ((objects[o.toNat]?).bind attributeTag).getD .notImplemented

/-- Declared spawn behaviour of a name. -/
def spawnDecl (n : Str) : Option SpawnTrajectory := spawnStats.lookup (String.ofList n)

/-- Spawn behaviour of the nearest listed name with a declared one. -/
def spawnOf (objects : List Str) (ns : List Str) : SpawnTrajectory :=
  (ns.findSome? fun n => (position objects n).bind fun _ => spawnDecl n).getD .none

/-- Every declaration refers to a listed object. -/
def InRange (objects : List Str) (cs : List ClassNetCache) : Prop :=
  ∀ c ∈ cs, ∀ p ∈ c.properties, 0 ≤ p.objectInd.toInt ∧ p.objectInd.toNat < objects.length

end Boxcars.Spec
