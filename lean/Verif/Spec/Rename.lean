import Verif.Spec.Extend
/-!
# Bodies that differ in the names of some objects
-/
namespace Boxcars.Spec

/-- `x` is the name of an object in `D`, in one of the two bodies. -/
def Touched (D : Nat → Prop) (b b' : ReplayBody) (x : Str) : Prop :=
  ∃ i, D i ∧ (b.objects[i]? = some x ∨ b'.objects[i]? = some x)

/-- Two bodies that differ at most in the names of the objects in `D`. No attribute is called by one of
these, no other object has one of the names or descends from one, and none is the name of a kind of
product. -/
structure Renamed (D : Nat → Prop) (b b' : ReplayBody) : Prop where
  data : b.networkData = b'.networkData
  cache : b.netCache = b'.netCache
  length : b.objects.length = b'.objects.length
  same : ∀ i, ¬D i → b.objects[i]? = b'.objects[i]?
  attrs : ∀ c ∈ b.netCache, ∀ p ∈ c.properties, ¬D p.objectInd.toNat
  products : ∀ x, Touched D b b' x → x ∉ productKinds
  others : ∀ x, Touched D b b' x → ∀ i n, ¬D i → b.objects[i]? = some n →
    n ≠ x ∧ ∀ ns, Lineage n ns → x ∉ ns

end Boxcars.Spec
