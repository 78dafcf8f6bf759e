import Verif.Spec.Network
/-!
# Objects and declarations added behind those of a body
-/
namespace Boxcars.Spec

/-- The names whose position decides how product attributes are laid out. -/
def productKinds : List Str :=
  ["TAGame.ProductAttribute_UserColor_TA", "TAGame.ProductAttribute_Painted_TA",
   "TAGame.ProductAttribute_TitleID_TA", "TAGame.ProductAttribute_SpecialEdition_TA",
   "TAGame.ProductAttribute_TeamEdition_TA"].map String.toList

/-- `b'` has further objects `extra` behind those of `b` and further declarations `more`, which are
about the further objects. -/
structure AddedTo (extra : List Str) (more : List ClassNetCache) (b b' : ReplayBody) : Prop where
  objects : b'.objects = b.objects ++ extra
  data : b'.networkData = b.networkData
  cache : b'.netCache = b.netCache ++ more
  about : ∀ c ∈ more, b.objects.length ≤ c.objectInd.toNat
  range : InRange b'.objects more

/-- A further name that no listed object descends from, and that is not the name of a kind of
product. -/
def Unrelated (b : ReplayBody) (x : Str) : Prop :=
  x ∉ productKinds ∧ ∀ n ∈ b.objects, ∀ ns, Lineage n ns → x ∉ ns

end Boxcars.Spec
