import Verif.Spec.Network
/-!
# Bodies that declare the same attributes for the stream ids in use
-/
namespace Boxcars.Spec

/-- For each id that `cs` declares for a class, `cs'` declares it or a larger one for the same class. -/
def Covers (cs' cs : List ClassNetCache) : Prop :=
  ∀ i s, declared cs s i ≠ none → ∃ t : StreamId, s.toInt ≤ t.toInt ∧ declared cs' t i ≠ none

/-- Two bodies that differ at most in the declarations of stream ids outside `S`, and in which every
class has the same largest id. -/
structure SameUse (S : StreamId → Prop) (b b' : ReplayBody) : Prop where
  objects : b.objects = b'.objects
  data : b.networkData = b'.networkData
  range : InRange b.objects b.netCache ↔ InRange b'.objects b'.netCache
  used : ∀ i s, S s → declared b.netCache s i = declared b'.netCache s i
  left : Covers b.netCache b'.netCache
  right : Covers b'.netCache b.netCache

end Boxcars.Spec
