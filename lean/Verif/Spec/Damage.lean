import Verif.Spec.History
/-!
# Frames before a position

`Whole h body m fs`: the first `m` bits of the network data hold the frames `fs`, one after
the other from the start.
-/
namespace Boxcars.Spec

/-- The frames `fs` are the first of the network data and end within its first `m` bits. -/
def Whole (h : Header) (body : ReplayBody) (m : Nat) (fs : List Frame) : Prop :=
  InRange body.objects body.netCache ∧
  ∃ c n ess known j, CtxOf h body c ∧ NetOf h body c n ∧
    FramesAt n (AttrAccepts c) Known.none fs ess known (bytes body.networkData) j ∧
    (bytes body.networkData).length ≤ m + j.length

/-- The same tables, and network data of the same length that is the same in its first `m`
bits; the rest may be anything. -/
structure Damaged (m : Nat) (b b' : ReplayBody) : Prop where
  objects : b'.objects = b.objects
  netCache : b'.netCache = b.netCache
  length : b'.networkData.length = b.networkData.length
  start : (bytes b'.networkData).take m = (bytes b.networkData).take m

/-- The same tables, and network data that is the same in its first `m` bits; what follows may be
anything, and of any length. -/
structure Resized (m : Nat) (b b' : ReplayBody) : Prop where
  objects : b'.objects = b.objects
  netCache : b'.netCache = b.netCache
  start : (bytes b'.networkData).take m = (bytes b.networkData).take m

end Boxcars.Spec
