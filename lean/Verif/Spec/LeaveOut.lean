import Verif.Spec.Possible
/-!
# Frames of which some updates and deletions are left out
-/
namespace Boxcars.Spec
open Boxcars

/-- `f'` is `f` without some of its updates and deletions. -/
structure FewerIn (f' f : Frame) : Prop where
  time : f'.time = f.time
  delta : f'.delta = f.delta
  new : f'.newActors = f.newActors
  deleted : f'.deletedActors.Sublist f.deletedActors
  updated : f'.updatedActors.Sublist f.updatedActors

end Boxcars.Spec
