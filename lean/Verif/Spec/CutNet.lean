import Verif.Spec.CutShort
import Verif.Spec.Possible
/-!
# Network data that ends too early
-/
namespace Boxcars.Spec

/-- The error asks for more data. -/
def Awaits : FrameError → Prop
  | .notEnoughDataFor _ => True
  | .attributeError _ _ _ e => ¬FinalError e
  | _ => False

/-- The same tables, and network data with more behind it. -/
structure Continued (b b' : ReplayBody) : Prop where
  objects : b'.objects = b.objects
  netCache : b'.netCache = b.netCache
  data : b.networkData <+: b'.networkData

/-- No awake rigid body among the updates lacks a velocity. -/
def UpdatesMove (us : List UpdatedAttribute) : Prop :=
  ∀ u ∈ us, ∀ b, u.attr = .rigidBody b → b.sleeping = false →
    b.linearVelocity.isSome = true ∧ b.angularVelocity.isSome = true

/-- The error asks for more data: the announced frames do not fit, or a frame is cut off. -/
def AwaitsMore : NetworkError → Prop
  | .tooManyFrames k => 0 ≤ k.toInt
  | .frameError e _ => Awaits e
  | .streamTooLargeIndex _ _ => False

/-- No awake rigid body in what was decoded, or is reported with the error, lacks a velocity. -/
def OutcomeMoves : Res NetworkError NetworkFrames → Prop
  | .ok f => AllMove f.frames
  | .err (.frameError _ ctx) => AllMove ctx.frames ∧ UpdatesMove ctx.updatedActors
  | _ => True

/-- The frames that were decoded, or are reported with the error. -/
def outcomeFrames : Res NetworkError NetworkFrames → List Frame
  | .ok f => f.frames
  | .err (.frameError _ ctx) => ctx.frames
  | _ => []

end Boxcars.Spec
