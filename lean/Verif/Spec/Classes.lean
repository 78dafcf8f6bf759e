import Verif.Spec.Tables
/-!
# The classes of the game
-/
namespace Boxcars.Spec

/-- Following parents leads from the first name to the second. -/
inductive Descends : Str → Str → Prop where
  | refl {n} : Descends n n
  | step {n p m} : parentOf n = some p → Descends p m → Descends n m

/-- Classes of things that are no actors. -/
def dataClasses : List Str :=
  ["TAGame.ProductAttribute_TA", "TAGame.Replay_TA", "TAGame.SaveData_GameEditor_Training_TA",
   "TAGame.TrainingEditorData_TA"].map String.toList

/-- Classes of actors that move. -/
def movingClasses : List Str := ["TAGame.RBActor_TA", "TAGame.KeepUpIndicator_TA"].map String.toList

/-- Classes of actors that are part of the map. -/
def fixedClasses : List Str :=
  ["Engine.ZoneInfo", "TAGame.BreakOutActor_Platform_TA", "TAGame.CrowdActor_TA",
   "TAGame.CrowdManager_TA", "TAGame.HauntedBallTrapTrigger_TA", "TAGame.InMapScoreboard_TA",
   "TAGame.PlayerStart_Platform_TA", "TAGame.VehiclePickup_Boost_TA"].map String.toList

/-- The class `cls` has the attribute `prop` of type `t`. -/
def AttributeOf (cls prop : Str) (t : AttributeTag) : Prop :=
  ':' ∉ cls ∧ attributeTag (cls ++ ':' :: prop) = some t

end Boxcars.Spec
