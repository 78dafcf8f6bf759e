import Verif.Spec.Possible
/-!
# Frames with other actor ids
-/
namespace Boxcars.Spec
open Boxcars

variable (σ : ActorId → ActorId)

def reActive (v : ActiveActor) : ActiveActor := { v with actor := σ v.actor }

/-- A value, with the actors it refers to. -/
def reValue : Attribute → Attribute
  | .damageState v => .damageState { v with offender := σ v.offender }
  | .demolish v => .demolish { v with attacker := σ v.attacker, victim := σ v.victim }
  | .demolishFx v => .demolishFx { v with attacker := σ v.attacker, victim := σ v.victim }
  | .demolishExtended v => .demolishExtended { v with
      attackerPri := reActive σ v.attackerPri, selfDemo := reActive σ v.selfDemo,
      goalExplosionOwner := reActive σ v.goalExplosionOwner, attacker := reActive σ v.attacker,
      victim := reActive σ v.victim }
  | .explosion v => .explosion { v with actor := σ v.actor }
  | .extendedExplosion v => .extendedExplosion { v with
      explosion := { v.explosion with actor := σ v.explosion.actor }, secondaryActor := σ v.secondaryActor }
  | .activeActor v => .activeActor (reActive σ v)
  | .pickup v => .pickup { v with instigator := v.instigator.map σ }
  | .pickupNew v => .pickupNew { v with instigator := v.instigator.map σ }
  | .welded v => .welded { v with actor := σ v.actor }
  | .pickupInfo v => .pickupInfo { v with availablePickups :=
      (reActive σ v.availablePickups.1, reActive σ v.availablePickups.2.1, reActive σ v.availablePickups.2.2) }
  | v => v

def reNew (a : NewActor) : NewActor := { a with actorId := σ a.actorId }

def reUpdate (u : UpdatedAttribute) : UpdatedAttribute :=
  { u with actorId := σ u.actorId, attr := reValue σ u.attr }

/-- A frame in which every actor id `i` is replaced by `σ i`. -/
def reFrame (f : Frame) : Frame :=
  { f with newActors := f.newActors.map (reNew σ), deletedActors := f.deletedActors.map σ,
           updatedActors := f.updatedActors.map (reUpdate σ) }

/-- Other actor ids: different ones for different actors, below the number of channels, and for those
that stay known after a deletion again such. -/
structure Reassigns (n : Net) : Prop where
  different : ∀ i j, σ i = σ j → i = j
  channels : ∀ i, InChannels n i → InChannels n (σ i)
  sticky : ∀ i, i.toNat < n.sticky → (σ i).toNat < n.sticky

end Boxcars.Spec
