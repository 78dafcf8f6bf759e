import Verif.Spec.Values
import Verif.Spec.Frames
/-!
# The frames that are possible

Which sequences of frames there are for given tables, without saying how they are written.
-/
namespace Boxcars.Spec
open Boxcars

/-- An integer vector whose coordinates are in range. -/
def Whole3 (net : I32) (v : Vector3i) : Prop := Coord net v.x ∧ Coord net v.y ∧ Coord net v.z

/-- Where an actor can appear, by the behaviour of its class. -/
def TrajectoryOf (net : I32) : SpawnTrajectory → Trajectory → Prop
  | .none, t => t = ⟨none, none⟩
  | .location, t => ∃ v, Whole3 net v ∧ t = ⟨some v, none⟩
  | .locationAndRotation, t => ∃ v r, Whole3 net v ∧ t = ⟨some v, some r⟩

/-- An update of an actor of the class: the stream id is in use and the value is one of its type. -/
def UpdateOf (c : Ctx) (cd : ClassDef) (id : ActorId) (u : UpdatedAttribute) : Prop :=
  u.actorId = id ∧ (u.streamId.toNat : Int) < cd.limit ∧
    ∃ tag, cd.attr u.streamId = some (tag, u.objectId) ∧ ValueOf c tag u.attr

/-- A record that is possible when `known` are the announced actors. -/
def EventOf (n : Net) (c : Ctx) (known : Known) : Event → Prop
  | .new a => InChannels n a.actorId ∧ (a.nameId.isSome = true ↔ n.named = true) ∧
      n.cls a.objectId ≠ none ∧
      ∃ sp, n.spawn a.objectId = some sp ∧ TrajectoryOf n.net sp a.initialTrajectory
  | .delete id => InChannels n id
  | .update id us => InChannels n id ∧ ∃ obj cd, known id = some obj ∧ n.cls obj = some cd ∧
      ∀ u ∈ us, UpdateOf c cd id u

/-- Records that are possible one after the other. -/
def EventsOf (n : Net) (c : Ctx) : Known → List Event → Prop
  | _, [] => True
  | known, e :: es => EventOf n c known e ∧ EventsOf n c (known.after n e) es

/-- Frames with these records. -/
def FramesOf (n : Net) (c : Ctx) : Known → List Frame → List (List Event) → Prop
  | _, [], [] => True
  | known, f :: fs, es :: ess =>
    TimeOk f.time ∧ TimeOk f.delta ∧ ¬(IsZero f.time ∧ IsZero f.delta) ∧
      f.newActors = news es ∧ f.deletedActors = deletes es ∧ f.updatedActors = updates es ∧
      EventsOf n c known es ∧ FramesOf n c (known.afterAll n es) fs ess
  | _, _, _ => False

/-- The frames are possible: their lists are those of possible records in some order. -/
def Possible (n : Net) (c : Ctx) (fs : List Frame) : Prop := ∃ ess, FramesOf n c Known.none fs ess

/-- No awake rigid body lacks a velocity. -/
def AllMove (fs : List Frame) : Prop :=
  ∀ f ∈ fs, ∀ u ∈ f.updatedActors, ∀ b, u.attr = .rigidBody b → b.sleeping = false →
    b.linearVelocity.isSome = true ∧ b.angularVelocity.isSome = true

/-! ### How many bits suffice -/

def productsCost (l : List (List Product)) : Nat := 8 + (l.map fun ps => 8 + 8257 * ps.length).sum

def valueCost : Attribute → Nat
  | .string _ | .uniqueId _ | .reservation _ | .partyLeader _ | .privateMatch _
  | .repStatTitle _ => 25000
  | .loadoutOnline l => productsCost l
  | .loadoutsOnline v => productsCost v.blue + productsCost v.orange + 2
  | _ => 1100

def eventCost : Event → Nat
  | .new _ => 250
  | .delete _ => 50
  | .update _ us => 50 + (us.map fun u => 50 + valueCost u.attr).sum

/-- Bits that suffice for frames with these records. -/
def recordsCost (ess : List (List Event)) : Nat :=
  (ess.map fun es => 65 + (es.map eventCost).sum).sum

end Boxcars.Spec
