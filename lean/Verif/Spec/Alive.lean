import Verif.Spec.History
/-!
# The actors that exist

As the records of a stream have it, and as the lists of a frame have it.
-/
namespace Boxcars.Spec

/-- The actors that exist after a record, and their objects: a deleted actor is gone. -/
def Event.alive (k : Known) : Event → Known
  | .new a => fun id => if id = a.actorId then some a.objectId else k id
  | .delete d => fun id => if id = d then none else k id
  | .update _ _ => k

/-- The actors that exist after some records. -/
def aliveAfter (k : Known) (es : List Event) : Known := es.foldl Event.alive k

/-- The last announcement of an id in a list. -/
def lastNew (as : List NewActor) (id : ActorId) : Option NewActor :=
  (as.filter fun a => a.actorId == id).getLast?

/-- What the lists of a frame say: an actor announced in it exists, otherwise one deleted in it
does not. -/
def tell (k : Known) (f : Frame) : Known := fun id =>
  match lastNew f.newActors id with
  | some a => some a.objectId
  | none => if id ∈ f.deletedActors then none else k id

/-- No actor is announced and deleted in the same frame. -/
def OneSided (f : Frame) : Prop := ∀ a ∈ f.newActors, a.actorId ∉ f.deletedActors

end Boxcars.Spec
