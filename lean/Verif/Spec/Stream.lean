import Verif.Spec.Network
/-!
# Writing a network stream

The bits a game would write for a sequence of frames.  Records are given in the order in
which they are written; attribute values and initial trajectories together with one of
their representations.
-/
namespace Boxcars.Spec

/-- An attribute update to be written. -/
structure Put where
  stream : StreamId
  value : Attribute
  wire : Bits

/-- A record to be written. -/
inductive Rec where
  | new (a : NewActor) (unused : Bool) (wire : Bits)
  | delete (id : ActorId)
  | update (id : ActorId) (puts : List Put)

/-- A frame to be written. -/
structure Plan where
  time : F32
  delta : F32
  recs : List Rec

/-- The live actors and their objects after a record: a deleted actor is gone. -/
def Rec.live (k : Known) : Rec → Known
  | .new a _ _ => fun id => if id = a.actorId then some a.objectId else k id
  | .delete d => fun id => if id = d then none else k id
  | .update _ _ => k

/-- The class of a live actor. -/
def classAt (n : Net) (k : Known) (id : ActorId) : Option ClassDef := (k id).bind n.cls

/-- The updates of an actor. -/
def writePuts (limit : Nat) : List Put → Bits
  | [] => [false]
  | p :: ps => true :: (bounded limit p.stream.toNat ++ (p.wire ++ writePuts limit ps))

/-- A record. -/
def Rec.write (n : Net) (k : Known) : Rec → Bits
  | .new a b w => actorId n a.actorId ++ (true :: true ::
      ((match a.nameId with | some x => field 32 x | none => []) ++
        ([b] ++ (field 32 a.objectId ++ w))))
  | .delete id => actorId n id ++ [false]
  | .update id ps => actorId n id ++ (true :: false ::
      (match classAt n k id with | some c => writePuts c.limit.toNat ps | none => []))

/-- The records of a frame. -/
def writeRecs (n : Net) : Known → List Rec → Bits
  | _, [] => [false]
  | k, r :: rs => true :: (r.write n k ++ writeRecs n (r.live k) rs)

/-- The live actors after the records of a frame. -/
def liveAfter (k : Known) (rs : List Rec) : Known := rs.foldl Rec.live k

/-- The frames. -/
def writePlans (n : Net) : Known → List Plan → Bits
  | _, [] => []
  | k, p :: ps => field 32 p.time ++ (field 32 p.delta ++
      (writeRecs n k p.recs ++ writePlans n (liveAfter k p.recs) ps))

/-- An update of an attribute the class declares. -/
def PutOk (x : Ctx) (c : ClassDef) (p : Put) : Prop :=
  ∃ tag obj, c.attr p.stream = some (tag, obj) ∧ p.stream.toNat < 2 ^ 31 - 1 ∧
    AttrEnc x tag p.value p.wire

/-- A record that makes sense when `k` are the live actors. -/
def RecOk (n : Net) (x : Ctx) (k : Known) : Rec → Prop
  | .new a _ w => InChannels n a.actorId ∧ (a.nameId.isSome = n.named) ∧
      (∃ sp, n.spawn a.objectId = some sp ∧ SpawnEnc n.net sp a.initialTrajectory w) ∧
      n.cls a.objectId ≠ none
  | .delete id => InChannels n id
  | .update id ps => InChannels n id ∧ ∃ c, classAt n k id = some c ∧ ∀ p ∈ ps, PutOk x c p

/-- Records that make sense one after the other. -/
def RecsOk (n : Net) (x : Ctx) : Known → List Rec → Prop
  | _, [] => True
  | k, r :: rs => RecOk n x k r ∧ RecsOk n x (r.live k) rs

/-- Frames that make sense one after the other; none looks like the end marker. -/
def PlansOk (n : Net) (x : Ctx) : Known → List Plan → Prop
  | _, [] => True
  | k, p :: ps => TimeOk p.time ∧ TimeOk p.delta ∧ ¬(IsZero p.time ∧ IsZero p.delta) ∧
      RecsOk n x k p.recs ∧ PlansOk n x (liveAfter k p.recs) ps

/-- What a record announces. -/
def Rec.news : Rec → List NewActor
  | .new a _ _ => [a]
  | _ => []

/-- What a record deletes. -/
def Rec.deletes : Rec → List ActorId
  | .delete d => [d]
  | _ => []

/-- The updates of a record, with the object the class table names for each. -/
def Rec.updates (n : Net) (k : Known) : Rec → List UpdatedAttribute
  | .update id ps => ps.filterMap fun p => do
      let c ← classAt n k id
      let d ← c.attr p.stream
      pure ⟨id, p.stream, d.2, p.value⟩
  | _ => []

/-- The updates of a frame. -/
def recUpdates (n : Net) : Known → List Rec → List UpdatedAttribute
  | _, [] => []
  | k, r :: rs => r.updates n k ++ recUpdates n (r.live k) rs

/-- The frames written. -/
def planFrames (n : Net) : Known → List Plan → List Frame
  | _, [] => []
  | k, p :: ps => ⟨p.time, p.delta, p.recs.flatMap Rec.news, p.recs.flatMap Rec.deletes,
      recUpdates n k p.recs⟩ :: planFrames n (liveAfter k p.recs) ps

/-- What may follow the last of `m` frames if `limit` frames are announced: nothing, an end
marker and anything, or, if these were all frames, anything. -/
def Ending (m limit : Nat) (o : Bits) : Prop :=
  (o = [] ∧ m ≤ limit) ∨ m = limit ∨
    (m < limit ∧ ∃ t d j, IsZero t ∧ IsZero d ∧ o = field 32 t ++ (field 32 d ++ j))

end Boxcars.Spec
