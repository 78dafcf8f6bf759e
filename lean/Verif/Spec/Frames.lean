import Verif.Spec.Attr
import Verif.Spec.Float
/-!
# The network stream: frames, actors and updates

The relations are between values, the bits before them and the bits after them:
`R v i o` reads "`i` is a representation of `v` followed by `o`".  They are
parametrised by the representation `A` of attribute values.
-/
namespace Boxcars.Spec

/-- What is known about a class of objects: stream ids are written as numbers below
`limit`; `attr` gives the type of a stream id and the object it belongs to. -/
structure ClassDef where
  limit : Int
  attr : StreamId → Option (AttributeTag × ObjectId)

/-- Everything the layout of the stream depends on.  `named`: announcements carry a name
id.  `sticky`: actor ids below this number stay known after deletion. -/
structure Net where
  net : I32
  channels : Nat
  named : Bool
  sticky : Nat
  spawn : ObjectId → Option SpawnTrajectory
  cls : ObjectId → Option ClassDef

/-- Representation of attribute values. -/
abbrev AttrRel := AttributeTag → Attribute → Bits → Bits → Prop

/-- One record of a frame. -/
inductive Event where
  | new (a : NewActor)
  | delete (id : ActorId)
  | update (id : ActorId) (us : List UpdatedAttribute)

/-- The object announced for each actor id. -/
abbrev Known := ActorId → Option ObjectId

/-- The effect of a record. -/
def Known.after (n : Net) (known : Known) : Event → Known
  | .new a => fun id => if id = a.actorId then some a.objectId else known id
  | .delete d => fun id => if id = d ∧ n.sticky ≤ d.toNat then none else known id
  | .update _ _ => known

/-- The attribute updates of one actor: each is preceded by a set bit, the last followed
by a clear bit. -/
inductive PropsRel (A : AttrRel) (c : ClassDef) (id : ActorId) :
    List UpdatedAttribute → Bits → Bits → Prop where
  | done {o} : PropsRel A c id [] (false :: o) o
  | prop {s tag obj v us j k o} : (s.toNat : Int) < c.limit → c.attr s = some (tag, obj) →
      A tag v j k → PropsRel A c id us k o →
      PropsRel A c id (⟨id, s, obj, v⟩ :: us) (true :: (bounded c.limit.toNat s.toNat ++ j)) o

/-- An announcement, after the actor id: name id if there are names, an unused bit, the
object, and the initial location and rotation its class prescribes. -/
def NewRel (n : Net) (a : NewActor) (i o : Bits) : Prop :=
  ∃ nm b sp t, When (n.named = true) Word a.nameId nm ∧ n.spawn a.objectId = some sp ∧
    SpawnEnc n.net sp a.initialTrajectory t ∧
    i = nm ++ ([b] ++ (field 32 a.objectId ++ (t ++ o)))

/-- An actor id. -/
def actorId (n : Net) (id : ActorId) : Bits := bounded n.channels id.toNat

/-- An id that can be written: below the number of channels, or 0 if there are none. -/
def InChannels (n : Net) (id : ActorId) : Prop := id.toNat < max n.channels 1

/-- One record, in a state in which `known` are the announced actors. -/
inductive EventRel (n : Net) (A : AttrRel) (known : Known) : Event → Bits → Bits → Prop where
  | new {a c j o} : InChannels n a.actorId → NewRel n a j o → n.cls a.objectId = some c →
      EventRel n A known (.new a) (actorId n a.actorId ++ (true :: true :: j)) o
  | delete {id o} : InChannels n id →
      EventRel n A known (.delete id) (actorId n id ++ (false :: o)) o
  | update {id obj c us j o} : InChannels n id → known id = some obj → n.cls obj = some c →
      PropsRel A c id us j o →
      EventRel n A known (.update id us) (actorId n id ++ (true :: false :: j)) o

/-- The records of a frame: each is preceded by a set bit, the last followed by a clear
bit. -/
inductive EventsRel (n : Net) (A : AttrRel) : Known → List Event → Bits → Bits → Prop where
  | done {known o} : EventsRel n A known [] (false :: o) o
  | event {known e es i j o} : EventRel n A known e i j →
      EventsRel n A (known.after n e) es j o → EventsRel n A known (e :: es) (true :: i) o

/-- The announcements among the records. -/
def news : List Event → List NewActor
  | [] => []
  | .new a :: es => a :: news es
  | _ :: es => news es

/-- The deletions among the records. -/
def deletes : List Event → List ActorId
  | [] => []
  | .delete d :: es => d :: deletes es
  | _ :: es => deletes es

/-- The updates among the records. -/
def updates : List Event → List UpdatedAttribute
  | [] => []
  | .update _ us :: es => us ++ updates es
  | _ :: es => updates es

/-- The effect of all records. -/
def Known.afterAll (n : Net) (known : Known) (es : List Event) : Known :=
  es.foldl (Known.after n) known

/-- A time or time difference that is accepted: NaN, a zero, or at least `1e-10`
(`0x2edbe6ff`), including positive infinity. -/
def TimeOk (t : F32) : Prop :=
  (fexp t = 255 ∧ (ffrac t ≠ 0 ∨ fneg t = false)) ∨
  (fexp t ≠ 255 ∧ (fval t = 0 ∨ fval 0x2edbe6ff#32 ≤ fval t))

/-- Plus or minus zero. -/
def IsZero (t : F32) : Prop := fexp t = 0 ∧ ffrac t = 0

/-- A frame with its records; not the end marker, which has time and delta zero. -/
def FrameRel (n : Net) (A : AttrRel) (known : Known) (f : Frame) (es : List Event)
    (i o : Bits) : Prop :=
  TimeOk f.time ∧ TimeOk f.delta ∧ ¬(IsZero f.time ∧ IsZero f.delta) ∧
  f.newActors = news es ∧ f.deletedActors = deletes es ∧ f.updatedActors = updates es ∧
  ∃ j, i = field 32 f.time ++ (field 32 f.delta ++ j) ∧ EventsRel n A known es j o

/-- At most `limit` frames, ended by the limit, the end of data or an end marker. -/
inductive FramesRel (n : Net) (A : AttrRel) : Nat → Known → List Frame → Bits → Bits → Prop where
  | full {known i} : FramesRel n A 0 known [] i i
  | empty {limit known} : FramesRel n A limit known [] [] []
  | stop {limit known t d i} : IsZero t → IsZero d →
      FramesRel n A (limit + 1) known [] (field 32 t ++ (field 32 d ++ i)) i
  | frame {limit known f es fs i j o} : FrameRel n A known f es i j →
      FramesRel n A limit (known.afterAll n es) fs j o →
      FramesRel n A (limit + 1) known (f :: fs) i o

/-- No actor is known. -/
def Known.none : Known := fun _ => Option.none

end Boxcars.Spec
