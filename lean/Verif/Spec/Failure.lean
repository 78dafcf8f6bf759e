import Verif.Spec.Network
import Verif.Spec.AttrFail
/-!
# How a network stream fails

Which error a stream that is not a sequence of frames is answered with, and what was
understood before.  Only the error type and its context are taken from the model.  `X`
says which error an attribute value is answered with.
-/
namespace Boxcars.Spec

/-- Which error a representation that is not a value of the given type is answered with. -/
abbrev AttrFail := AttributeTag → AttributeError → Bits → Prop

/-- A stream id below the limit, with enough data left to hold any stream id. -/
def StreamIdAt (c : ClassDef) (s : StreamId) (i j : Bits) : Prop :=
  0 ≤ c.limit ∧ c.limit.toNat.log2 + 1 ≤ i.length ∧ s.toNat < max c.limit.toNat 1 ∧
    i = bounded c.limit.toNat s.toNat ++ j

/-- The updates of actor `id`, announced with object `obj` of class `c`, break off after the
updates `us`. -/
inductive PropsFail (A : AttrRel) (X : AttrFail) (c : ClassDef) (id : ActorId) (obj : ObjectId) :
    List UpdatedAttribute → FrameError → Bits → Prop where
  | flag : PropsFail A X c id obj [] (.notEnoughDataFor "Is prop present") []
  | streamId {i} : c.limit < 0 ∨ i.length < c.limit.toNat.log2 + 1 →
      PropsFail A X c id obj [] (.notEnoughDataFor "Prop id") (true :: i)
  | undeclared {s i j} : StreamIdAt c s i j → c.attr s = none →
      PropsFail A X c id obj [] (.missingAttribute id obj s) (true :: i)
  | unimplemented {s tag ob i j} : StreamIdAt c s i j → c.attr s = some (tag, ob) →
      X tag .unimplemented j → PropsFail A X c id obj [] (.missingAttribute id obj s) (true :: i)
  | value {s tag ob i j e} : StreamIdAt c s i j → c.attr s = some (tag, ob) →
      X tag e j → e ≠ .unimplemented →
      PropsFail A X c id obj [] (.attributeError id obj s e) (true :: i)
  | next {s tag ob v us e i j k} : StreamIdAt c s i j → c.attr s = some (tag, ob) →
      A tag v j k → PropsFail A X c id obj us e k →
      PropsFail A X c id obj (⟨id, s, ob, v⟩ :: us) e (true :: i)

/-- The fixed part of an announcement. -/
def NewHead (n : Net) (obj : ObjectId) (i j : Bits) : Prop :=
  ∃ v nm b, When (n.named = true) Word v nm ∧ i = nm ++ ([b] ++ (field 32 obj ++ j))

/-- An announcement breaks off. -/
inductive NewFail (n : Net) : FrameError → Bits → Prop where
  | short {i} : i.length < (if n.named then 65 else 33) →
      NewFail n (.notEnoughDataFor "New Actor") i
  | object {obj i j} : NewHead n obj i j → n.spawn obj = none →
      NewFail n (.objectIdOutOfRange obj) i
  | place {obj sp i j} : NewHead n obj i j → n.spawn obj = some sp →
      (∀ t ts k, SpawnEnc n.net sp t ts → j ≠ ts ++ k) →
      NewFail n (.notEnoughDataFor "New Actor") i

/-- An actor id, with enough data left to hold any actor id and a bit. -/
def ActorIdAt (n : Net) (id : ActorId) (i j : Bits) : Prop :=
  n.channels.log2 + 2 ≤ i.length ∧ InChannels n id ∧ i = actorId n id ++ j

/-- A record breaks off after the updates `us`. -/
inductive EventFail (n : Net) (A : AttrRel) (X : AttrFail) (known : Known) :
    List UpdatedAttribute → FrameError → Bits → Prop where
  | actor {i} : i.length < n.channels.log2 + 2 →
      EventFail n A X known [] (.notEnoughDataFor "Actor Id") i
  | isNew {id i} : ActorIdAt n id i [true] →
      EventFail n A X known [] (.notEnoughDataFor "Is new actor") i
  | announce {id i j e} : ActorIdAt n id i (true :: true :: j) → NewFail n e j →
      EventFail n A X known [] e i
  | classless {a i j o} : ActorIdAt n a.actorId i (true :: true :: j) → NewRel n a j o →
      n.cls a.objectId = none → EventFail n A X known [] (.missingCache a.actorId a.objectId) i
  | unknown {id i j} : ActorIdAt n id i (true :: false :: j) → known id = none →
      EventFail n A X known [] (.missingActor id) i
  | props {id obj c us e i j} : ActorIdAt n id i (true :: false :: j) → known id = some obj →
      n.cls obj = some c → PropsFail A X c id obj us e j → EventFail n A X known us e i

/-- The records of a frame break off after the records `es` and, in the next one, the
updates `us`. -/
inductive EventsFail (n : Net) (A : AttrRel) (X : AttrFail) :
    Known → List Event → List UpdatedAttribute → FrameError → Bits → Prop where
  | flag {known} : EventsFail n A X known [] [] (.notEnoughDataFor "Actor data") []
  | event {known us e i} : EventFail n A X known us e i →
      EventsFail n A X known [] us e (true :: i)
  | next {known ev es us e i j} : n.channels.log2 + 2 ≤ i.length → EventRel n A known ev i j →
      EventsFail n A X (known.after n ev) es us e j →
      EventsFail n A X known (ev :: es) us e (true :: i)

/-- A frame breaks off. -/
inductive FrameFail (n : Net) (A : AttrRel) (X : AttrFail) (known : Known) :
    List Event → List UpdatedAttribute → FrameError → Bits → Prop where
  | time {i} : i.length < 32 → FrameFail n A X known [] [] (.notEnoughDataFor "Time") i
  | timeRange {t i} : ¬TimeOk t →
      FrameFail n A X known [] [] (.timeOutOfRange t) (field 32 t ++ i)
  | delta {t i} : TimeOk t → i.length < 32 →
      FrameFail n A X known [] [] (.notEnoughDataFor "Delta") (field 32 t ++ i)
  | deltaRange {t d i} : TimeOk t → ¬TimeOk d →
      FrameFail n A X known [] [] (.deltaOutOfRange d) (field 32 t ++ (field 32 d ++ i))
  | records {t d es us e i} : TimeOk t → TimeOk d → ¬(IsZero t ∧ IsZero d) →
      EventsFail n A X known es us e i →
      FrameFail n A X known es us e (field 32 t ++ (field 32 d ++ i))

/-- A stream of at most `limit` frames breaks off after the frames `fs`, which leave the
actors `k` announced, and, in the next frame, the records `es` and the updates `us`. -/
inductive FramesFail (n : Net) (A : AttrRel) (X : AttrFail) :
    Nat → Known → List Frame → Known → List Event → List UpdatedAttribute → FrameError →
    Bits → Prop where
  | here {limit known es us e i} : i ≠ [] → FrameFail n A X known es us e i →
      FramesFail n A X (limit + 1) known [] known es us e i
  | next {limit known f evs fs k es us e i j} : FrameRel n A known f evs i j →
      FramesFail n A X limit (known.afterAll n evs) fs k es us e j →
      FramesFail n A X (limit + 1) known (f :: fs) k es us e i

/-- The context reported with a failure: the completed frames, what was understood of the
failing one and the actors announced when it failed. -/
structure ContextOf (n : Net) (objects : List Str) (fs : List Frame) (k : Known)
    (es : List Event) (us : List UpdatedAttribute) (ctx : FrameContext) : Prop where
  objects : ctx.objects = objects
  frames : ctx.frames = fs
  newActors : ctx.newActors = news es
  updatedActors : ctx.updatedActors = updates es ++ us
  sorted : ctx.actors.Pairwise (fun p q => p.1.toNat < q.1.toNat)
  actors : ∀ id obj, (id, obj) ∈ ctx.actors ↔ k.afterAll n es id = some obj

/-- Attribute values are answered with exactly one error exactly if they are not accepted;
the error `Unimplemented` is that of attributes of unknown type. -/
structure AttrErrors (c : Ctx) (X : AttrFail) : Prop where
  total : ∀ tag i, (∃ e, X tag e i) ↔ ∀ v o, ¬AttrAccepts c tag v i o
  unique : ∀ tag e e' i, X tag e i → X tag e' i → e = e'
  unimplemented : ∀ tag i, X tag .unimplemented i ↔ tag = .notImplemented

/-- How the network section of a replay fails.  `table` is the table of attributes per
object reported with the error. -/
inductive NetworkFail (h : Header) (body : ReplayBody)
    (table : List (Option CacheInfo)) : NetworkError → Prop where
  | index {a p b} : body.netCache.flatMap (·.properties) = a ++ p :: b →
      (∀ q ∈ a, 0 ≤ q.objectInd.toInt ∧ q.objectInd.toNat < body.objects.length) →
      ¬(0 ≤ p.objectInd.toInt ∧ p.objectInd.toNat < body.objects.length) →
      NetworkFail h body table (.streamTooLargeIndex p.streamId p.objectInd)
  | count {k} : InRange body.objects body.netCache → headerInt h "NumFrames" = some k →
      ¬(0 ≤ k.toInt ∧ k.toNat ≤ body.networkData.length) →
      NetworkFail h body table (.tooManyFrames k)
  | frame {k c n fs kn es us e ctx} : InRange body.objects body.netCache →
      headerInt h "NumFrames" = some k → 0 ≤ k.toInt → k.toNat ≤ body.networkData.length →
      CtxOf h body c → NetOf h body c n →
      FramesFail n (AttrAccepts c) (AttrFails c) k.toNat Known.none fs kn es us e
        (bytes body.networkData) →
      ContextOf n body.objects fs kn es us ctx → ctx.objectAttributes = table →
      NetworkFail h body table (.frameError e ctx)

end Boxcars.Spec
