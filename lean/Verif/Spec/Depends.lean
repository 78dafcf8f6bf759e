import Verif.Spec.Network
/-!
# What the frames of a replay may depend on
-/
namespace Boxcars.Spec

/-- Headers that say the same about the network data: the version, the number of frames, the
number of channels, whether the match was played in a LAN and whether the build is recent. -/
structure SameHeader (h h' : Header) : Prop where
  major : h.majorVersion = h'.majorVersion
  minor : h.minorVersion = h'.minorVersion
  net : h.netVersion.getD 0 = h'.netVersion.getD 0
  frames : headerInt h "NumFrames" = headerInt h' "NumFrames"
  channels : (headerInt h "MaxChannels").getD 1023 = (headerInt h' "MaxChannels").getD 1023
  lan : headerStr h "MatchType" = some "Lan".toList ↔ headerStr h' "MatchType" = some "Lan".toList
  build : (∃ x, headerStr h "BuildVersion" = some x ∧ "221120.42953.406184".toList ≤ x) ↔
    ∃ x, headerStr h' "BuildVersion" = some x ∧ "221120.42953.406184".toList ≤ x

/-- Headers that say the same about the network data but for the number of frames. -/
structure SameButFrames (h h' : Header) : Prop where
  major : h.majorVersion = h'.majorVersion
  minor : h.minorVersion = h'.minorVersion
  net : h.netVersion.getD 0 = h'.netVersion.getD 0
  channels : (headerInt h "MaxChannels").getD 1023 = (headerInt h' "MaxChannels").getD 1023
  lan : headerStr h "MatchType" = some "Lan".toList ↔ headerStr h' "MatchType" = some "Lan".toList
  build : (∃ x, headerStr h "BuildVersion" = some x ∧ "221120.42953.406184".toList ≤ x) ↔
    ∃ x, headerStr h' "BuildVersion" = some x ∧ "221120.42953.406184".toList ≤ x

/-- The outcome for `n` announced frames of a stream that holds the frames `fs` and then ends, or
then has an error. -/
def announced (fs : List Frame) (stop : Option (FrameError × FrameContext)) (n : Nat) :
    Res NetworkError NetworkFrames :=
  if n ≤ fs.length then .ok ⟨fs.take n⟩
  else match stop with
    | none => .ok ⟨fs⟩
    | some (e, c) => .err (.frameError e c)

/-- Bodies with the same objects, the same network data and the same declarations of
attributes.  Parent and cache ids, and everything else, may differ. -/
structure SameBody (b b' : ReplayBody) : Prop where
  objects : b.objects = b'.objects
  data : b.networkData = b'.networkData
  cache : b.netCache.map (fun c => (c.objectInd, c.properties)) =
    b'.netCache.map (fun c => (c.objectInd, c.properties))

/-- The same, where the declarations of different objects may be given in any order. -/
structure SameDecls (b b' : ReplayBody) : Prop where
  objects : b.objects = b'.objects
  data : b.networkData = b'.networkData
  decls : ∀ i, declarations b.netCache i = declarations b'.netCache i

/-- The bytes of a file up to the network data, of `n` bytes: both sizes and checksums, the
header, the levels, the key frames and the size of the network data. -/
def UpToNetwork (n : Nat) (bs : Bytes) : Prop :=
  ∃ (hs hc cs cc : BitVec 32) (h : Header) (levels : List Str) (keyframes : List KeyFrame)
    (b1 b2 b3 : Bytes), n < 2 ^ 31 ∧ HeaderSec h b1 ∧ ListField TextField levels b2 ∧
    ListField KeyFrameEnc keyframes b3 ∧
    bs = word hs ++ (word hc ++ (b1 ++ (word cs ++ (word cc ++ (b2 ++ (b3 ++
      word (BitVec.ofNat 32 n)))))))

/-- The frame with the given index. -/
def FrameAt (fs : List Frame) (i : BitVec 32) (f : Frame) : Prop :=
  0 ≤ i.toInt ∧ fs[i.toNat]? = some f

/-- The frame a key frame is about: the index and the time are those of the frame. -/
def KeyFrameOf (fs : List Frame) (k : KeyFrame) (f : Frame) : Prop :=
  FrameAt fs k.frame f ∧ f.time = k.time

/-- The index of an element of a list. -/
def Listed {α : Type} (xs : List α) (i : BitVec 32) : Prop := 0 ≤ i.toInt ∧ i.toNat < xs.length

/-- The ids of the objects that the frames and the declarations mention are indices of objects. -/
structure ObjectsListed (r : Replay) (fs : List Frame) : Prop where
  property : ∀ c ∈ r.netCache, ∀ p ∈ c.properties, Listed r.objects p.objectInd
  new : ∀ f ∈ fs, ∀ a ∈ f.newActors, Listed r.objects a.objectId
  update : ∀ f ∈ fs, ∀ u ∈ f.updatedActors, Listed r.objects u.objectId

/-- All indices of a replay refer to elements of its lists, and a class index gives the name of
the object. -/
structure References (r : Replay) (fs : List Frame) : Prop where
  objects : ObjectsListed r fs
  cls : ∀ c ∈ r.classIndices, 0 ≤ c.index.toInt ∧ r.objects[c.index.toNat]? = some c.cls
  entry : ∀ c ∈ r.netCache, Listed r.objects c.objectInd
  name : ∀ f ∈ fs, ∀ a ∈ f.newActors, ∀ i, a.nameId = some i → Listed r.names i

end Boxcars.Spec
