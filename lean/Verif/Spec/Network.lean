import Verif.Spec.Tables
import Verif.Spec.Frames
import Verif.Spec.File
/-!
# The network section of a replay

What header and body say about the layout of the stream.
-/
namespace Boxcars.Spec

/-- The first header property with a name, if it is an integer. -/
def headerInt (h : Header) (k : String) : Option I32 :=
  match h.properties.find? (fun p => p.1 == k.toList) with
  | some (_, .int x) => some x
  | _ => none

/-- The first header property with a name, if it is a string or name. -/
def headerStr (h : Header) (k : String) : Option Str :=
  match h.properties.find? (fun p => p.1 == k.toList) with
  | some (_, .str x) => some x
  | some (_, .name x) => some x
  | _ => none

/-- The first position of a name as an object id; 0 if it is not listed. -/
def objectNamed (objects : List Str) (k : String) : ObjectId :=
  BitVec.ofNat 32 ((position objects k.toList).getD 0)

/-- The parameters of attribute layouts. -/
structure CtxOf (h : Header) (body : ReplayBody) (c : Ctx) : Prop where
  major : c.major = h.majorVersion
  minor : c.minor = h.minorVersion
  net : c.net = h.netVersion.getD 0#32
  color : c.color = objectNamed body.objects "TAGame.ProductAttribute_UserColor_TA"
  painted : c.painted = objectNamed body.objects "TAGame.ProductAttribute_Painted_TA"
  titleId : c.titleId = objectNamed body.objects "TAGame.ProductAttribute_TitleID_TA"
  special : c.special = objectNamed body.objects "TAGame.ProductAttribute_SpecialEdition_TA"
  team : c.team = objectNamed body.objects "TAGame.ProductAttribute_TeamEdition_TA"
  rl223 : c.rl223 = true ↔
    ∃ x, headerStr h "BuildVersion" = some x ∧ "221120.42953.406184".toList ≤ x

/-- One more than the largest declared id, 3 if there is none; not more than `i32::MAX`. -/
def IsLimit (decl : StreamId → Prop) (m : Int) : Prop :=
  ((∀ s, ¬decl s) ∧ m = 3) ∨
  ∃ s, decl s ∧ (∀ t, decl t → t.toInt ≤ s.toInt) ∧ m = min (s.toInt + 1) (2 ^ 31 - 1)

/-- The class of an object: only the first of several objects with the same name, and only
one with a parent, has one. -/
def ClassOf (body : ReplayBody) (o : ObjectId) (c : ClassDef) : Prop :=
  ∃ n ns, FirstAt body.objects n o.toNat ∧ Lineage n ns ∧ ns ≠ [] ∧
    (∀ s, c.attr s = (inherited body.objects body.netCache ns s).map
      fun p => (attrType body.objects p.objectInd, p.objectInd)) ∧
    IsLimit (fun s => c.attr s ≠ none) c.limit

/-- Spawn behaviour of an object; nothing for repetitions of a name. -/
def SpawnOf (body : ReplayBody) (o : ObjectId) (sp : SpawnTrajectory) : Prop :=
  ∃ n, body.objects[o.toNat]? = some n ∧
    ((FirstAt body.objects n o.toNat ∧ ∃ ns, Lineage n ns ∧ sp = spawnOf body.objects ns) ∨
      (¬FirstAt body.objects n o.toNat ∧ sp = .none))

/-- The parameters of the stream.  Actor ids below 200 stay known after a deletion. -/
structure NetOf (h : Header) (body : ReplayBody) (c : Ctx) (n : Net) : Prop where
  net : n.net = c.net
  channels : n.channels = ((headerInt h "MaxChannels").getD 1023#32).toNat
  named : n.named = true ↔ c.atLeast 868 20 0 ∨
    (c.atLeast 868 14 0 ∧ headerStr h "MatchType" ≠ some "Lan".toList)
  sticky : n.sticky = 200
  spawn : ∀ o sp, n.spawn o = some sp ↔ SpawnOf body o sp
  cls : ∀ o cd, n.cls o = some cd ↔ ClassOf body o cd

/-- The frames of a replay. -/
def NetworkOf (h : Header) (body : ReplayBody) (fs : List Frame) : Prop :=
  InRange body.objects body.netCache ∧
  match headerInt h "NumFrames" with
  | none => fs = []
  | some k => 0 ≤ k.toInt ∧ k.toNat ≤ body.networkData.length ∧
    ∃ c n o, CtxOf h body c ∧ NetOf h body c n ∧
      FramesRel n (AttrAccepts c) k.toNat Known.none fs (bytes body.networkData) o

/-- The header part of a replay. -/
def headerOf (r : Replay) : Header :=
  ⟨r.majorVersion, r.minorVersion, r.netVersion, r.gameType, r.properties⟩

/-- The body part of a replay, with a network section. -/
def bodyOf (r : Replay) (blob : List (BitVec 8)) : ReplayBody where
  levels := r.levels
  keyframes := r.keyframes
  debugInfo := r.debugInfo
  tickMarks := r.tickMarks
  packages := r.packages
  objects := r.objects
  names := r.names
  classIndices := r.classIndices
  netCache := r.netCache
  networkData := blob

/-- A replay file together with its frames. -/
def ReplayFile (checked : Bool) (r : Replay) (fs : List Frame) (bs rest : Bytes) : Prop :=
  ∃ x, FileSecs checked x bs rest ∧ NetworkOf x.header x.body fs ∧ r = x.replay (some ⟨fs⟩)

end Boxcars.Spec
