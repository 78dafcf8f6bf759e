import Verif.Model.FrameDecoder
import Verif.Model.ObjectIndex
import Verif.Model.Header
/-!
# Model of `src/network/mod.rs`

Line numbers refer to that file.
-/
namespace Boxcars

/-- Rust code returning `Result<α, NetworkError>` without a reader. -/
instance {ε : Type} : Monad (Res ε) where
  pure := Res.ok
  bind m f := match m with
    | .ok a => f a
    | .err e => .err e
    | .fault x => .fault x

namespace Network

/-- `xs[id.0 as usize]`: panics out of range. -/
def idx {ε α : Type} (env : Env) (xs : List α) (id : ObjectId) : Res ε α :=
  match xs[env.usizeOfI32 id]? with
  | some x => .ok x
  | none => .fault .index

/-- `xs[id.0 as usize] = v`: panics out of range. -/
def setIdx {ε α : Type} (env : Env) (xs : List α) (id : ObjectId) (v : α) : Res ε (List α) :=
  if env.usizeOfI32 id < xs.length then .ok (xs.set (env.usizeOfI32 id) v) else .fault .index

/-- `object_index.hierarchy(name)`. -/
def hier {ε : Type} (objects : List Str) (name : Str) : Res ε (List ObjectId) :=
  match hierarchy objects name with
  | some l => .ok l
  | none => .fault .fuel

/-! ### Spawn table, lines 51-78 -/

/-- Lines 54-60. -/
def spawnInit {ε : Type} (env : Env) (objects : List Str) :
    List (String × SpawnTrajectory) → List (Option SpawnTrajectory) →
    Res ε (List (Option SpawnTrajectory))
  | [], spawns => .ok spawns
  | (name, sp) :: rest, spawns =>
    match byName objects name.toList with
    | none => spawnInit env objects rest spawns
    | some id => do
      let spawns ← setIdx env spawns id (some sp)
      spawnInit env objects rest spawns

/-- Lines 64-73: walk up until an ancestor with a known spawn, collecting the ids
passed (in order of visit). -/
def spawnWalk {ε : Type} (env : Env) (spawns : List (Option SpawnTrajectory)) :
    List ObjectId → List ObjectId → Res ε (SpawnTrajectory × List ObjectId)
  | [], stack => .ok (.none, stack)
  | o :: os, stack => do
    let s ← idx env spawns o
    match s with
    | some sp => .ok (sp, stack)
    | none => spawnWalk env spawns os (stack ++ [o])

/-- Lines 75-77. -/
def spawnFill {ε : Type} (env : Env) (result : SpawnTrajectory) :
    List ObjectId → List (Option SpawnTrajectory) → Res ε (List (Option SpawnTrajectory))
  | [], spawns => .ok spawns
  | o :: os, spawns => do
    let spawns ← setIdx env spawns o (some result)
    spawnFill env result os spawns

/-- Lines 63-78. -/
def spawnLoop {ε : Type} (env : Env) (objects : List Str) :
    List Str → List (Option SpawnTrajectory) → Res ε (List (Option SpawnTrajectory))
  | [], spawns => .ok spawns
  | name :: names, spawns => do
    let ids ← hier objects name
    let (result, stack) ← spawnWalk env spawns ids []
    let spawns ← spawnFill env result stack spawns
    spawnLoop env objects names spawns

/-- The spawn table, lines 51-78. -/
def spawnTable {ε : Type} (env : Env) (objects : List Str) :
    Res ε (List (Option SpawnTrajectory)) := do
  let spawns ← spawnInit env objects spawnStats (List.replicate objects.length none)
  spawnLoop env objects objects spawns

/-! ### Declared attributes, lines 80-107 -/

/-- Lines 87-106 for one cache entry. -/
def cacheProps (env : Env) (objects : List Str) :
    List CacheProp → Res NetworkError (List (StreamId × ObjectAttribute))
  | [] => .ok []
  | x :: xs =>
    match objects[env.usizeOfI32 x.objectInd]? with
    | none => .err (.streamTooLargeIndex x.streamId x.objectInd)
    | some name => do
      let rest ← cacheProps env objects xs
      .ok ((x.streamId, ⟨(attributeTag name).getD .notImplemented, x.objectInd⟩) :: rest)

/-- Lines 80-107. -/
def netProperties (env : Env) (objects : List Str) :
    List ClassNetCache → HMap (List (StreamId × ObjectAttribute)) →
    Res NetworkError (HMap (List (StreamId × ObjectAttribute)))
  | [], m => .ok m
  | c :: cs, m => do
    let ps ← cacheProps env objects c.properties
    netProperties env objects cs (m.insert c.objectInd ((m.get c.objectInd).getD [] ++ ps))

/-! ### Inherited attributes, lines 109-122 and `net_traversal`, lines 196-223 -/

/-- Lines 205-213: `acc_attrs` and `parent_stack` after the walk. -/
def netWalk (env : Env) (memo : HMap (HMap ObjectAttribute)) :
    List ObjectId → List ObjectId → List (StreamId × ObjectAttribute) × List ObjectId
  | [], stack => ([], stack)
  | o :: os, stack =>
    match memo.get o with
    | some attrs => (env.perm attrs, stack)
    | none => netWalk env memo os (stack ++ [o])

/-- Lines 216-222, `stack` already reversed. -/
def netFill (props : HMap (List (StreamId × ObjectAttribute))) :
    List ObjectId → List (StreamId × ObjectAttribute) → HMap (HMap ObjectAttribute) →
    HMap (HMap ObjectAttribute)
  | [], _, memo => memo
  | o :: os, acc, memo =>
    let acc := acc ++ (props.get o).getD []
    netFill props os acc (memo.insert o (HMap.extend [] acc))

/-- The loop at lines 113-122 with `net_traversal` (lines 196-223) inlined. -/
def netLoop {ε : Type} (env : Env) (objects : List Str)
    (props : HMap (List (StreamId × ObjectAttribute))) :
    List Str → HMap (HMap ObjectAttribute) → Res ε (HMap (HMap ObjectAttribute))
  | [], memo => .ok memo
  | name :: names, memo => do
    let ids ← hier objects name
    let (acc, stack) := netWalk env memo ids []
    netLoop env objects props names (netFill props stack.reverse acc memo)

/-! ### Cache table, lines 124-154 -/

/-- `attrs.keys().map(i32::from).max().unwrap_or(2).saturating_add(1)`, lines
129-134. -/
def maxProp (attrs : HMap ObjectAttribute) : I32 :=
  let m : Int := match attrs.map (fun p => p.1.toInt) with
    | [] => 2
    | x :: xs => xs.foldl max x
  BitVec.ofInt 32 (min (m + 1) 2147483647)

/-- `max as u64` for `max : i32` (sign extension). -/
def u64OfI32 (x : I32) : Nat := if x.toInt < 0 then 2 ^ 64 - x.toInt.natAbs else x.toNat

/-- The closure at lines 127-149. -/
def cacheInfo (env : Env) (attrs : HMap ObjectAttribute) : CacheInfo where
  maxPropId := maxProp attrs
  propIdBits := Nat.max (bitWidth (u64OfI32 (maxProp attrs))) 1 - 1
  attributes := (env.perm attrs).foldl (fun a p => a.insert p.1 p.2) (SegArray.new 64)

/-- Lines 151-154. -/
def cacheFill {ε : Type} (env : Env) :
    List (ObjectId × HMap ObjectAttribute) → List (Option CacheInfo) →
    Res ε (List (Option CacheInfo))
  | [], xs => .ok xs
  | (o, attrs) :: rest, xs => do
    let xs ← setIdx env xs o (some (cacheInfo env attrs))
    cacheFill env rest xs

/-- The table `object_ind_attributes`, lines 80-154. -/
def cacheTable (env : Env) (objects : List Str) (netCache : List ClassNetCache) :
    Res NetworkError (List (Option CacheInfo)) := do
  let props ← netProperties env objects netCache []
  let memo ← netLoop env objects props objects []
  cacheFill env (env.perm memo) (List.replicate objects.length none)

/-- `ProductValueDecoder::create`, `src/network/attributes.rs:458-483`
(`ObjectId::default()` is 0). -/
def productDecoder (version : VersionTriplet) (objects : List Str) : ProductDecoder where
  version := version
  colorInd := (byName objects (lit "TAGame.ProductAttribute_UserColor_TA")).getD 0#32
  paintedInd := (byName objects (lit "TAGame.ProductAttribute_Painted_TA")).getD 0#32
  titleInd := (byName objects (lit "TAGame.ProductAttribute_TitleID_TA")).getD 0#32
  specialEditionInd := (byName objects (lit "TAGame.ProductAttribute_SpecialEdition_TA")).getD 0#32
  teamEditionInd := (byName objects (lit "TAGame.ProductAttribute_TeamEdition_TA")).getD 0#32

/-- `a >= b` on `str`: bytewise lexicographic order of the UTF-8 encodings, which
is the lexicographic order of the code points. -/
def strGe : Str → Str → Bool
  | _, [] => true
  | [], _ :: _ => false
  | a :: as, b :: bs => if a = b then strGe as bs else decide (a.toNat > b.toNat)

/-- `header.build_version() >= "221120.42953.406184"`, line 164. -/
def isRl223 (h : Header) : Bool :=
  match h.buildVersion with
  | some x => strGe x (lit "221120.42953.406184")
  | none => false

/-- `header.match_type() == "Lan"`, line 163. -/
def isLan (h : Header) : Bool :=
  match h.matchType with
  | some x => x == lit "Lan"
  | none => false

/-- Lines 43-47. -/
def version (h : Header) : VersionTriplet :=
  ⟨h.majorVersion, h.minorVersion, h.netVersion.getD 0#32⟩

/-- `header.max_channels().unwrap_or(1023) as u32`, line 159. -/
def maxChannels (h : Header) : U32 := h.maxChannels.getD 1023#32

/-- `bit_width(max_channels).saturating_sub(1)`, lines 160-161. -/
def channelBits (h : Header) : Nat := bitWidth (maxChannels h).toNat - 1

/-- The `FrameDecoder` built at lines 176-187. -/
def frameDecoder (h : Header) (body : ReplayBody) (framesLen : Nat)
    (spawns : List (Option SpawnTrajectory)) (caches : List (Option CacheInfo)) :
    FrameDecoder where
  framesLen := framesLen
  product := productDecoder (version h) body.objects
  maxChannels := maxChannels h
  channelBits := channelBits h
  objects := body.objects
  networkData := body.networkData
  spawns := spawns.map (fun x => x.getD .none)
  objectIndAttributes := caches
  version := version h
  isLan := isLan h
  isRl223 := isRl223 h

/-- Forget the reader at the end of `decode_frames`. -/
def runBM {ε α : Type} (env : Env) (m : BM ε α) (r : Reader) : Res ε α :=
  match m env r with
  | .ok a _ => .ok a
  | .err e _ => .err e
  | .fault x => .fault x

/-- `network::parse`, lines 42-194. -/
def parse (env : Env) (h : Header) (body : ReplayBody) : Res NetworkError NetworkFrames := do
  let spawns ← spawnTable env body.objects
  let caches ← cacheTable env body.objects body.netCache
  match h.numFrames with
  | none => .ok ⟨[]⟩
  | some frameLen =>
    if env.usizeOfI32 frameLen > body.networkData.length then
      .err (.tooManyFrames frameLen)
    else do
      let d := frameDecoder h body (env.usizeOfI32 frameLen) spawns caches
      let frames ← runBM env d.decodeFrames (Reader.new body.networkData)
      .ok ⟨frames⟩

end Network
end Boxcars
