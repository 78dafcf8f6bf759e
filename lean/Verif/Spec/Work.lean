import Verif.Model.Parser
/-!
# Counting the steps of the parser

A second copy of every loop and recursive function of the model that also counts.  What is
counted:

* one step for every iteration of a loop and for every recursive call;
* one step for every elementary read, plus one for every byte (in the header and body) or bit
  (in the network data) it consumes; text is decoded within that. Splitting off the network data
  (`take_data` returns a slice) is one step;
* one step per byte for every checksum;
* one step for every step up the class tree, for every element copied from one attribute table
  to another, and for every slot of a new array.

Arithmetic, comparisons and one access to a hash map cost nothing extra.  The copies
are shown to compute the same results as the model (`Props/Work.lean: work_faithful`), so the
counts are counts of steps of the model.
-/
namespace Boxcars.Work

/-! ## Counting versions of the three monads -/

/-- A byte parser with its number of steps. -/
def PT (α : Type) := Env → CoreSt → PRes α × Nat

namespace PT

variable {α β : Type}

def pure (a : α) : PT α := fun _ s => (.ok a s, 0)

def bind (m : PT α) (f : α → PT β) : PT β := fun env s =>
  match m env s with
  | (.ok a s', t) => ((f a env s').1, t + (f a env s').2)
  | (.err e s', t) => (.err e s', t)
  | (.fault x, t) => (.fault x, t)

instance : Monad PT where
  pure := PT.pure
  bind := PT.bind

/-- Count one step. -/
def tick (m : PT α) : PT α := fun env s => ((m env s).1, (m env s).2 + 1)

/-- Not counted. -/
def free (m : P α) : PT α := fun env s => (m env s, 0)

/-- Bytes left over by an outcome. -/
def left (n : Nat) : PRes α → Nat
  | .ok _ s => s.data.length
  | .err _ s => s.data.length
  | .fault _ => n

/-- An elementary read: one step and one for each byte consumed. -/
def read (m : P α) : PT α := fun env s =>
  (m env s, 1 + (s.data.length - left s.data.length (m env s)))

/-- `P.wrap`. -/
def wrap (sec : String) (m : PT α) : PT α := fun env s =>
  match m env s with
  | (.ok a s', t) => (.ok a s', t)
  | (.err e s', t) => (.err (.parseError sec s'.col e) s', t)
  | (.fault x, t) => (.fault x, t)

end PT

/-- A bit decoder with its number of steps. -/
def BT (ε α : Type) := Env → Reader → BRes ε α × Nat

namespace BT

variable {ε ε' α β : Type}

def pure (a : α) : BT ε α := fun _ r => (.ok a r, 0)

def bind (m : BT ε α) (f : α → BT ε β) : BT ε β := fun env r =>
  match m env r with
  | (.ok a r', t) => ((f a env r').1, t + (f a env r').2)
  | (.err e r', t) => (.err e r', t)
  | (.fault x, t) => (.fault x, t)

instance : Monad (BT ε) where
  pure := BT.pure
  bind := BT.bind

/-- Count one step. -/
def tick (m : BT ε α) : BT ε α := fun env r => ((m env r).1, (m env r).2 + 1)

/-- Not counted. -/
def free (m : BM ε α) : BT ε α := fun env r => (m env r, 0)

/-- Bits left over by an outcome. -/
def left (n : Nat) : BRes ε α → Nat
  | .ok _ r => r.bits.length
  | .err _ r => r.bits.length
  | .fault _ => n

/-- An elementary decoder: one step and one for each bit consumed. -/
def read (m : BM ε α) : BT ε α := fun env r =>
  (m env r, 1 + (r.bits.length - left r.bits.length (m env r)))

/-- `BM.mapErr`. -/
def mapErr (f : ε → ε') (m : BT ε α) : BT ε' α := fun env r =>
  match m env r with
  | (.ok a r', t) => (.ok a r', t)
  | (.err e r', t) => (.err (f e) r', t)
  | (.fault x, t) => (.fault x, t)

end BT

/-- A computation without input with its number of steps. -/
def CT (ε α : Type) := Res ε α × Nat

namespace CT

variable {ε α β : Type}

def bind (m : CT ε α) (f : α → CT ε β) : CT ε β :=
  match m with
  | (.ok a, t) => ((f a).1, t + (f a).2)
  | (.err e, t) => (.err e, t)
  | (.fault x, t) => (.fault x, t)

instance : Monad (CT ε) where
  pure a := (.ok a, 0)
  bind := CT.bind

/-- A computation that counts `n` steps. -/
def cost (n : Nat) (m : Res ε α) : CT ε α := (m, n)

/-- Count one step. -/
def tick (m : CT ε α) : CT ε α := (m.1, m.2 + 1)

end CT

/-! ## Header and body -/

/-- `replicateP`. -/
def replicateP {α : Type} : Nat → PT α → PT (List α)
  | 0, _ => pure []
  | n + 1, f => PT.tick do
    let a ← f
    let rest ← replicateP n f
    pure (a :: rest)

/-- `repeatP`. -/
def repeatP {α : Type} (size : Nat) (f : PT α) : PT (List α) :=
  if size > 25000 then PT.free (P.fail (.listTooLarge size)) else replicateP size f

/-- `listOf`. -/
def listOf {α : Type} (f : PT α) : PT (List α) := do
  let size ← PT.read take32
  let n ← PT.free (P.usize size)
  repeatP n f

/-- `textList`. -/
def textList : PT (List Str) := listOf (PT.read parseText)

/-- `propValue`; the two recursive calls are counted. -/
def propValue (recur : PT (List (Str × HeaderProp))) (mode : ParserMode) (kind : Str) :
    PT (Option HeaderProp) :=
  if kind = lit "ArrayProperty" then do
    let size ← PT.read (takeI32 "array property size")
    let n ← PT.free (P.usize size)
    let arr ← repeatP n (PT.tick recur)
    pure (some (.array arr))
  else if kind = lit "StructProperty" then do
    let name ← PT.read parseStr
    let fields ← PT.tick recur
    pure (some (.struct name fields))
  else
    -- the other kinds make no recursive call
    PT.read (Boxcars.propValue (P.fail (.unexpectedProperty [])) mode kind)

/-- `parseRdict`. -/
def parseRdict : Nat → ParserMode → PT (List (Str × HeaderProp))
  | 0, _ => PT.free fun _ _ => .fault .fuel
  | fuel + 1, mode => PT.tick do
    let key ← PT.read parseStr
    if key = lit "None" then
      pure []
    else
      let kind ← PT.read parseStr
      let _size ← PT.read (takeI32 "property size")
      let _ignored ← PT.read (takeData 4)
      let val ← propValue (parseRdict fuel mode) mode kind
      let rest ← parseRdict fuel mode
      match val with
      | none => pure rest
      | some v => pure ((key, v) :: rest)

/-- The net version field of `parseHeader`. -/
def netVersion (major minor : I32) : P (Option I32) :=
  if major.toInt > 865 ∧ minor.toInt > 17 then some <$> takeI32 "net version" else pure none

/-- `parseHeader`. -/
def parseHeader : PT Header := do
  let major ← PT.read (takeI32 "major version")
  let minor ← PT.read (takeI32 "minor version")
  let net ← PT.read (netVersion major minor)
  let gameType ← PT.read (P.wrap "game type" parseText)
  let properties ← PT.wrap "header properties" (do
    let fuel ← PT.free rdictFuel
    parseRdict fuel (headerMode major minor net))
  pure ⟨major, minor, net, gameType, properties⟩

/-- `parseTickmarks`. -/
def parseTickmarks : PT (List TickMark) := listOf do
  let description ← PT.read parseText
  let frame ← PT.read take32
  pure ⟨description, frame⟩

/-- `parseKeyframe`. -/
def parseKeyframe : PT (List KeyFrame) := listOf do
  let time ← PT.read take32
  let frame ← PT.read take32
  let position ← PT.read take32
  pure ⟨time, frame, position⟩

/-- `parseDebuginfo`. -/
def parseDebuginfo : PT (List DebugInfo) := listOf do
  let frame ← PT.read take32
  let user ← PT.read parseText
  let text ← PT.read parseText
  pure ⟨frame, user, text⟩

/-- `parseClassindex`. -/
def parseClassindex : PT (List ClassIndex) := listOf do
  let cls ← PT.read parseStr
  let index ← PT.read take32
  pure ⟨cls, index⟩

/-- `parseClasscache`. -/
def parseClasscache : PT (List ClassNetCache) := listOf do
  let objectInd ← PT.read take32
  let parentId ← PT.read take32
  let cacheId ← PT.read take32
  let properties ← listOf do
    let objectInd ← PT.read take32
    let streamId ← PT.read take32
    pure (⟨objectInd, streamId⟩ : CacheProp)
  pure ⟨objectInd, parentId, cacheId, properties⟩

/-- `parseBody`. -/
def parseBody : PT ReplayBody := do
  let levels ← PT.wrap "levels" textList
  let keyframes ← PT.wrap "keyframes" parseKeyframe
  let networkSize ← PT.read (takeI32 "network size")
  let n ← PT.free (P.usize networkSize)
  -- the network data is split off, not looked at
  let networkData ← PT.tick (PT.free (P.wrap "network data" (takeData n)))
  let debugInfo ← PT.wrap "debug info" parseDebuginfo
  let tickMarks ← PT.wrap "tickmarks" parseTickmarks
  let packages ← PT.wrap "packages" textList
  let objects ← PT.wrap "objects" textList
  let names ← PT.wrap "names" textList
  let classIndices ← PT.wrap "class index" parseClassindex
  let netCache ← PT.wrap "net cache" parseClasscache
  pure {
    levels, keyframes, debugInfo, tickMarks, packages, objects, names,
    classIndices, netCache, networkData }

/-- `crcSection`: the steps of the section and one step per byte if the checksum is
computed. -/
def crcSection {α : Type} (check : CrcCheck) (data : List Byte) (crc : U32) (sec : String)
    (f : PT α) : PT α := fun env s =>
  (Boxcars.crcSection check data crc sec (fun env s => (f env s).1) env s,
    (f env s).2 + match check, (f env s).1 with
      | .always, _ => data.length
      | .onError, .err _ _ => data.length
      | _, _ => 0)

/-! ## Network stream -/

/-- `replicateBM`. -/
def replicateBM {ε α : Type} : Nat → BT ε α → BT ε (List α)
  | 0, _ => pure []
  | n + 1, f => BT.tick do
    let a ← f
    let rest ← replicateBM n f
    pure (a :: rest)

/-- `reservationName`. -/
def reservationName : Nat → Str → BT AttributeError Str
  | 0, _ => BT.free (BM.faulty .fuel)
  | fuel + 1, acc =>
    if Str.byteLen acc < 255 then BT.tick do
      let c ← BT.read (need "Reservation" readU8)
      if c = 0#8 then pure acc
      else reservationName fuel (acc ++ [Char.ofNat c.toNat])
    else pure acc

/-- `AttrDecoder.reservation`. -/
def reservation (d : AttrDecoder) : BT AttributeError Reservation := do
  let number ← BT.read (need "Reservation" (readBits 3))
  let unique ← BT.read (decodeUniqueId d.version.netVersion)
  let name ←
    if unique.systemId ≠ 0#8 then do
      let s ← BT.read decodeText
      pure (some s)
    else if unique.remoteId ≠ .splitScreen 0#32 then do
      let s ← reservationName 256 []
      pure (some s)
    else pure none
  let unknown1 ← BT.read (need "Reservation" readBit)
  let unknown2 ← BT.read (need "Reservation" readBit)
  let unknown3 ←
    if d.version.ge 868 12 0 then do
      let x ← BT.read (need "Reservation" (readBits 6))
      pure (some (BitVec.ofNat 8 x))
    else pure none
  pure ⟨BitVec.ofNat 32 number, unique, name, unknown1, unknown2, unknown3⟩

/-- `AttrDecoder.onlineLoadout`. -/
def onlineLoadout (d : AttrDecoder) : BT Unit (List (List Product)) := do
  let size ← BT.read readU8
  replicateBM size.toNat (do
    let attributeSize ← BT.read readU8
    replicateBM attributeSize.toNat (BT.read d.decodeProduct))

/-- `AttrDecoder.loadoutsOnline`. -/
def loadoutsOnline (d : AttrDecoder) : BT Unit LoadoutsOnline := do
  let blue ← onlineLoadout d
  let orange ← onlineLoadout d
  let unknown1 ← BT.read readBit
  let unknown2 ← BT.read readBit
  pure ⟨blue, orange, unknown1, unknown2⟩

/-- `AttrDecoder.decode`: the types whose decoders contain loops, and the others. -/
def decode (d : AttrDecoder) : AttributeTag → BT AttributeError Attribute
  | .reservation => do
    let x ← reservation d
    pure (.reservation x)
  | .loadoutOnline => do
    let x ← BT.mapErr (fun _ => .notEnoughDataFor "Loadout Online") (onlineLoadout d)
    pure (.loadoutOnline x)
  | .loadoutsOnline => do
    let x ← BT.mapErr (fun _ => .notEnoughDataFor "Loadouts online") (loadoutsOnline d)
    pure (.loadoutsOnline x)
  | tag => BT.read (d.decode tag)

/-- `FrameDecoder.updateLoop`. -/
def updateLoop (ad : AttrDecoder) (actorId : ActorId) (objectId : ObjectId)
    (cache : CacheInfo) : Nat → FrameSt → BT (FrameError × FrameSt) FrameSt
  | 0, _ => BT.free (BM.faulty .fuel)
  | fuel + 1, st => BT.tick do
    let more ← BT.read (FrameDecoder.req "Is prop present" st readBit)
    if more then
      BT.free refill
      let look ← BT.free lookaheadBits
      if look < cache.propIdBits + 1 then BT.free (BM.fail (.notEnoughDataFor "Prop id", st))
      else
        let raw ← BT.read (peekBitsMaxComputed cache.propIdBits cache.maxPropId.toNat)
        let streamId : StreamId := BitVec.ofNat 32 raw
        match cache.attributes.get streamId with
        | none => BT.free (BM.fail (.missingAttribute actorId objectId streamId, st))
        | some attr =>
          let value ← BT.mapErr
            (fun e => (FrameDecoder.attrErr actorId objectId streamId e, st)) (decode ad attr.attr)
          updateLoop ad actorId objectId cache fuel
            { st with updated := st.updated ++ [⟨actorId, streamId, attr.objectId, value⟩] }
    else pure st

/-- `FrameDecoder.actorLoop`. -/
def actorLoop (d : FrameDecoder) (ad : AttrDecoder) :
    Nat → FrameSt → BT (FrameError × FrameSt) FrameSt
  | 0, _ => BT.free (BM.faulty .fuel)
  | fuel + 1, st => BT.tick do
    let more ← BT.read (FrameDecoder.req "Actor data" st readBit)
    if more then
      BT.free refill
      let look ← BT.free lookaheadBits
      if look < d.channelBits + 1 + 1 then BT.free (BM.fail (.notEnoughDataFor "Actor Id", st))
      else
        let raw ← BT.read (peekBitsMaxComputed d.channelBits d.maxChannels.toNat)
        let actorId : ActorId := BitVec.ofNat 32 raw
        let alive ← BT.read (peekAndConsume 1)
        if alive == 1 then
          let isNew ← BT.read (FrameDecoder.req "Is new actor" st readBit)
          if isNew then
            let actor ← BT.read (BM.mapErr (fun e => (e, st)) (d.parseNewActor actorId))
            let cache ← BT.free (getIndex d.objectIndAttributes actor.objectId)
            match cache with
            | some (some cache) =>
              actorLoop d ad fuel
                { st with
                  actors := st.actors.insert actor.actorId (actor.objectId, cache)
                  newActors := st.newActors ++ [actor] }
            | _ => BT.free (BM.fail (.missingCache actorId actor.objectId, st))
          else
            match st.actors.get actorId with
            | none => BT.free (BM.fail (.missingActor actorId, st))
            | some (objectId, cache) =>
              let st ← updateLoop ad actorId objectId cache (fuel + 1) st
              actorLoop d ad fuel st
        else
          actorLoop d ad fuel
            { st with
              deleted := st.deleted ++ [actorId]
              actors := st.actors.delete actorId }
    else pure st

/-- `FrameDecoder.decodeFrame`. -/
def decodeFrame (d : FrameDecoder) (ad : AttrDecoder) (fuel : Nat)
    (actors : SegArray (ObjectId × CacheInfo)) :
    BT (FrameError × FrameSt) (Option (Frame × SegArray (ObjectId × CacheInfo))) := do
  let st : FrameSt := ⟨actors, [], [], []⟩
  let time ← BT.read (FrameDecoder.req "Time" st readU32)
  if FrameDecoder.outOfRange time then BT.free (BM.fail (.timeOutOfRange time, st))
  else
    let delta ← BT.read (FrameDecoder.req "Delta" st readU32)
    if FrameDecoder.outOfRange delta then BT.free (BM.fail (.deltaOutOfRange delta, st))
    else if F32.eq time F32.zero && F32.eq delta F32.zero then pure none
    else
      let st ← actorLoop d ad fuel st
      pure (some (⟨time, delta, st.newActors, st.deleted, st.updated⟩, st.actors))

/-- `FrameDecoder.framesLoop`. -/
def framesLoop (d : FrameDecoder) (ad : AttrDecoder) (bitFuel : Nat) :
    Nat → List Frame → SegArray (ObjectId × CacheInfo) → BT NetworkError (List Frame)
  | 0, _, _ => BT.free (BM.faulty .fuel)
  | fuel + 1, frames, actors => BT.tick do
    let empty ← BT.free FrameDecoder.isEmptyBM
    if !empty && decide (frames.length < d.framesLen) then
      let res ← BT.mapErr (fun (e, st) => NetworkError.frameError e (d.context frames st))
        (decodeFrame d ad bitFuel actors)
      match res with
      | none => pure frames
      | some (frame, actors) => framesLoop d ad bitFuel fuel (frames ++ [frame]) actors
    else pure frames

/-- `FrameDecoder.decodeFrames`; the array part of the actor table has 200 slots. -/
def decodeFrames (d : FrameDecoder) : BT NetworkError (List Frame) := do
  BT.free (FrameDecoder.reserveFrames d.framesLen)
  let frames ← framesLoop d d.attrDecoder (8 * d.networkData.length + 1) (d.framesLen + 1) []
    (SegArray.new 200)
  if d.version.ge 868 24 10 then
    let _ ← BT.read (BM.attempt readU32)
    pure frames
  else pure frames

/-! ## Class tables -/

/-- Number of calls of `AncestorIterator::next` until it returns `None`, or all of `fuel`. -/
def ancestorSteps : Nat → Str → Nat
  | 0, _ => 0
  | fuel + 1, name =>
    match parentClass (normalizeObject name) with
    | none => 1
    | some parent => 1 + ancestorSteps fuel parent

/-- `Network.hier`: the complete walk is counted, also where the caller stops early. -/
def hier {ε : Type} (objects : List Str) (name : Str) : CT ε (List ObjectId) :=
  CT.cost (ancestorSteps ancestorFuel name) (Network.hier objects name)

/-- `Network.spawnInit`. -/
def spawnInit {ε : Type} (env : Env) (objects : List Str) :
    List (String × SpawnTrajectory) → List (Option SpawnTrajectory) →
    CT ε (List (Option SpawnTrajectory))
  | [], spawns => pure spawns
  | (name, sp) :: rest, spawns => CT.tick
    (match byName objects name.toList with
    | none => spawnInit env objects rest spawns
    | some id => do
      let spawns ← CT.cost 0 (Network.setIdx env spawns id (some sp))
      spawnInit env objects rest spawns)

/-- `Network.spawnWalk`. -/
def spawnWalk {ε : Type} (env : Env) (spawns : List (Option SpawnTrajectory)) :
    List ObjectId → List ObjectId → CT ε (SpawnTrajectory × List ObjectId)
  | [], stack => pure (.none, stack)
  | o :: os, stack => CT.tick do
    let s ← CT.cost 0 (Network.idx env spawns o)
    match s with
    | some sp => pure (sp, stack)
    | none => spawnWalk env spawns os (stack ++ [o])

/-- `Network.spawnFill`. -/
def spawnFill {ε : Type} (env : Env) (result : SpawnTrajectory) :
    List ObjectId → List (Option SpawnTrajectory) → CT ε (List (Option SpawnTrajectory))
  | [], spawns => pure spawns
  | o :: os, spawns => CT.tick do
    let spawns ← CT.cost 0 (Network.setIdx env spawns o (some result))
    spawnFill env result os spawns

/-- `Network.spawnLoop`. -/
def spawnLoop {ε : Type} (env : Env) (objects : List Str) :
    List Str → List (Option SpawnTrajectory) → CT ε (List (Option SpawnTrajectory))
  | [], spawns => pure spawns
  | name :: names, spawns => CT.tick do
    let ids ← hier objects name
    let (result, stack) ← spawnWalk env spawns ids []
    let spawns ← spawnFill env result stack spawns
    spawnLoop env objects names spawns

/-- `Network.spawnTable`, with the construction of the object index and of the table of
`None`s (one step per object each). -/
def spawnTable {ε : Type} (env : Env) (objects : List Str) :
    CT ε (List (Option SpawnTrajectory)) := do
  let start ← CT.cost (2 * objects.length) (.ok (List.replicate objects.length none))
  let spawns ← spawnInit env objects spawnStats start
  spawnLoop env objects objects spawns

/-- `Network.cacheProps`. -/
def cacheProps (env : Env) (objects : List Str) :
    List CacheProp → CT NetworkError (List (StreamId × ObjectAttribute))
  | [] => pure []
  | x :: xs => CT.tick
    (match objects[env.usizeOfI32 x.objectInd]? with
    | none => CT.cost 0 (.err (.streamTooLargeIndex x.streamId x.objectInd))
    | some name => do
      let rest ← cacheProps env objects xs
      pure ((x.streamId, ⟨(attributeTag name).getD .notImplemented, x.objectInd⟩) :: rest))

/-- `Network.netProperties`. -/
def netProperties (env : Env) (objects : List Str) :
    List ClassNetCache → HMap (List (StreamId × ObjectAttribute)) →
    CT NetworkError (HMap (List (StreamId × ObjectAttribute)))
  | [], m => pure m
  | c :: cs, m => CT.tick do
    let ps ← cacheProps env objects c.properties
    netProperties env objects cs (m.insert c.objectInd ((m.get c.objectInd).getD [] ++ ps))

/-- Steps of `Network.netWalk`: one per id looked at and one per attribute copied. -/
def netWalkSteps (memo : HMap (HMap ObjectAttribute)) : List ObjectId → Nat
  | [] => 0
  | o :: os =>
    match memo.get o with
    | some attrs => 1 + attrs.length
    | none => 1 + netWalkSteps memo os

/-- Steps of `Network.netFill`: for each id one, one per attribute added to the accumulated
list, and two per element of that list (it is collected into a map, which is cloned). -/
def netFillSteps (props : HMap (List (StreamId × ObjectAttribute))) :
    List ObjectId → List (StreamId × ObjectAttribute) → Nat
  | [], _ => 0
  | o :: os, acc =>
    let new := (props.get o).getD []
    1 + new.length + 2 * (acc ++ new).length + netFillSteps props os (acc ++ new)

/-- `Network.netLoop`. -/
def netLoop {ε : Type} (env : Env) (objects : List Str)
    (props : HMap (List (StreamId × ObjectAttribute))) :
    List Str → HMap (HMap ObjectAttribute) → CT ε (HMap (HMap ObjectAttribute))
  | [], memo => pure memo
  | name :: names, memo => CT.tick do
    let ids ← hier objects name
    let w ← CT.cost (netWalkSteps memo ids) (.ok (Network.netWalk env memo ids []))
    let memo ← CT.cost (netFillSteps props w.2.reverse w.1)
      (.ok (Network.netFill props w.2.reverse w.1 memo))
    netLoop env objects props names memo

/-- `Network.cacheFill`: for each class one step, 64 for its new array, and two per attribute
(for the largest key and for the insertions). -/
def cacheFill {ε : Type} (env : Env) :
    List (ObjectId × HMap ObjectAttribute) → List (Option CacheInfo) →
    CT ε (List (Option CacheInfo))
  | [], xs => pure xs
  | (o, attrs) :: rest, xs => do
    let xs ← CT.cost (1 + 64 + 2 * attrs.length)
      (Network.setIdx env xs o (some (Network.cacheInfo env attrs)))
    cacheFill env rest xs

/-- `Network.cacheTable`, with the table of `None`s. -/
def cacheTable (env : Env) (objects : List Str) (netCache : List ClassNetCache) :
    CT NetworkError (List (Option CacheInfo)) := do
  let props ← netProperties env objects netCache []
  let memo ← netLoop env objects props objects []
  let start ← CT.cost objects.length (.ok (List.replicate objects.length none))
  cacheFill env (env.perm memo) start

/-- Run a counted decoder. -/
def run {ε α : Type} (env : Env) (m : BT ε α) (r : Reader) : CT ε α :=
  match m env r with
  | (.ok a _, t) => (.ok a, t)
  | (.err e _, t) => (.err e, t)
  | (.fault x, t) => (.fault x, t)

/-- `Network.parse`; the final pass over the spawn table is one step per object. -/
def networkParse (env : Env) (h : Header) (body : ReplayBody) : CT NetworkError NetworkFrames := do
  let spawns ← spawnTable env body.objects
  let caches ← cacheTable env body.objects body.netCache
  match h.numFrames with
  | none => pure ⟨[]⟩
  | some frameLen =>
    if env.usizeOfI32 frameLen > body.networkData.length then
      CT.cost 0 (.err (.tooManyFrames frameLen))
    else do
      let d ← CT.cost body.objects.length
        (.ok (Network.frameDecoder h body (env.usizeOfI32 frameLen) spawns caches))
      let frames ← run env (decodeFrames d) (Reader.new body.networkData)
      pure ⟨frames⟩

/-! ## The whole parser -/

/-- `networkStep`. -/
def networkStep (np : NetworkParse) (h : Header) (body : ReplayBody) :
    PT (Option NetworkFrames) := fun env s =>
  (Boxcars.networkStep np h body env s, match np with
    | .never => 0
    | _ => (networkParse env h body).2)

/-- `parserParse`. -/
def parserParse (check : CrcCheck) (np : NetworkParse) : PT Replay := do
  let headerSize ← PT.read (takeI32 "header size")
  let headerCrc ← PT.read (takeI32 "header crc")
  let n ← PT.free (P.usize headerSize)
  let headerData ← PT.read (P.wrap "header data" (viewData n))
  let header ← crcSection check headerData headerCrc "header" parseHeader
  let contentSize ← PT.read (takeI32 "content size")
  let contentCrc ← PT.read (takeI32 "content crc")
  let n ← PT.free (P.usize contentSize)
  let contentData ← PT.read (P.wrap "content data" (viewData n))
  let body ← crcSection check contentData contentCrc "body" parseBody
  let network ← networkStep np header body
  pure {
    headerSize, headerCrc
    majorVersion := header.majorVersion
    minorVersion := header.minorVersion
    netVersion := header.netVersion
    gameType := header.gameType
    properties := header.properties
    contentSize, contentCrc
    networkFrames := network
    levels := body.levels
    keyframes := body.keyframes
    debugInfo := body.debugInfo
    tickMarks := body.tickMarks
    packages := body.packages
    objects := body.objects
    names := body.names
    classIndices := body.classIndices
    netCache := body.netCache }

/-- `ParserBuilder.parse`: the outcome and the number of steps. -/
def parse (b : ParserBuilder) (env : Env) (data : List Byte) : Res ParseError Replay × Nat :=
  match parserParse (b.crcCheck.getD .onError) (b.networkParse.getD .ignoreOnError) env
      (CoreSt.init data) with
  | (.ok r _, t) => (.ok r, t)
  | (.err e _, t) => (.err e, t)
  | (.fault x, t) => (.fault x, t)

end Boxcars.Work
