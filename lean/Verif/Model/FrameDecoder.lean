import Verif.Model.Attributes
/-!
# Model of `src/network/frame_decoder.rs`

Line numbers refer to that file.
-/
namespace Boxcars

/-! ## Segmented array -/

namespace SegArray

variable {ν : Type}

/-- `RawSegmentedArray::new`, lines 20-27. -/
def new (size : Nat) : SegArray ν := ⟨List.replicate size none, []⟩

/-- `self.array.get(key)` is `Some`: the key is a position of the array part.  A
negative `i32` converts to a `usize` of at least `2^31`, beyond every array the
crate makes (64 and 200 entries). -/
def inArray (a : SegArray ν) (key : I32) : Bool :=
  decide (0 ≤ key.toInt) && decide (key.toNat < a.array.length)

/-- `RawSegmentedArray::insert`, lines 29-38. -/
def insert (a : SegArray ν) (key : I32) (v : ν) : SegArray ν :=
  if a.inArray key then { a with array := a.array.set key.toNat (some v) }
  else { a with map := a.map.insert key v }

/-- `RawSegmentedArray::get`, lines 40-45. -/
def get (a : SegArray ν) (key : I32) : Option ν :=
  if a.inArray key then (a.array[key.toNat]?).getD none
  else a.map.get key

/-- `RawSegmentedArray::delete`, lines 47-54: the array part is left alone. -/
def delete (a : SegArray ν) (key : I32) : SegArray ν :=
  if a.inArray key then a else { a with map := a.map.remove key }

/-- The array part as key-value pairs: `enumerate().filter_map(..)`, lines
382-387. -/
def entriesFrom : Nat → List (Option ν) → List (I32 × ν)
  | _, [] => []
  | i, none :: xs => entriesFrom (i + 1) xs
  | i, some v :: xs => (i32OfNat i, v) :: entriesFrom (i + 1) xs

end SegArray

/-! ## Frames -/

/-- `FrameDecoder`, lines 117-128.  Of `body` only `objects` and `network_data` are
used. -/
structure FrameDecoder where
  framesLen : Nat
  product : ProductDecoder
  maxChannels : U32
  channelBits : Nat
  objects : List Str
  networkData : List Byte
  spawns : List SpawnTrajectory
  objectIndAttributes : List (Option CacheInfo)
  version : VersionTriplet
  isLan : Bool
  isRl223 : Bool

/-- The mutable state that `decode_frame` shares with its caller: the actor table
and the lists of the current frame. -/
structure FrameSt where
  actors : SegArray (ObjectId × CacheInfo)
  newActors : List NewActor
  deleted : List ActorId
  updated : List UpdatedAttribute

/-- `slice.get(usize::from(id))` for an `i32` newtype: a negative id converts to a
`usize` of at least `2^31`; `Vec`s indexed this way have at most 25000 elements
(`Proofs/Replay.lean: fileSecs_sizes`),
so such an index is out of range. -/
def getIndex {α : Type} (xs : List α) (id : I32) : BM ε (Option α) := fun env r =>
  .ok (xs[env.usizeOfI32 id]?) r

namespace FrameDecoder

/-- `ok_or(FrameError::NotEnoughDataFor(what))?`, keeping the caller's state for
the error context. -/
def req {α : Type} (what : String) (st : FrameSt) (m : BM Unit α) :
    BM (FrameError × FrameSt) α :=
  BM.okOr (.notEnoughDataFor what, st) m

/-- `do_parse_name`, lines 144-145. -/
def doParseName (d : FrameDecoder) : Bool :=
  d.version.ge 868 20 0 || (d.version.ge 868 14 0 && !d.isLan)

/-- `parse_new_actor`, lines 137-173. -/
def parseNewActor (d : FrameDecoder) (actorId : ActorId) : BM FrameError NewActor := do
  let nameId ←
    if d.doParseName then do
      let x ← BM.okOr (.notEnoughDataFor "New Actor") readU32
      pure (some x)
    else pure none
  let _ ← BM.okOr (.notEnoughDataFor "New Actor") readBit
  let objectId ← BM.okOr (.notEnoughDataFor "New Actor") readU32
  let spawn ← getIndex d.spawns objectId
  match spawn with
  | none => BM.fail (.objectIdOutOfRange objectId)
  | some spawn =>
    let traj ← BM.okOr (.notEnoughDataFor "New Actor")
      (Trajectory.fromSpawn spawn d.version.netVersion)
    pure ⟨actorId, nameId, objectId, traj⟩

/-- The error conversion at lines 280-294. -/
def attrErr (actor : ActorId) (obj : ObjectId) (stream : StreamId) :
    AttributeError → FrameError
  | .unimplemented => .missingAttribute actor obj stream
  | e => .attributeError actor obj stream e

/-- The attribute loop `while bits.read_bit()? { .. }`, lines 249-302.  Every
iteration reads at least one bit, which bounds the fuel. -/
def updateLoop (ad : AttrDecoder) (actorId : ActorId) (objectId : ObjectId)
    (cache : CacheInfo) : Nat → FrameSt → BM (FrameError × FrameSt) FrameSt
  | 0, _ => BM.faulty .fuel
  | fuel + 1, st => do
    let more ← req "Is prop present" st readBit
    if more then
      refill
      let look ← lookaheadBits
      if look < cache.propIdBits + 1 then BM.fail (.notEnoughDataFor "Prop id", st)
      else
        let raw ← peekBitsMaxComputed cache.propIdBits cache.maxPropId.toNat
        let streamId : StreamId := BitVec.ofNat 32 raw
        match cache.attributes.get streamId with
        | none => BM.fail (.missingAttribute actorId objectId streamId, st)
        | some attr =>
          let value ← BM.mapErr (fun e => (attrErr actorId objectId streamId e, st))
            (ad.decode attr.attr)
          updateLoop ad actorId objectId cache fuel
            { st with updated := st.updated ++ [⟨actorId, streamId, attr.objectId, value⟩] }
    else pure st

/-- The actor loop `while bits.read_bit()? { .. }`, lines 206-308. -/
def actorLoop (d : FrameDecoder) (ad : AttrDecoder) :
    Nat → FrameSt → BM (FrameError × FrameSt) FrameSt
  | 0, _ => BM.faulty .fuel
  | fuel + 1, st => do
    let more ← req "Actor data" st readBit
    if more then
      refill
      let look ← lookaheadBits
      if look < d.channelBits + 1 + 1 then BM.fail (.notEnoughDataFor "Actor Id", st)
      else
        let raw ← peekBitsMaxComputed d.channelBits d.maxChannels.toNat
        let actorId : ActorId := BitVec.ofNat 32 raw
        let alive ← peekAndConsume 1
        if alive == 1 then
          let isNew ← req "Is new actor" st readBit
          if isNew then
            let actor ← BM.mapErr (fun e => (e, st)) (d.parseNewActor actorId)
            let cache ← getIndex d.objectIndAttributes actor.objectId
            match cache with
            | some (some cache) =>
              actorLoop d ad fuel
                { st with
                  actors := st.actors.insert actor.actorId (actor.objectId, cache)
                  newActors := st.newActors ++ [actor] }
            | _ => BM.fail (.missingCache actorId actor.objectId, st)
          else
            match st.actors.get actorId with
            | none => BM.fail (.missingActor actorId, st)
            | some (objectId, cache) =>
              let st ← updateLoop ad actorId objectId cache (fuel + 1) st
              actorLoop d ad fuel st
        else
          actorLoop d ad fuel
            { st with
              deleted := st.deleted ++ [actorId]
              actors := st.actors.delete actorId }
    else pure st

/-- `time < 0.0 || (time > 0.0 && time < 1e-10)`, lines 190 and 198. -/
def outOfRange (t : F32) : Bool :=
  F32.lt t F32.zero || (F32.lt F32.zero t && F32.lt t F32.tiny)

/-- `decode_frame`, lines 176-344; `none` is `DecodedFrame::EndFrame`.  The lists
of the shared state are moved into the frame and left empty. -/
def decodeFrame (d : FrameDecoder) (ad : AttrDecoder) (fuel : Nat)
    (actors : SegArray (ObjectId × CacheInfo)) :
    BM (FrameError × FrameSt) (Option (Frame × SegArray (ObjectId × CacheInfo))) := do
  let st : FrameSt := ⟨actors, [], [], []⟩
  let time ← req "Time" st readU32
  if outOfRange time then BM.fail (.timeOutOfRange time, st)
  else
    let delta ← req "Delta" st readU32
    if outOfRange delta then BM.fail (.deltaOutOfRange delta, st)
    else if F32.eq time F32.zero && F32.eq delta F32.zero then pure none
    else
      let st ← actorLoop d ad fuel st
      pure (some (⟨time, delta, st.newActors, st.deleted, st.updated⟩, st.actors))

/-- The `FrameContext` built at lines 372-400. -/
def context (d : FrameDecoder) (frames : List Frame) (st : FrameSt) : FrameContext where
  objects := d.objects
  objectAttributes := d.objectIndAttributes
  frames := frames
  actors := HMap.extend [] (((SegArray.entriesFrom 0 st.actors.array) ++ st.actors.map).map
    (fun p => (p.1, p.2.1)))
  newActors := st.newActors
  updatedActors := st.updated

/-- `!bits.is_empty()`. -/
def isEmptyBM {ε : Type} : BM ε Bool := fun _ r => .ok r.isEmpty r

/-- The loop of `decode_frames`, lines 361-406.  At most `framesLen` iterations
push a frame, so fuel `framesLen + 1` suffices. -/
def framesLoop (d : FrameDecoder) (ad : AttrDecoder) (bitFuel : Nat) :
    Nat → List Frame → SegArray (ObjectId × CacheInfo) → BM NetworkError (List Frame)
  | 0, _, _ => BM.faulty .fuel
  | fuel + 1, frames, actors => do
    let empty ← isEmptyBM
    if !empty && decide (frames.length < d.framesLen) then
      let res ← BM.mapErr (fun (e, st) => NetworkError.frameError e (d.context frames st))
        (d.decodeFrame ad bitFuel actors)
      match res with
      | none => pure frames
      | some (frame, actors) => framesLoop d ad bitFuel fuel (frames ++ [frame]) actors
    else pure frames

/-- The `AttributeDecoder` built at lines 347-351. -/
def attrDecoder (d : FrameDecoder) : AttrDecoder := ⟨d.version, d.product, d.isRl223⟩

/-- `Vec::with_capacity(self.frames_len)`, line 353: panics if the size in bytes
exceeds `isize::MAX`. -/
def reserveFrames (n : Nat) : BM NetworkError Unit := fun env r =>
  if n * env.frameSize > env.isizeMax then .fault .capacity else .ok () r

/-- `decode_frames`, lines 346-414.  The trailer read at lines 408-411 ignores its
result and is the last use of the reader. -/
def decodeFrames (d : FrameDecoder) : BM NetworkError (List Frame) := do
  reserveFrames d.framesLen
  let frames ← framesLoop d d.attrDecoder (8 * d.networkData.length + 1) (d.framesLen + 1) []
    (SegArray.new 200)
  if d.version.ge 868 24 10 then
    let _ ← BM.attempt readU32
    pure frames
  else pure frames

end FrameDecoder
end Boxcars
