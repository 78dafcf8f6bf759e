import Verif.Model.Parser
/-!
# Slots reserved ahead of the data

`CoreParser::repeat` reserves memory for a whole list before it reads the first element
(`src/core_parser.rs:90`), and `decode_frames` reserves memory for all frames before it reads
the first one (`src/network/frame_decoder.rs:353`).  This is a second copy of the parsers of the
model that also tells the largest number of slots ever reserved by the lists that are being
read: a list counts from the moment its memory is reserved until its last element is read.

Not counted: lists that grow as elements arrive, the tables made for the objects of a body
already read, and the at most 510 slots reserved by an online loadout attribute.  The copies
are shown to compute the same results as the model (`Props/Reserve.lean: reserve_faithful`).
-/
namespace Boxcars.Reserve

/-- A byte parser with the largest number of slots reserved while it runs. -/
def RT (α : Type) := Env → CoreSt → PRes α × Nat

namespace RT

variable {α β : Type}

def pure (a : α) : RT α := fun _ s => (.ok a s, 0)

/-- One after the other: the lists of the first are complete when the second starts. -/
def bind (m : RT α) (f : α → RT β) : RT β := fun env s =>
  match m env s with
  | (.ok a s', t) => ((f a env s').1, max t (f a env s').2)
  | (.err e s', t) => (.err e s', t)
  | (.fault x, t) => (.fault x, t)

instance : Monad RT where
  pure := RT.pure
  bind := RT.bind

/-- A parser that reserves nothing. -/
def plain (m : P α) : RT α := fun env s => (m env s, 0)

/-- `P.wrap`. -/
def wrap (sec : String) (m : RT α) : RT α := fun env s =>
  match m env s with
  | (.ok a s', t) => (.ok a s', t)
  | (.err e s', t) => (.err (.parseError sec s'.col e) s', t)
  | (.fault x, t) => (.fault x, t)

/-- Reserve `n` slots and run `m`. -/
def hold (n : Nat) (m : RT α) : RT α := fun env s => ((m env s).1, n + (m env s).2)

end RT

/-- `replicateP`. -/
def replicateP {α : Type} : Nat → RT α → RT (List α)
  | 0, _ => pure []
  | n + 1, f => do
    let a ← f
    let rest ← replicateP n f
    pure (a :: rest)

/-- `repeatP`: the slots of the list are reserved while its elements are read. -/
def repeatP {α : Type} (size : Nat) (f : RT α) : RT (List α) :=
  if size > 25000 then RT.plain (P.fail (.listTooLarge size))
  else RT.hold size (replicateP size f)

/-- `listOf`. -/
def listOf {α : Type} (f : RT α) : RT (List α) := do
  let size ← RT.plain take32
  let n ← RT.plain (P.usize size)
  repeatP n f

/-- `textList`. -/
def textList : RT (List Str) := listOf (RT.plain parseText)

/-- `propValue`. -/
def propValue (recur : RT (List (Str × HeaderProp))) (mode : ParserMode) (kind : Str) :
    RT (Option HeaderProp) :=
  if kind = lit "ArrayProperty" then do
    let size ← RT.plain (takeI32 "array property size")
    let n ← RT.plain (P.usize size)
    let arr ← repeatP n recur
    pure (some (.array arr))
  else if kind = lit "StructProperty" then do
    let name ← RT.plain parseStr
    let fields ← recur
    pure (some (.struct name fields))
  else
    -- the other kinds make no recursive call
    RT.plain (Boxcars.propValue (P.fail (.unexpectedProperty [])) mode kind)

/-- `parseRdict`. -/
def parseRdict : Nat → ParserMode → RT (List (Str × HeaderProp))
  | 0, _ => RT.plain fun _ _ => .fault .fuel
  | fuel + 1, mode => do
    let key ← RT.plain parseStr
    if key = lit "None" then
      pure []
    else
      let kind ← RT.plain parseStr
      let _size ← RT.plain (takeI32 "property size")
      let _ignored ← RT.plain (takeData 4)
      let val ← propValue (parseRdict fuel mode) mode kind
      let rest ← parseRdict fuel mode
      match val with
      | none => pure rest
      | some v => pure ((key, v) :: rest)

/-- The net version field of `parseHeader`. -/
def netVersion (major minor : I32) : P (Option I32) :=
  if major.toInt > 865 ∧ minor.toInt > 17 then some <$> takeI32 "net version" else pure none

/-- `parseHeader`. -/
def parseHeader : RT Header := do
  let major ← RT.plain (takeI32 "major version")
  let minor ← RT.plain (takeI32 "minor version")
  let net ← RT.plain (netVersion major minor)
  let gameType ← RT.plain (P.wrap "game type" parseText)
  let properties ← RT.wrap "header properties" (do
    let fuel ← RT.plain rdictFuel
    parseRdict fuel (headerMode major minor net))
  pure ⟨major, minor, net, gameType, properties⟩

/-- `parseTickmarks`. -/
def parseTickmarks : RT (List TickMark) := listOf do
  let description ← RT.plain parseText
  let frame ← RT.plain take32
  pure ⟨description, frame⟩

/-- `parseKeyframe`. -/
def parseKeyframe : RT (List KeyFrame) := listOf do
  let time ← RT.plain take32
  let frame ← RT.plain take32
  let position ← RT.plain take32
  pure ⟨time, frame, position⟩

/-- `parseDebuginfo`. -/
def parseDebuginfo : RT (List DebugInfo) := listOf do
  let frame ← RT.plain take32
  let user ← RT.plain parseText
  let text ← RT.plain parseText
  pure ⟨frame, user, text⟩

/-- `parseClassindex`. -/
def parseClassindex : RT (List ClassIndex) := listOf do
  let cls ← RT.plain parseStr
  let index ← RT.plain take32
  pure ⟨cls, index⟩

/-- `parseClasscache`. -/
def parseClasscache : RT (List ClassNetCache) := listOf do
  let objectInd ← RT.plain take32
  let parentId ← RT.plain take32
  let cacheId ← RT.plain take32
  let properties ← listOf do
    let objectInd ← RT.plain take32
    let streamId ← RT.plain take32
    pure (⟨objectInd, streamId⟩ : CacheProp)
  pure ⟨objectInd, parentId, cacheId, properties⟩

/-- `parseBody`. -/
def parseBody : RT ReplayBody := do
  let levels ← RT.wrap "levels" textList
  let keyframes ← RT.wrap "keyframes" parseKeyframe
  let networkSize ← RT.plain (takeI32 "network size")
  let n ← RT.plain (P.usize networkSize)
  let networkData ← RT.plain (P.wrap "network data" (takeData n))
  let debugInfo ← RT.wrap "debug info" parseDebuginfo
  let tickMarks ← RT.wrap "tickmarks" parseTickmarks
  let packages ← RT.wrap "packages" textList
  let objects ← RT.wrap "objects" textList
  let names ← RT.wrap "names" textList
  let classIndices ← RT.wrap "class index" parseClassindex
  let netCache ← RT.wrap "net cache" parseClasscache
  pure {
    levels, keyframes, debugInfo, tickMarks, packages, objects, names,
    classIndices, netCache, networkData }

/-- `crcSection`. -/
def crcSection {α : Type} (check : CrcCheck) (data : List Byte) (crc : U32) (sec : String)
    (f : RT α) : RT α := fun env s =>
  (Boxcars.crcSection check data crc sec (fun env s => (f env s).1) env s, (f env s).2)

/-- The slots reserved for frames by `Network.parse`: none if it fails earlier, or if there is
no number of frames in the header, or if there are too many. -/
def frameSlots (env : Env) (h : Header) (body : ReplayBody) : Nat :=
  match (Network.spawnTable env body.objects : Res NetworkError _) with
  | .ok _ =>
    match Network.cacheTable env body.objects body.netCache with
    | .ok _ =>
      match h.numFrames with
      | none => 0
      | some n =>
        if env.usizeOfI32 n > body.networkData.length then 0 else env.usizeOfI32 n
    | _ => 0
  | _ => 0

/-- `networkStep`. -/
def networkStep (np : NetworkParse) (h : Header) (body : ReplayBody) :
    RT (Option NetworkFrames) := fun env s =>
  (Boxcars.networkStep np h body env s,
    match np with
    | .never => 0
    | _ => frameSlots env h body)

/-- `parserParse`. -/
def parserParse (check : CrcCheck) (np : NetworkParse) : RT Replay := do
  let headerSize ← RT.plain (takeI32 "header size")
  let headerCrc ← RT.plain (takeI32 "header crc")
  let n ← RT.plain (P.usize headerSize)
  let headerData ← RT.plain (P.wrap "header data" (viewData n))
  let header ← crcSection check headerData headerCrc "header" parseHeader
  let contentSize ← RT.plain (takeI32 "content size")
  let contentCrc ← RT.plain (takeI32 "content crc")
  let n ← RT.plain (P.usize contentSize)
  let contentData ← RT.plain (P.wrap "content data" (viewData n))
  let body ← crcSection check contentData contentCrc "body" parseBody
  let network ← networkStep np header body
  pure {
    headerSize, headerCrc
    majorVersion := header.majorVersion
    minorVersion := header.minorVersion
    netVersion := header.netVersion
    gameType := header.gameType
    properties := header.properties
    contentSize, contentCrc
    networkFrames := network
    levels := body.levels
    keyframes := body.keyframes
    debugInfo := body.debugInfo
    tickMarks := body.tickMarks
    packages := body.packages
    objects := body.objects
    names := body.names
    classIndices := body.classIndices
    netCache := body.netCache }

/-- `ParserBuilder.parse`. -/
def parse (b : ParserBuilder) (env : Env) (data : List Byte) : Res ParseError Replay × Nat :=
  match parserParse (b.crcCheck.getD .onError) (b.networkParse.getD .ignoreOnError) env
      (CoreSt.init data) with
  | (.ok r _, t) => (.ok r, t)
  | (.err e _, t) => (.err e, t)
  | (.fault x, t) => (.fault x, t)

end Boxcars.Reserve
