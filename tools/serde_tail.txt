/-! ## Serialize-only types, `src/models.rs` -/

mutual
/-- `pair_vec`, `src/models.rs:275-287` on the property list. -/
def serProps : List (Str × HeaderProp) → List (Str × SVal)
  | [] => []
  | (k, v) :: rest => (k, serProp v) :: serProps rest

/-- `Serialize for HeaderProp`, `src/models.rs:293-336`. -/
def serProp : HeaderProp → SVal
  | .array elems => .seq (serElems elems)
  | .struct name fields =>
    .map [("name", .str name), ("fields", .map (stringKeys (serProps fields)))]
  | .bool b => .bool b
  | .byte kind value => .map [("kind", .str kind), ("value", (cOption cStr).ser value)]
  | .float f => .f32 f
  | .int i => .int i.toInt
  | .qword q => .str (displayNat q.toNat)
  | .name s => .str s
  | .str s => .str s

/-- The elements of an array property. -/
def serElems : List (List (Str × HeaderProp)) → List SVal
  | [] => []
  | e :: rest => .map (stringKeys (serProps e)) :: serElems rest

/-- Keys of a map are strings. -/
def stringKeys : List (Str × SVal) → List (String × SVal)
  | [] => []
  | (k, v) :: rest => (String.ofList k, v) :: stringKeys rest
end

/-- `TickMark`, `src/models.rs:55-59`. -/
def serTickMark (t : TickMark) : SVal :=
  .map [("description", .str t.description), ("frame", .int t.frame.toInt)]
/-- `KeyFrame`, `src/models.rs:66-71`. -/
def serKeyFrame (k : KeyFrame) : SVal :=
  .map [("time", .f32 k.time), ("frame", .int k.frame.toInt), ("position", .int k.position.toInt)]
/-- `DebugInfo`, `src/models.rs:224-229`. -/
def serDebugInfo (d : DebugInfo) : SVal :=
  .map [("frame", .int d.frame.toInt), ("user", .str d.user), ("text", .str d.text)]
/-- `ClassIndex`, `src/models.rs:232-239`. -/
def serClassIndex (c : ClassIndex) : SVal :=
  .map [("class", .str c.cls), ("index", .int c.index.toInt)]
/-- `CacheProp`, `src/models.rs:243-251`. -/
def serCacheProp (c : CacheProp) : SVal :=
  .map [("object_ind", .int c.objectInd.toInt), ("stream_id", .int c.streamId.toInt)]
/-- `ClassNetCache`, `src/models.rs:254-267`. -/
def serClassNetCache (c : ClassNetCache) : SVal :=
  .map [("object_ind", .int c.objectInd.toInt), ("parent_id", .int c.parentId.toInt),
    ("cache_id", .int c.cacheId.toInt), ("properties", .seq (c.properties.map serCacheProp))]
/-- `NetworkFrames`, `src/models.rs:46-49`. -/
def serNetworkFrames (n : NetworkFrames) : SVal :=
  .map [("frames", (cList cFrame).ser n.frames)]

/-- `Replay`, `src/models.rs:18-43`. -/
def serReplay (r : Replay) : SVal :=
  .map [("header_size", .int r.headerSize.toInt),
    ("header_crc", .int r.headerCrc.toNat),
    ("major_version", .int r.majorVersion.toInt),
    ("minor_version", .int r.minorVersion.toInt),
    ("net_version", (cOption cI32).ser r.netVersion),
    ("game_type", .str r.gameType),
    ("properties", .map (stringKeys (serProps r.properties))),
    ("content_size", .int r.contentSize.toInt),
    ("content_crc", .int r.contentCrc.toNat),
    ("network_frames", match r.networkFrames with
      | none => .null
      | some n => serNetworkFrames n),
    ("levels", (cList cStr).ser r.levels),
    ("keyframes", .seq (r.keyframes.map serKeyFrame)),
    ("debug_info", .seq (r.debugInfo.map serDebugInfo)),
    ("tick_marks", .seq (r.tickMarks.map serTickMark)),
    ("packages", (cList cStr).ser r.packages),
    ("objects", (cList cStr).ser r.objects),
    ("names", (cList cStr).ser r.names),
    ("class_indices", .seq (r.classIndices.map serClassIndex)),
    ("net_cache", .seq (r.netCache.map serClassNetCache))]

end Boxcars
