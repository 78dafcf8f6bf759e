import Verif.Model.Core
/-!
# Model of `src/header.rs` and of the accessors in `src/models.rs`
-/
namespace Boxcars

/-- `ParserMode`, `src/header.rs:76-79`. -/
inductive ParserMode where
  | standard
  | quirks
  deriving DecidableEq, Repr

/-- `bool_prop`, `src/header.rs:156-158`; `data[0]` panics on an empty slice. -/
def boolProp (data : List Byte) : P HeaderProp := fun _ s =>
  match data with
  | [] => .fault .index
  | b :: _ => .ok (.bool (b == 1#8)) s

/-- A string constant as a `Str`. -/
abbrev lit (s : String) : Str := s.toList

/-- The `match kind` of `parse_rdict`, `src/header.rs:99-148`, with
`array_property` (`src/header.rs:160-164`) inlined.  `recur` is the recursive
call `parse_rdict(rlp, mode)`.  `none` stands for the `continue` at line 110. -/
def propValue (recur : P (List (Str × HeaderProp))) (mode : ParserMode) (kind : Str) :
    P (Option HeaderProp) := do
  if kind = lit "BoolProperty" then
    match mode with
    | .standard => do
      let d ← takeData 1
      some <$> boolProp d
    | .quirks => do
      let d ← takeData 4
      some <$> boolProp d
  else if kind = lit "ByteProperty" then
    match mode with
    | .standard => do
      let k ← parseStr
      if k = lit "None" then
        let _ ← takeData 1
        pure none
      else
        let v ← parseStr
        pure (some (.byte k (some v)))
    | .quirks => do
      let k ← parseText
      pure (some (.byte k none))
  else if kind = lit "ArrayProperty" then
    let size ← takeI32 "array property size"
    let n ← P.usize size
    let arr ← repeatP n recur
    pure (some (.array arr))
  else if kind = lit "FloatProperty" then
    let v ← take32
    pure (some (.float v))
  else if kind = lit "IntProperty" then
    let v ← take32
    pure (some (.int v))
  else if kind = lit "QWordProperty" then
    let v ← take64
    pure (some (.qword v))
  else if kind = lit "NameProperty" then
    let v ← parseText
    pure (some (.name v))
  else if kind = lit "StrProperty" then
    let v ← parseText
    pure (some (.str v))
  else if kind = lit "StructProperty" then
    let name ← parseStr
    let fields ← recur
    pure (some (.struct name fields))
  else
    P.fail (.unexpectedProperty kind)

/-- `parse_rdict`, `src/header.rs:81-154`.  The `loop` and the recursive calls
share one fuel argument; running out is `Fault.fuel`
(`Props/NoPanic.lean` shows it never happens with the fuel `parseHeader`
supplies).  The Rust pushes onto a vector; the model conses in front of the
result of the remaining iterations, which is the same list. -/
def parseRdict : Nat → ParserMode → P (List (Str × HeaderProp))
  | 0, _ => fun _ _ => .fault .fuel
  | fuel + 1, mode => do
    let key ← parseStr
    if key = lit "None" then
      pure []
    else
      let kind ← parseStr
      let _size ← takeI32 "property size"
      let _ignored ← takeData 4
      let val ← propValue (parseRdict fuel mode) mode kind
      let rest ← parseRdict fuel mode
      match val with
      | none => pure rest
      | some v => pure ((key, v) :: rest)

/-- The fuel given to `parseRdict`: one more than the number of unread bytes. -/
def rdictFuel : P Nat := fun _ s => .ok (s.data.length + 1) s

/-- The mode selection, `src/header.rs:54-57`. -/
def headerMode (major minor : I32) (net : Option I32) : ParserMode :=
  match net with
  | none => if major = 0#32 ∧ minor = 0#32 then .quirks else .standard
  | some _ => .standard

/-- `parse_header`, `src/header.rs:45-73`. -/
def parseHeader : P Header := do
  let major ← takeI32 "major version"
  let minor ← takeI32 "minor version"
  let net ←
    if major.toInt > 865 ∧ minor.toInt > 17 then
      some <$> takeI32 "net version"
    else
      pure none
  let mode := headerMode major minor net
  let gameType ← P.wrap "game type" parseText
  let properties ← P.wrap "header properties" (do
    let fuel ← rdictFuel
    parseRdict fuel mode)
  pure ⟨major, minor, net, gameType, properties⟩

/-! ## `HeaderProp` accessors, `src/models.rs:100-221` -/

namespace HeaderProp

/-- `as_array`, `src/models.rs:111-117`. -/
def asArray : HeaderProp → Option (List (List (Str × HeaderProp)))
  | .array a => some a
  | _ => none

/-- `as_bool`, `src/models.rs:128-134`. -/
def asBool : HeaderProp → Option Bool
  | .bool b => some b
  | _ => none

/-- `as_float`, `src/models.rs:145-151`. -/
def asFloat : HeaderProp → Option F32
  | .float f => some f
  | _ => none

/-- `as_u64`, `src/models.rs:162-168`. -/
def asU64 : HeaderProp → Option U64
  | .qword q => some q
  | _ => none

/-- `as_i32`, `src/models.rs:179-185`. -/
def asI32 : HeaderProp → Option I32
  | .int i => some i
  | _ => none

/-- `as_string`, `src/models.rs:198-204`. -/
def asString : HeaderProp → Option Str
  | .name s => some s
  | .str s => some s
  | _ => none

/-- `is_byte`, `src/models.rs:218-220`. -/
def isByte : HeaderProp → Bool
  | .byte _ _ => true
  | _ => false

end HeaderProp

namespace Header

/-- `self.properties.iter().find(|&(key, _)| key == k).and_then(|(_, p)| f(p))`,
the common shape of `src/header.rs:16-42`. -/
def findProp {α : Type} (h : Header) (k : Str) (f : HeaderProp → Option α) : Option α :=
  (h.properties.find? (fun p => p.1 == k)).bind (fun p => f p.2)

/-- `num_frames`, `src/header.rs:16-21`. -/
def numFrames (h : Header) : Option I32 := h.findProp (lit "NumFrames") HeaderProp.asI32

/-- `max_channels`, `src/header.rs:23-28`. -/
def maxChannels (h : Header) : Option I32 := h.findProp (lit "MaxChannels") HeaderProp.asI32

/-- `match_type`, `src/header.rs:30-35`. -/
def matchType (h : Header) : Option Str := h.findProp (lit "MatchType") HeaderProp.asString

/-- `build_version`, `src/header.rs:37-42`. -/
def buildVersion (h : Header) : Option Str := h.findProp (lit "BuildVersion") HeaderProp.asString

end Header
end Boxcars
