import Verif.Spec.File
/-!
# An encoder for replay files

A function from values to bytes following the file format, with the conditions under
which a value is representable.  Uses no model function.
-/
namespace Boxcars.Spec

/-- A key, kind or class name. -/
def encStr (s : Str) : Bytes :=
  word (BitVec.ofNat 32 ((utf8 s).length + 1)) ++ (utf8 s ++ [0])

/-- A string short enough for its size field. -/
def StrOk (s : Str) : Prop := (utf8 s).length + 1 < 2 ^ 31

/-- A text: Windows-1252 if possible, otherwise UTF-16. -/
def encText (s : Str) : Bytes :=
  match s.mapM cp1252 with
  | some body => word (BitVec.ofNat 32 (body.length + 1)) ++ (body ++ [0])
  | none => word (-(BitVec.ofNat 32 ((utf16 s).length + 1)))
      ++ (utf16 s ++ [0]).flatMap (fun u : BitVec 16 => le 2 u.toNat)

/-- A text of at most 9999 units in its encoding. -/
def TextOk (s : Str) : Prop :=
  match s.mapM cp1252 with
  | some _ => s.length ≤ 9999
  | none => (utf16 s).length ≤ 9999

instance (s : Str) : Decidable (TextOk s) := by
  unfold TextOk; split <;> infer_instance

/-- A list: count and elements. -/
def encList {α : Type} (enc : α → Bytes) (xs : List α) : Bytes :=
  word (BitVec.ofNat 32 xs.length) ++ xs.flatMap enc

/-- A list within the length limit, of representable elements. -/
def ListOk {α : Type} (ok : α → Prop) (xs : List α) : Prop :=
  xs.length ≤ 25000 ∧ ∀ x ∈ xs, ok x

/-- The kind of a property. -/
def propKind : HeaderProp → Str
  | .array _ => "ArrayProperty".toList
  | .bool _ => "BoolProperty".toList
  | .byte _ _ => "ByteProperty".toList
  | .float _ => "FloatProperty".toList
  | .int _ => "IntProperty".toList
  | .name _ => "NameProperty".toList
  | .qword _ => "QWordProperty".toList
  | .str _ => "StrProperty".toList
  | .struct _ _ => "StructProperty".toList

mutual
/-- A property value. -/
def encVal (quirks : Bool) : HeaderProp → Bytes
  | .array xs => word (BitVec.ofNat 32 xs.length) ++ encElems quirks xs
  | .bool b => (if b then 1 else 0) :: (if quirks then [0, 0, 0] else [])
  | .byte k (some v) => encStr k ++ encStr v
  | .byte k none => encText k
  | .float x => word x
  | .int x => word x
  | .name s => encText s
  | .qword x => dword x
  | .str s => encText s
  | .struct n fs => encStr n ++ encProps quirks fs
/-- The elements of an array. -/
def encElems (quirks : Bool) : List (List (Str × HeaderProp)) → Bytes
  | [] => []
  | x :: xs => encProps quirks x ++ encElems quirks xs
/-- A property list. -/
def encProps (quirks : Bool) : List (Str × HeaderProp) → Bytes
  | [] => encStr "None".toList
  | p :: rest => encProp quirks p ++ encProps quirks rest
/-- A property: name, kind, size of the value and its array index, value. -/
def encProp (quirks : Bool) : Str × HeaderProp → Bytes
  | (key, v) => encStr key ++ (encStr (propKind v) ++
      ((word (BitVec.ofNat 32 (encVal quirks v).length) ++ word 0) ++ encVal quirks v))
end

mutual
/-- A representable property value. -/
def ValOk (quirks : Bool) : HeaderProp → Prop
  | .array xs => xs.length ≤ 25000 ∧ ElemsOk quirks xs
  | .byte k (some v) => quirks = false ∧ k ≠ "None".toList ∧ StrOk k ∧ StrOk v
  | .byte k none => quirks = true ∧ TextOk k
  | .name s => TextOk s
  | .str s => TextOk s
  | .struct n fs => StrOk n ∧ PropsOk quirks fs
  | _ => True
def ElemsOk (quirks : Bool) : List (List (Str × HeaderProp)) → Prop
  | [] => True
  | x :: xs => PropsOk quirks x ∧ ElemsOk quirks xs
def PropsOk (quirks : Bool) : List (Str × HeaderProp) → Prop
  | [] => True
  | p :: rest => PropOk quirks p ∧ PropsOk quirks rest
def PropOk (quirks : Bool) : Str × HeaderProp → Prop
  | (key, v) => key ≠ "None".toList ∧ StrOk key ∧ ValOk quirks v
end

/-- The layout of version 0.0 headers. -/
def isQuirks (h : Header) : Bool := decide (h.majorVersion = 0 ∧ h.minorVersion = 0)

/-- The header section. -/
def encHeader (h : Header) : Bytes :=
  word h.majorVersion ++ (word h.minorVersion ++ ((h.netVersion.map word).getD [] ++
    (encText h.gameType ++ encProps (isQuirks h) h.properties)))

def HeaderOk (h : Header) : Prop :=
  (h.netVersion.isSome ↔ 865 < h.majorVersion.toInt ∧ 17 < h.minorVersion.toInt) ∧
  TextOk h.gameType ∧ PropsOk (isQuirks h) h.properties

/-- The body section. -/
def encBody (b : ReplayBody) : Bytes :=
  encList encText b.levels ++
  (encList (fun k => word k.time ++ (word k.frame ++ word k.position)) b.keyframes ++
  (word (BitVec.ofNat 32 b.networkData.length) ++ (b.networkData ++
  (encList (fun i => word i.frame ++ (encText i.user ++ encText i.text)) b.debugInfo ++
  (encList (fun t => encText t.description ++ word t.frame) b.tickMarks ++
  (encList encText b.packages ++ (encList encText b.objects ++ (encList encText b.names ++
  (encList (fun c => encStr c.cls ++ word c.index) b.classIndices ++
  encList (fun c => word c.objectInd ++ (word c.parentId ++ (word c.cacheId ++
    encList (fun p => word p.objectInd ++ word p.streamId) c.properties))) b.netCache)))))))))

def BodyOk (b : ReplayBody) : Prop :=
  ListOk TextOk b.levels ∧ ListOk (fun _ => True) b.keyframes ∧ b.networkData.length < 2 ^ 31 ∧
  ListOk (fun i => TextOk i.user ∧ TextOk i.text) b.debugInfo ∧
  ListOk (fun t => TextOk t.description) b.tickMarks ∧ ListOk TextOk b.packages ∧
  ListOk TextOk b.objects ∧ ListOk TextOk b.names ∧ ListOk (fun c => StrOk c.cls) b.classIndices ∧
  ListOk (fun c => ListOk (fun _ => True) c.properties) b.netCache

/-- A section: size, checksum, content. -/
def encSection (content : Bytes) : Bytes :=
  word (BitVec.ofNat 32 content.length) ++ (word (Crc.crc content) ++ content)

/-- A replay file. -/
def encFile (h : Header) (b : ReplayBody) : Bytes :=
  encSection (encHeader h) ++ encSection (encBody b)

/-- What the file says besides its network frames. -/
def fileSections (h : Header) (b : ReplayBody) : Sections where
  headerSize := BitVec.ofNat 32 (encHeader h).length
  headerCrc := Crc.crc (encHeader h)
  header := h
  contentSize := BitVec.ofNat 32 (encBody b).length
  contentCrc := Crc.crc (encBody b)
  body := b

end Boxcars.Spec
