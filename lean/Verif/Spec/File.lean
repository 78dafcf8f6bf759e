import Verif.Model.Types
import Verif.Spec.Text
import Verif.Spec.Crc
/-!
# The replay file format, as a grammar

Each definition relates a value to the byte strings that represent it.  Only the
result types of the model are used, no parsing function.
-/
namespace Boxcars.Spec

abbrev Bytes := List (BitVec 8)

/-- A 32-bit field, little endian. -/
def word (x : BitVec 32) : Bytes := le 4 x.toNat
/-- A 64-bit field, little endian. -/
def dword (x : BitVec 64) : Bytes := le 8 x.toNat

/-- A key, kind or class name: byte count including a terminator, UTF-8 bytes, one
terminator byte of any value.  A zero count is an empty string. -/
def StrField (s : Str) (bs : Bytes) : Prop :=
  (s = [] ∧ bs = word 0) ∨
  ∃ last, (utf8 s).length + 1 < 2 ^ 31 ∧
    bs = word (BitVec.ofNat 32 ((utf8 s).length + 1)) ++ (utf8 s ++ [last])

/-- A text: a positive count `n` up to 10000 of Windows-1252 bytes, the last of
which is not part of the text; or the negative of a count of UTF-16LE units, the
last of which is not part of the text; or zero for an empty text. -/
def TextField (s : Str) (bs : Bytes) : Prop :=
  (s = [] ∧ bs = word 0) ∨
  (∃ body last, body.length + 1 ≤ 10000 ∧ IsCp1252 s body ∧
    bs = word (BitVec.ofNat 32 (body.length + 1)) ++ (body ++ [last])) ∨
  (∃ (units : List (BitVec 16)) (last : BitVec 16), units.length + 1 ≤ 10000 ∧
    Utf16Replaced units s ∧
    bs = word (-(BitVec.ofNat 32 (units.length + 1)))
      ++ (units ++ [last]).flatMap (fun u => le 2 u.toNat))

/-- Concatenation of the representations of the elements of a list. -/
inductive Concat {α : Type} (g : α → Bytes → Prop) : List α → Bytes → Prop where
  | nil : Concat g [] []
  | cons {x xs b bs} : g x b → Concat g xs bs → Concat g (x :: xs) (b ++ bs)

/-- A list: element count, at most 25000, then the elements. -/
def ListField {α : Type} (g : α → Bytes → Prop) (xs : List α) (bs : Bytes) : Prop :=
  ∃ body, xs.length ≤ 25000 ∧ Concat g xs body ∧
    bs = word (BitVec.ofNat 32 xs.length) ++ body

mutual
/-- A property list up to and including its `None` terminator.  `quirks` selects the
layout of version 0.0 files. -/
inductive PropList (quirks : Bool) : List (Str × HeaderProp) → Bytes → Prop where
  | done {bs} : StrField "None".toList bs → PropList quirks [] bs
  | prop {key kind v rest b1 b2 sz b3 b4} :
      key ≠ "None".toList → StrField key b1 → StrField kind b2 → sz.length = 8 →
      PropVal quirks kind v b3 → PropList quirks rest b4 →
      PropList quirks ((key, v) :: rest) (b1 ++ (b2 ++ (sz ++ (b3 ++ b4))))
  /-- a byte property whose kind is `None` is dropped together with one byte -/
  | skip {key rest b1 b2 sz b3 x b4} :
      key ≠ "None".toList → quirks = false → StrField key b1 →
      StrField "ByteProperty".toList b2 → sz.length = 8 →
      StrField "None".toList b3 → PropList quirks rest b4 →
      PropList quirks rest (b1 ++ (b2 ++ (sz ++ ((b3 ++ [x]) ++ b4))))
/-- The value of a property of the given kind. -/
inductive PropVal (quirks : Bool) : Str → HeaderProp → Bytes → Prop where
  | bool (b : BitVec 8) : quirks = false →
      PropVal quirks "BoolProperty".toList (.bool (b == 1)) [b]
  | boolQuirks (b b1 b2 b3 : BitVec 8) : quirks = true →
      PropVal quirks "BoolProperty".toList (.bool (b == 1)) [b, b1, b2, b3]
  | byte {k v b1 b2} : quirks = false → k ≠ "None".toList → StrField k b1 → StrField v b2 →
      PropVal quirks "ByteProperty".toList (.byte k (some v)) (b1 ++ b2)
  | byteQuirks {k b} : quirks = true → TextField k b →
      PropVal quirks "ByteProperty".toList (.byte k none) b
  | array {xs body} : xs.length ≤ 25000 → Concat (PropList quirks) xs body →
      PropVal quirks "ArrayProperty".toList (.array xs)
        (word (BitVec.ofNat 32 xs.length) ++ body)
  | float (x) : PropVal quirks "FloatProperty".toList (.float x) (word x)
  | int (x) : PropVal quirks "IntProperty".toList (.int x) (word x)
  | qword (x) : PropVal quirks "QWordProperty".toList (.qword x) (dword x)
  | name {s b} : TextField s b → PropVal quirks "NameProperty".toList (.name s) b
  | str {s b} : TextField s b → PropVal quirks "StrProperty".toList (.str s) b
  | struct {n fs b1 b2} : StrField n b1 → PropList quirks fs b2 →
      PropVal quirks "StructProperty".toList (.struct n fs) (b1 ++ b2)
end

/-- Net version field: present exactly when major > 865 and minor > 17. -/
def NetVersionField (major minor : BitVec 32) (net : Option (BitVec 32)) (bs : Bytes) : Prop :=
  if 865 < major.toInt ∧ 17 < minor.toInt then ∃ n, net = some n ∧ bs = word n
  else net = none ∧ bs = []

/-- The header section. -/
def HeaderSec (h : Header) (bs : Bytes) : Prop :=
  ∃ b1 b2 b3, NetVersionField h.majorVersion h.minorVersion h.netVersion b1 ∧
    TextField h.gameType b2 ∧
    PropList (decide (h.majorVersion = 0 ∧ h.minorVersion = 0)) h.properties b3 ∧
    bs = word h.majorVersion ++ (word h.minorVersion ++ (b1 ++ (b2 ++ b3)))

def TickMarkEnc (t : TickMark) (bs : Bytes) : Prop :=
  ∃ b, TextField t.description b ∧ bs = b ++ word t.frame

def KeyFrameEnc (k : KeyFrame) (bs : Bytes) : Prop :=
  bs = word k.time ++ (word k.frame ++ word k.position)

def DebugInfoEnc (i : DebugInfo) (bs : Bytes) : Prop :=
  ∃ b1 b2, TextField i.user b1 ∧ TextField i.text b2 ∧ bs = word i.frame ++ (b1 ++ b2)

def ClassIndexEnc (c : ClassIndex) (bs : Bytes) : Prop :=
  ∃ b, StrField c.cls b ∧ bs = b ++ word c.index

def CachePropEnc (c : CacheProp) (bs : Bytes) : Prop :=
  bs = word c.objectInd ++ word c.streamId

def ClassNetCacheEnc (c : ClassNetCache) (bs : Bytes) : Prop :=
  ∃ b, ListField CachePropEnc c.properties b ∧
    bs = word c.objectInd ++ (word c.parentId ++ (word c.cacheId ++ b))

/-- The body section. -/
def BodySec (b : ReplayBody) (bs : Bytes) : Prop :=
  ∃ b1 b2 b3 b4 b5 b6 b7 b8 b9,
    ListField TextField b.levels b1 ∧ ListField KeyFrameEnc b.keyframes b2 ∧
    b.networkData.length < 2 ^ 31 ∧
    ListField DebugInfoEnc b.debugInfo b3 ∧ ListField TickMarkEnc b.tickMarks b4 ∧
    ListField TextField b.packages b5 ∧ ListField TextField b.objects b6 ∧
    ListField TextField b.names b7 ∧ ListField ClassIndexEnc b.classIndices b8 ∧
    ListField ClassNetCacheEnc b.netCache b9 ∧
    bs = b1 ++ (b2 ++ (word (BitVec.ofNat 32 b.networkData.length) ++ (b.networkData ++
      (b3 ++ (b4 ++ (b5 ++ (b6 ++ (b7 ++ (b8 ++ b9)))))))))

/-- Everything in a replay file outside the network blob. -/
structure Sections where
  headerSize : BitVec 32
  headerCrc : BitVec 32
  header : Header
  contentSize : BitVec 32
  contentCrc : BitVec 32
  body : ReplayBody

/-- A signed size that fits in `n` bytes. -/
def Fits (size : BitVec 32) (n : Nat) : Prop := 0 ≤ size.toInt ∧ size.toNat ≤ n

instance (size : BitVec 32) (n : Nat) : Decidable (Fits size n) :=
  inferInstanceAs (Decidable (_ ∧ _))

/-- The declared bytes of the section at the start of `d` are present and their
checksum is `actual`, not the stored `crc`. -/
def SecMismatch (crc actual : BitVec 32) (d : Bytes) : Prop :=
  ∃ size d1, d = word size ++ (word crc ++ d1) ∧ Fits size d1.length ∧
    Crc.crc (d1.take size.toNat) = actual ∧ actual ≠ crc

/-- A section with content `x`, starting at `d` and leaving `d'`; its declared size
fits in what follows. -/
def SectionAt {α : Type} (g : α → Bytes → Prop) (x : α) (d d' : Bytes) : Prop :=
  ∃ size crc bs, g x bs ∧ d = word size ++ (word crc ++ (bs ++ d')) ∧ Fits size (bs ++ d').length

/-- A replay file `bs` followed by `rest`: two sections, each preceded by a size and
a checksum.  The sizes only have to fit in what follows; they do not delimit the
sections (see C22).  With `checked`, the checksum of that many bytes has to be the
stored one. -/
def FileSecs (checked : Bool) (x : Sections) (bs rest : Bytes) : Prop :=
  ∃ bh bb, HeaderSec x.header bh ∧ BodySec x.body bb ∧
    bs = word x.headerSize ++ (word x.headerCrc ++ (bh ++
      (word x.contentSize ++ (word x.contentCrc ++ (bb ++ rest))))) ∧
    Fits x.headerSize (bh ++ (word x.contentSize ++ (word x.contentCrc ++ (bb ++ rest)))).length ∧
    Fits x.contentSize (bb ++ rest).length ∧
    (checked = true →
      Crc.crc ((bh ++ (word x.contentSize ++ (word x.contentCrc ++ (bb ++ rest)))).take
        x.headerSize.toNat) = x.headerCrc ∧
      Crc.crc ((bb ++ rest).take x.contentSize.toNat) = x.contentCrc)

/-- The replay value with the given network frames. -/
def Sections.replay (x : Sections) (net : Option NetworkFrames) : Replay where
  headerSize := x.headerSize
  headerCrc := x.headerCrc
  majorVersion := x.header.majorVersion
  minorVersion := x.header.minorVersion
  netVersion := x.header.netVersion
  gameType := x.header.gameType
  properties := x.header.properties
  contentSize := x.contentSize
  contentCrc := x.contentCrc
  networkFrames := net
  levels := x.body.levels
  keyframes := x.body.keyframes
  debugInfo := x.body.debugInfo
  tickMarks := x.body.tickMarks
  packages := x.body.packages
  objects := x.body.objects
  names := x.body.names
  classIndices := x.body.classIndices
  netCache := x.body.netCache

end Boxcars.Spec
