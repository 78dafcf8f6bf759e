import Verif.Spec.File
import Verif.Spec.Failure
import Verif.Spec.Unknown
/-!
# Which error a file is answered with

For every part of the file format the inputs on which it fails, with the error and the
bytes that are left when the failure is noticed.  `T` is the size of the file, so that
`T - rest` is the offset of the failure, and `W` the number of bits of a `usize`.  Only the
result and error types of the model are used.
-/
namespace Boxcars.Spec

/-- Error, input, and what is left of the input at the failure. -/
abbrev Fail := ParseError → Bytes → Bytes → Prop

/-- The failure of a named part: the error is wrapped with the name and the offset. -/
inductive Named (T : Nat) (name : String) (F : Fail) : Fail where
  | mk {e d d'} : F e d d' →
      Named T name F (.parseError name (BitVec.ofNat 32 (T - d'.length)) e) d d'

/-- Two parts in a row: the first one fails, or it is as `g` says and the second one fails. -/
inductive Then {α : Type} (g : α → Bytes → Prop) (F G : Fail) : Fail where
  | first {e d d'} : F e d d' → Then g F G e d d'
  | second {a b e d d'} : g a b → G e d d' → Then g F G e (b ++ d) d'

/-- There are fewer than `n` bytes. -/
inductive Short (n : Nat) : Fail where
  | mk {d : Bytes} : d.length < n →
      Short n (.insufficientData (BitVec.ofNat 32 n) (BitVec.ofNat 32 d.length)) d d

/-- The declared number of bytes is negative or more than there are. -/
inductive Lack (n : BitVec 32) : Fail where
  | mk {d : Bytes} : ¬Fits n d.length →
      Lack n (.insufficientData n (BitVec.ofNat 32 d.length)) d d

/-- Any 32-bit number. -/
abbrev IsWord (x : BitVec 32) (bs : Bytes) : Prop := bs = word x

/-- A key, kind or class name fails. -/
inductive StrFail : Fail where
  | count {e d d'} : Short 4 e d d' → StrFail e d d'
  | data {n e d d'} : Lack n e d d' → StrFail e (word n ++ d) d'
  | utf8 {n : BitVec 32} {body d : Bytes} {x : Utf8Error} : 0 ≤ n.toInt → body.length = n.toNat →
      Utf8Fault body.dropLast x.validUpTo x.errorLen →
      StrFail (.utf8Error x) (word n ++ (body ++ d)) d

/-- A text fails. -/
inductive TextFieldFail : Fail where
  | count {e d d'} : Short 4 e d d' → TextFieldFail e d d'
  | range {n : BitVec 32} {d} : n.toInt < -10000 ∨ 10000 < n.toInt →
      TextFieldFail (.textTooLarge n) (word n ++ d) d
  | narrow {n : BitVec 32} {e d d'} : 0 ≤ n.toInt → n.toInt ≤ 10000 → Short n.toInt.toNat e d d' →
      TextFieldFail e (word n ++ d) d'
  | wide {n : BitVec 32} {e d d'} : -10000 ≤ n.toInt → n.toInt < 0 →
      Short (-2 * n.toInt).toNat e d d' → TextFieldFail e (word n ++ d) d'

/-- `x as usize`. -/
def asUsize (W : Nat) (x : BitVec 32) : Nat := (x.toInt % 2 ^ W).toNat

/-- What follows the element count of a list fails: the count `n` is negative or above 25000,
or one of the elements fails. -/
inductive ItemsAfterFail {α : Type} (W : Nat) (g : α → Bytes → Prop) (F : Fail) (n : BitVec 32) :
    Fail where
  | tooLarge {d} : n.toInt < 0 ∨ 25000 < n.toInt →
      ItemsAfterFail W g F n (.listTooLarge (asUsize W n)) d d
  | item {xs body e d d'} : n.toInt ≤ 25000 → (xs.length : Int) < n.toInt → Concat g xs body →
      F e d d' → ItemsAfterFail W g F n e (body ++ d) d'

/-- A list fails. -/
inductive ListFail {α : Type} (W : Nat) (g : α → Bytes → Prop) (F : Fail) : Fail where
  | count {e d d'} : Short 4 e d d' → ListFail W g F e d d'
  | items {n e d d'} : ItemsAfterFail W g F n e d d' → ListFail W g F e (word n ++ d) d'

mutual
/-- A property list fails. -/
inductive PropListFail (T W : Nat) (quirks : Bool) : ParseError → Bytes → Bytes → Prop where
  | key {e d d'} : StrFail e d d' → PropListFail T W quirks e d d'
  | kind {key b1 e d d'} : key ≠ "None".toList → StrField key b1 → StrFail e d d' →
      PropListFail T W quirks e (b1 ++ d) d'
  | size {key kind b1 b2 e d d'} : key ≠ "None".toList → StrField key b1 → StrField kind b2 →
      Named T "property size" (Short 4) e d d' →
      PropListFail T W quirks e (b1 ++ (b2 ++ d)) d'
  | ignored {key kind b1 b2 sz e d d'} : key ≠ "None".toList → StrField key b1 →
      StrField kind b2 → sz.length = 4 → Short 4 e d d' →
      PropListFail T W quirks e (b1 ++ (b2 ++ (sz ++ d))) d'
  | value {key kind b1 b2 sz e d d'} : key ≠ "None".toList → StrField key b1 →
      StrField kind b2 → sz.length = 8 → PropValFail T W quirks kind e d d' →
      PropListFail T W quirks e (b1 ++ (b2 ++ (sz ++ d))) d'
  | later {key kind v b1 b2 sz b3 e d d'} : key ≠ "None".toList → StrField key b1 →
      StrField kind b2 → sz.length = 8 → PropVal quirks kind v b3 →
      PropListFail T W quirks e d d' →
      PropListFail T W quirks e (b1 ++ (b2 ++ (sz ++ (b3 ++ d)))) d'
  | afterSkip {key b1 b2 sz b3 x e d d'} : key ≠ "None".toList → quirks = false →
      StrField key b1 → StrField "ByteProperty".toList b2 → sz.length = 8 →
      StrField "None".toList b3 → PropListFail T W quirks e d d' →
      PropListFail T W quirks e (b1 ++ (b2 ++ (sz ++ ((b3 ++ [x]) ++ d)))) d'
/-- The value of a property of the given kind fails. -/
inductive PropValFail (T W : Nat) (quirks : Bool) :
    Str → ParseError → Bytes → Bytes → Prop where
  | bool {e d d'} : quirks = false → Short 1 e d d' →
      PropValFail T W quirks "BoolProperty".toList e d d'
  | boolQuirks {e d d'} : quirks = true → Short 4 e d d' →
      PropValFail T W quirks "BoolProperty".toList e d d'
  | byteKind {e d d'} : quirks = false → StrFail e d d' →
      PropValFail T W quirks "ByteProperty".toList e d d'
  | byteSkip {b e d d'} : quirks = false → StrField "None".toList b → Short 1 e d d' →
      PropValFail T W quirks "ByteProperty".toList e (b ++ d) d'
  | byteValue {k b e d d'} : quirks = false → k ≠ "None".toList → StrField k b →
      StrFail e d d' → PropValFail T W quirks "ByteProperty".toList e (b ++ d) d'
  | byteQuirks {e d d'} : quirks = true → TextFieldFail e d d' →
      PropValFail T W quirks "ByteProperty".toList e d d'
  | arraySize {e d d'} : Named T "array property size" (Short 4) e d d' →
      PropValFail T W quirks "ArrayProperty".toList e d d'
  | arrayTooLarge {n d} : n.toInt < 0 ∨ 25000 < n.toInt →
      PropValFail T W quirks "ArrayProperty".toList (.listTooLarge (asUsize W n)) (word n ++ d) d
  | arrayItem {n : BitVec 32} {xs body e d d'} : n.toInt ≤ 25000 → (xs.length : Int) < n.toInt →
      Concat (PropList quirks) xs body → PropListFail T W quirks e d d' →
      PropValFail T W quirks "ArrayProperty".toList e (word n ++ (body ++ d)) d'
  | float {e d d'} : Short 4 e d d' → PropValFail T W quirks "FloatProperty".toList e d d'
  | int {e d d'} : Short 4 e d d' → PropValFail T W quirks "IntProperty".toList e d d'
  | qword {e d d'} : Short 8 e d d' → PropValFail T W quirks "QWordProperty".toList e d d'
  | name {e d d'} : TextFieldFail e d d' → PropValFail T W quirks "NameProperty".toList e d d'
  | str {e d d'} : TextFieldFail e d d' → PropValFail T W quirks "StrProperty".toList e d d'
  | structName {e d d'} : StrFail e d d' → PropValFail T W quirks "StructProperty".toList e d d'
  | structFields {n b e d d'} : StrField n b → PropListFail T W quirks e d d' →
      PropValFail T W quirks "StructProperty".toList e (b ++ d) d'
  | unknown {kind d} : kind ∉ knownKinds →
      PropValFail T W quirks kind (.unexpectedProperty kind) d d
end

/-- The header fails. -/
inductive HeaderFail (T W : Nat) : Fail where
  | major {e d d'} : Named T "major version" (Short 4) e d d' → HeaderFail T W e d d'
  | minor {major e d d'} : Named T "minor version" (Short 4) e d d' →
      HeaderFail T W e (word major ++ d) d'
  | net {major minor : BitVec 32} {e d d'} : 865 < major.toInt → 17 < minor.toInt →
      Named T "net version" (Short 4) e d d' →
      HeaderFail T W e (word major ++ (word minor ++ d)) d'
  | gameType {major minor net b e d d'} : NetVersionField major minor net b →
      Named T "game type" TextFieldFail e d d' →
      HeaderFail T W e (word major ++ (word minor ++ (b ++ d))) d'
  | properties {major minor net b game b' e d d'} : NetVersionField major minor net b →
      TextField game b' →
      Named T "header properties" (PropListFail T W (decide (major = 0 ∧ minor = 0))) e d d' →
      HeaderFail T W e (word major ++ (word minor ++ (b ++ (b' ++ d)))) d'

/-- A tick mark fails. -/
def TickMarkFail : Fail := Then TextField TextFieldFail (Short 4)

/-- A key frame fails. -/
def KeyFrameFail : Fail := Then IsWord (Short 4) (Then IsWord (Short 4) (Short 4))

/-- A debug info fails. -/
def DebugInfoFail : Fail := Then IsWord (Short 4) (Then TextField TextFieldFail TextFieldFail)

/-- A class index fails. -/
def ClassIndexFail : Fail := Then StrField StrFail (Short 4)

/-- A property of a class in the net cache fails. -/
def CachePropFail : Fail := Then IsWord (Short 4) (Short 4)

/-- A class of the net cache fails. -/
def ClassNetCacheFail (W : Nat) : Fail :=
  Then IsWord (Short 4) (Then IsWord (Short 4) (Then IsWord (Short 4)
    (ListFail W CachePropEnc CachePropFail)))

/-- The network data, preceded by its size. -/
def BlobField (data : Bytes) (bs : Bytes) : Prop :=
  data.length < 2 ^ 31 ∧ bs = word (BitVec.ofNat 32 data.length) ++ data

/-- The network data fails. -/
inductive BlobFail (T : Nat) : Fail where
  | size {e d d'} : Named T "network size" (Short 4) e d d' → BlobFail T e d d'
  | data {n e d d'} : Named T "network data" (Lack n) e d d' → BlobFail T e (word n ++ d) d'

/-- The body fails. -/
def BodyFail (T W : Nat) : Fail :=
  Then (ListField TextField) (Named T "levels" (ListFail W TextField TextFieldFail)) <|
  Then (ListField KeyFrameEnc) (Named T "keyframes" (ListFail W KeyFrameEnc KeyFrameFail)) <|
  Then BlobField (BlobFail T) <|
  Then (ListField DebugInfoEnc) (Named T "debug info" (ListFail W DebugInfoEnc DebugInfoFail)) <|
  Then (ListField TickMarkEnc) (Named T "tickmarks" (ListFail W TickMarkEnc TickMarkFail)) <|
  Then (ListField TextField) (Named T "packages" (ListFail W TextField TextFieldFail)) <|
  Then (ListField TextField) (Named T "objects" (ListFail W TextField TextFieldFail)) <|
  Then (ListField TextField) (Named T "names" (ListFail W TextField TextFieldFail)) <|
  Then (ListField ClassIndexEnc) (Named T "class index" (ListFail W ClassIndexEnc ClassIndexFail)) <|
  Named T "net cache" (ListFail W ClassNetCacheEnc (ClassNetCacheFail W))

/-- What is done about checksums. -/
inductive Checking where
  | always
  | never
  | onError
  deriving DecidableEq

/-- A section whose content is as `g` says or else fails as `F` says.  `title` is used in the
names of its parts, `name` is that of the section. -/
inductive SectionFail {α : Type} (T : Nat) (check : Checking) (title name : String)
    (g : α → Bytes → Prop) (F : Fail) : Fail where
  | size {e d d'} : Named T (title ++ " size") (Short 4) e d d' →
      SectionFail T check title name g F e d d'
  | crc {size e d d'} : Named T (title ++ " crc") (Short 4) e d d' →
      SectionFail T check title name g F e (word size ++ d) d'
  | data {size crc e d d'} : Named T (title ++ " data") (Lack size) e d d' →
      SectionFail T check title name g F e (word size ++ (word crc ++ d)) d'
  /-- the content fails and its checksum is right or not looked at -/
  | content {size crc : BitVec 32} {e d d'} : Fits size d.length →
      (check = .never ∨ Crc.crc (d.take size.toNat) = crc) → F e d d' →
      SectionFail T check title name g F e (word size ++ (word crc ++ d)) d'
  /-- the content fails and is found to be corrupt -/
  | corrupt {size crc : BitVec 32} {e d d'} : Fits size d.length → check = .onError →
      Crc.crc (d.take size.toNat) ≠ crc → F e d d' →
      SectionFail T check title name g F (.corruptReplay name e) (word size ++ (word crc ++ d)) d'
  /-- the checksum is wrong, whether the content fails or not -/
  | mismatchFail {size crc : BitVec 32} {e d d'} : Fits size d.length → check = .always →
      Crc.crc (d.take size.toNat) ≠ crc → F e d d' →
      SectionFail T check title name g F (.crcMismatch crc (Crc.crc (d.take size.toNat)))
        (word size ++ (word crc ++ d)) d'
  | mismatch {size crc : BitVec 32} {a b d} : Fits size (b ++ d).length → check = .always →
      Crc.crc ((b ++ d).take size.toNat) ≠ crc → g a b →
      SectionFail T check title name g F (.crcMismatch crc (Crc.crc ((b ++ d).take size.toNat)))
        (word size ++ (word crc ++ (b ++ d))) d

/-- How a file of `T` bytes fails.  `must`: the network data has to be understood.  `N` says
how the network data of given header and body fails. -/
inductive FileFail (T W : Nat) (check : Checking) (must : Bool)
    (N : Header → ReplayBody → NetworkError → Prop) : ParseError → Bytes → Prop where
  | header {e d d'} : SectionFail T check "header" "header" HeaderSec (HeaderFail T W) e d d' →
      FileFail T W check must N e d
  | body {size crc : BitVec 32} {h b e d d'} : HeaderSec h b → Fits size (b ++ d).length →
      (check = .always → Crc.crc ((b ++ d).take size.toNat) = crc) →
      SectionFail T check "content" "body" BodySec (BodyFail T W) e d d' →
      FileFail T W check must N e (word size ++ (word crc ++ (b ++ d)))
  | network {x e d d'} : must = true → FileSecs (decide (check = .always)) x d d' →
      N x.header x.body e → FileFail T W check must N (.networkError e) d

end Boxcars.Spec
