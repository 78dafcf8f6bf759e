import Verif.Spec.Schema
import Verif.Spec.Text
import Verif.Model.Text
/-!
# A format that does not describe itself

How values of the schema (`Spec/Schema.lean`) are written by a serde format that writes neither
names nor kinds, and how they are read back by the kinds alone: numbers have fixed widths and are
little-endian, texts and lists begin with a 64-bit length, an optional value begins with a byte 0
or 1, a variant begins with its 32-bit position among the variants, and structs and tuples are their
parts in order.  This is the format of the crate `bincode` with fixed-width integers.  The kind by
which a value is read is the one that its `Deserialize` implementation asks for; a 64-bit number
written by `display_it` is asked for by `deserialize_str`, `src/serde_utils.rs:20-47`.
-/
namespace Boxcars.Spec
open Boxcars

mutual
/-- What is written for a value. -/
def binWrite : Shape → SVal → List Byte
  | .bool, .bool b => [if b then 1 else 0]
  | .unsigned w, .int i => le (w / 8) i.toNat
  | .signed w, .int i => le (w / 8) (i % 2 ^ w).toNat
  | .f32, .f32 x => le 4 x.toNat
  | .text, .str s => le 8 (utf8 s).length ++ utf8 s
  | .u64, .str s => le 8 (utf8 s).length ++ utf8 s
  | .i64, .str s => le 8 (utf8 s).length ++ utf8 s
  | .opt _, .null => [0]
  | .opt s, j => 1 :: binWrite s j
  | .list s, .seq js => le 8 js.length ++ js.flatMap (binWrite s)
  | .tuple ss, .seq js => binWriteAll ss js
  | .struct fs, .map kvs => binWriteFields fs kvs
  | .enum vs, .unitVariant name => binWriteVariant vs 0 name none
  | .enum vs, .variant name j => binWriteVariant vs 0 name (some j)
  | _, _ => []
/-- The elements of a tuple. -/
def binWriteAll : List Shape → List SVal → List Byte
  | s :: ss, j :: js => binWrite s j ++ binWriteAll ss js
  | _, _ => []
/-- The fields of a struct, without their names. -/
def binWriteFields : List (String × Shape) → List (String × SVal) → List Byte
  | (_, s) :: fs, (_, j) :: kvs => binWrite s j ++ binWriteFields fs kvs
  | _, _ => []
/-- The variant with a name, at its position. -/
def binWriteVariant : List (String × Option Shape) → Nat → String → Option SVal → List Byte
  | [], _, _, _ => []
  | (k, none) :: vs, i, name, c => if k = name then le 4 i else binWriteVariant vs (i + 1) name c
  | (k, some s) :: vs, i, name, c =>
    if k = name then
      le 4 i ++ match c with
        | some j => binWrite s j
        | none => []
    else binWriteVariant vs (i + 1) name c
end

/-- A little-endian number of some bytes. -/
def leRead : Nat → List Byte → Option (Nat × List Byte)
  | 0, bs => some (0, bs)
  | _ + 1, [] => none
  | k + 1, b :: bs => (leRead k bs).map fun p => (b.toNat + 256 * p.1, p.2)

/-- A text with its length. -/
def textRead (bs : List Byte) : Option (SVal × List Byte) :=
  match leRead 8 bs with
  | none => none
  | some (n, bs) =>
    if n ≤ bs.length then
      match utf8Decode 0 (bs.take n) with
      | .ok s => some (.str s, bs.drop n)
      | .error _ => none
    else none

/-- A number of values. -/
def timesRead (f : List Byte → Option (SVal × List Byte)) :
    Nat → List Byte → Option (List SVal × List Byte)
  | 0, bs => some ([], bs)
  | n + 1, bs =>
    match f bs with
    | none => none
    | some (j, bs) => (timesRead f n bs).map fun p => (j :: p.1, p.2)

mutual
/-- The value at the beginning of some bytes, and the bytes after it. -/
def binRead : Shape → List Byte → Option (SVal × List Byte)
  | .bool, bs =>
    match bs with
    | b :: bs => if b = 0 then some (.bool false, bs) else if b = 1 then some (.bool true, bs) else none
    | [] => none
  | .unsigned w, bs => (leRead (w / 8) bs).map fun p => (.int p.1, p.2)
  | .signed w, bs =>
    (leRead (w / 8) bs).map fun p => (.int (if p.1 < 2 ^ (w - 1) then p.1 else p.1 - 2 ^ w), p.2)
  | .f32, bs => (leRead 4 bs).map fun p => (.f32 (BitVec.ofNat 32 p.1), p.2)
  | .text, bs => textRead bs
  | .u64, bs => textRead bs
  | .i64, bs => textRead bs
  | .opt s, bs =>
    match bs with
    | b :: bs => if b = 0 then some (.null, bs) else if b = 1 then binRead s bs else none
    | [] => none
  | .list s, bs =>
    match leRead 8 bs with
    | none => none
    | some (n, bs) => (timesRead (binRead s) n bs).map fun p => (.seq p.1, p.2)
  | .tuple ss, bs => (binReadAll ss bs).map fun p => (.seq p.1, p.2)
  | .struct fs, bs => (binReadFields fs bs).map fun p => (.map p.1, p.2)
  | .enum vs, bs =>
    match leRead 4 bs with
    | none => none
    | some (n, bs) => binReadVariant vs n bs
  | .prop, _ => none
  | .props, _ => none
/-- The elements of a tuple. -/
def binReadAll : List Shape → List Byte → Option (List SVal × List Byte)
  | [], bs => some ([], bs)
  | s :: ss, bs =>
    match binRead s bs with
    | none => none
    | some (j, bs) => (binReadAll ss bs).map fun p => (j :: p.1, p.2)
/-- The fields of a struct. -/
def binReadFields : List (String × Shape) → List Byte → Option (List (String × SVal) × List Byte)
  | [], bs => some ([], bs)
  | (k, s) :: fs, bs =>
    match binRead s bs with
    | none => none
    | some (j, bs) => (binReadFields fs bs).map fun p => ((k, j) :: p.1, p.2)
/-- The variant at a position. -/
def binReadVariant : List (String × Option Shape) → Nat → List Byte → Option (SVal × List Byte)
  | [], _, _ => none
  | (name, none) :: _, 0, bs => some (.unitVariant name, bs)
  | (name, some s) :: _, 0, bs => (binRead s bs).map fun p => (.variant name p.1, p.2)
  | (_, none) :: vs, n + 1, bs => binReadVariant vs n bs
  | (_, some _) :: vs, n + 1, bs => binReadVariant vs n bs
end

end Boxcars.Spec
