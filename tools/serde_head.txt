import Verif.Model.Types
/-!
# Serialization: `derive(Serialize, Deserialize)` types and `src/serde_utils.rs`

The codecs from "Generated codecs" on are generated by `tools/gen_serde.py` from
the struct and enum definitions in `/repo`, following serde's documented
externally tagged representation: a struct is a map from field names, a newtype
struct is its content, a newtype or tuple variant is tagged with the variant name.

Simplifications: deserializers accept exactly one representation per type (serde
also accepts structs as sequences and fields in any order with unknown fields
ignored; the order does not matter here either, because fields are looked up by
name).
-/
namespace Boxcars

/-- Values of the serde data model that occur. -/
inductive SVal where
  | null
  | bool (b : Bool)
  | int (i : Int)
  | f32 (x : F32)
  | str (s : Str)
  | seq (xs : List SVal)
  | map (kvs : List (String × SVal))
  | unitVariant (name : String)
  | variant (name : String) (x : SVal)

/-- A pair of `Serialize` and `Deserialize` implementations. -/
structure Codec (α : Type) where
  ser : α → SVal
  de : SVal → Option α

/-! ## `Display` and `FromStr` of 64-bit integers (`src/serde_utils.rs:12-47`) -/

/-- `u64::fmt`: decimal digits without leading zeros. -/
def displayNat (n : Nat) : Str := (Nat.toDigits 10 n)

/-- `i64::fmt`. -/
def displayInt (i : Int) : Str :=
  if i < 0 then '-' :: displayNat i.natAbs else displayNat i.natAbs

/-- A run of decimal digits, as in `u64::from_str` after the optional sign; no
digits is an error. -/
def parseDigits (s : Str) : Option Nat :=
  if s.isEmpty then none
  else s.foldl (fun acc c => acc.bind (fun a =>
    if '0' ≤ c ∧ c ≤ '9' then some (a * 10 + (c.toNat - 48)) else none)) (some 0)

/-- `u64::from_str`: an optional `+`, digits, overflow is an error. -/
def parseU64 (s : Str) : Option (BitVec 64) :=
  let digits := match s with
    | '+' :: rest => rest
    | _ => s
  (parseDigits digits).bind (fun n => if n < 2 ^ 64 then some (BitVec.ofNat 64 n) else none)

/-- `i64::from_str`. -/
def parseI64 (s : Str) : Option (BitVec 64) :=
  match s with
  | '-' :: rest =>
    (parseDigits rest).bind (fun n => if n ≤ 2 ^ 63 then some (BitVec.ofInt 64 (-n)) else none)
  | '+' :: rest =>
    (parseDigits rest).bind (fun n => if n < 2 ^ 63 then some (BitVec.ofNat 64 n) else none)
  | _ => (parseDigits s).bind (fun n => if n < 2 ^ 63 then some (BitVec.ofNat 64 n) else none)

/-! ## Primitive codecs -/

/-- `bool`. -/
def cBool : Codec Bool where
  ser b := .bool b
  de
    | .bool b => some b
    | _ => none

/-- An unsigned integer of `w` bits; values out of range are rejected. -/
def cUnsigned (w : Nat) : Codec (BitVec w) where
  ser x := .int x.toNat
  de
    | .int i => if 0 ≤ i ∧ i < 2 ^ w then some (BitVec.ofInt w i) else none
    | _ => none

/-- A signed integer of `w` bits; values out of range are rejected. -/
def cSigned (w : Nat) : Codec (BitVec w) where
  ser x := .int x.toInt
  de
    | .int i =>
      if -(2 ^ (w - 1) : Int) ≤ i ∧ i < 2 ^ (w - 1) then some (BitVec.ofInt w i) else none
    | _ => none

/-- `u8`. -/
def cU8 : Codec Byte := cUnsigned 8
/-- `i8`. -/
def cI8 : Codec Byte := cSigned 8
/-- `u16`. -/
def cU16 : Codec (BitVec 16) := cUnsigned 16
/-- `u32`. -/
def cU32 : Codec U32 := cUnsigned 32
/-- `i32` and the newtypes `ActorId`, `ObjectId`, `StreamId`. -/
def cI32 : Codec I32 := cSigned 32

/-- `f32`. -/
def cF32 : Codec F32 where
  ser x := .f32 x
  de
    | .f32 x => some x
    | _ => none

/-- `String`. -/
def cStr : Codec Str where
  ser s := .str s
  de
    | .str s => some s
    | _ => none

/-- `u64` through `display_it` / `parse_it`, `src/serde_utils.rs:12-47`. -/
def cU64Str : Codec (BitVec 64) where
  ser x := .str (displayNat x.toNat)
  de
    | .str s => parseU64 s
    | _ => none

/-- `i64` through `display_it` / `parse_it`, `src/serde_utils.rs:12-47`. -/
def cI64Str : Codec (BitVec 64) where
  ser x := .str (displayInt x.toInt)
  de
    | .str s => parseI64 s
    | _ => none

/-- `Option<T>`: `null` is `None`. -/
def cOption {α : Type} (c : Codec α) : Codec (Option α) where
  ser
    | none => .null
    | some x => c.ser x
  de
    | .null => some none
    | j => (c.de j).map some

/-- Deserialize every element. -/
def deAll {α : Type} (de : SVal → Option α) : List SVal → Option (List α)
  | [] => some []
  | x :: xs => do
    let y ← de x
    let ys ← deAll de xs
    some (y :: ys)

/-- `Vec<T>`. -/
def cList {α : Type} (c : Codec α) : Codec (List α) where
  ser xs := .seq (xs.map c.ser)
  de
    | .seq xs => deAll c.de xs
    | _ => none

/-- `[T; 3]`. -/
def cArray3 {α : Type} (c : Codec α) : Codec (α × α × α) where
  ser x := .seq [c.ser x.1, c.ser x.2.1, c.ser x.2.2]
  de
    | .seq [a, b, d] => do
      let a ← c.de a
      let b ← c.de b
      let d ← c.de d
      some (a, b, d)
    | _ => none

/-- Look a field up by name and deserialize it. -/
def field {α : Type} (name : String) (c : Codec α) (j : SVal) : Option α :=
  match j with
  | .map kvs => (kvs.lookup name).bind c.de
  | _ => none

/-- Element `i` of a tuple variant with `n` elements. -/
def element {α : Type} (i n : Nat) (c : Codec α) (j : SVal) : Option α :=
  match j with
  | .seq xs => if xs.length = n then (xs[i]?).bind c.de else none
  | _ => none

/-! ## Generated codecs -/

