import Verif.Model.Serde
/-!
# The format of serialized replays

The shapes of what serde writes for each type, and when a value has a shape.  The
schemas are transcribed from the struct and enum definitions by `tools/gen_schema.py`,
following serde's documented representation.  No serializer of the model is used.
-/
namespace Boxcars.Spec
open Boxcars

/-- The shapes that occur. -/
inductive Shape where
  | bool
  | unsigned (bits : Nat)
  | signed (bits : Nat)
  | f32
  | text
  /-- A 64-bit number as a decimal text. -/
  | u64
  | i64
  | opt (s : Shape)
  | list (s : Shape)
  | tuple (ss : List Shape)
  /-- Fields with their names, in this order. -/
  | struct (fields : List (String × Shape))
  /-- Variants with their names, some without content. -/
  | enum (variants : List (String × Option Shape))
  /-- A header value. -/
  | prop
  /-- Header values under arbitrary names. -/
  | props

/-- What a header value may look like, `src/models.rs:294-336`. -/
def propShapes : List Shape :=
  [.list .props, .bool, .struct [("kind", .text), ("value", .opt .text)], .f32, .signed 32, .u64, .text,
    .struct [("name", .text), ("fields", .props)]]

mutual
/-- A value has a shape. -/
inductive Has : Shape → SVal → Prop where
  | bool {b : Bool} : Has .bool (.bool b)
  | unsigned {w n : Nat} : n < 2 ^ w → Has (.unsigned w) (.int n)
  | signed {w : Nat} {i : Int} : -2 ^ (w - 1) ≤ i → i < 2 ^ (w - 1) → Has (.signed w) (.int i)
  | f32 {x : F32} : Has .f32 (.f32 x)
  | text {s : Str} : Has .text (.str s)
  | u64 {n : Nat} : n < 2 ^ 64 → Has .u64 (.str (Nat.toDigits 10 n))
  | i64 {n : Nat} : n < 2 ^ 63 → Has .i64 (.str (Nat.toDigits 10 n))
  | negative {n : Nat} : 0 < n → n ≤ 2 ^ 63 → Has .i64 (.str ('-' :: Nat.toDigits 10 n))
  | absent {s : Shape} : Has (.opt s) .null
  | present {s : Shape} {j : SVal} : Has s j → Has (.opt s) j
  | list {s : Shape} {js : List SVal} : (∀ j ∈ js, Has s j) → Has (.list s) (.seq js)
  | tuple {ss : List Shape} {js : List SVal} : HasAll ss js → Has (.tuple ss) (.seq js)
  | struct {fs : List (String × Shape)} {kvs : List (String × SVal)} :
    HasFields fs kvs → Has (.struct fs) (.map kvs)
  | unitVariant {vs : List (String × Option Shape)} {name : String} :
    (name, none) ∈ vs → Has (.enum vs) (.unitVariant name)
  | variant {vs : List (String × Option Shape)} {name : String} {s : Shape} {j : SVal} :
    (name, some s) ∈ vs → Has s j → Has (.enum vs) (.variant name j)
  | prop {s : Shape} {j : SVal} : s ∈ propShapes → Has s j → Has .prop j
  | props {kvs : List (String × SVal)} : (∀ kv ∈ kvs, Has .prop kv.2) → Has .props (.map kvs)
/-- The elements of a tuple have their shapes. -/
inductive HasAll : List Shape → List SVal → Prop where
  | nil : HasAll [] []
  | cons {s : Shape} {ss : List Shape} {j : SVal} {js : List SVal} :
    Has s j → HasAll ss js → HasAll (s :: ss) (j :: js)
/-- The fields of a struct are those named, in order, with their shapes. -/
inductive HasFields : List (String × Shape) → List (String × SVal) → Prop where
  | nil : HasFields [] []
  | cons {k : String} {s : Shape} {fs : List (String × Shape)} {j : SVal} {kvs : List (String × SVal)} :
    Has s j → HasFields fs kvs → HasFields ((k, s) :: fs) ((k, j) :: kvs)
end

