import Verif.Model.Display
/-!
# Derived `Debug` text: `{:?}` of locations, rotations, tags and attributes

What `#[derive(Debug)]` prints is documented by the standard library: a struct is
`Name { field: value, .. }`, a tuple struct or variant `Name(value, ..)`, a variant without
fields its name, a list `[value, ..]`, a text is in quotes and escaped.  The functions from
"Generated" on are generated by `tools/gen_debug.py` from the definitions in `/repo`.

Not modelled: the text of floats, and which characters Unicode considers printable (`Std`).
-/
namespace Boxcars.Debug

/-- Brackets. -/
inductive Kind where
  /-- `Name(a, b)` -/
  | call
  /-- `Name { x: a, y: b }` -/
  | record
  /-- `[a, b]` -/
  | list
  deriving DecidableEq

mutual
/-- What is printed, before it is text. -/
inductive DVal where
  /-- a number, a truth value, or the name of a variant -/
  | atom (s : Str)
  | float (x : F32)
  | text (s : Str)
  | node (k : Kind) (name : String) (items : DItems)
/-- Fields with their names (empty unless in a record). -/
inductive DItems where
  | nil
  | cons (label : String) (v : DVal) (rest : DItems)
end

/-- Text made by the standard library. -/
structure Std where
  /-- `{:?}` of an `f32` -/
  debug : F32 → Str
  /-- `{}` of an `f32` -/
  display : F32 → Str
  /-- printable and not extending a grapheme -/
  plain : Char → Bool

/-- `char::escape_debug_ext` as `str` uses it: quotes and backslashes, the four control
characters with a letter of their own, and what is not plain. -/
def escape (plain : Char → Bool) (c : Char) : Str :=
  if c = '\x00' then ['\\', '0']
  else if c = '\t' then ['\\', 't']
  else if c = '\r' then ['\\', 'r']
  else if c = '\n' then ['\\', 'n']
  else if c = '\\' then ['\\', '\\']
  else if c = '"' then ['\\', '"']
  else if plain c then [c]
  else ['\\', 'u', '{'] ++ Nat.toDigits 16 c.toNat ++ ['}']

/-- What precedes and follows the fields. -/
def Kind.opening : Kind → Str
  | .call => ['(']
  | .record => [' ', '{', ' ']
  | .list => ['[']
def Kind.closing : Kind → Str
  | .call => [')']
  | .record => [' ', '}']
  | .list => [']']

/-- The name of a field. -/
def Kind.label (k : Kind) (l : String) : Str :=
  if k = .record then l.toList ++ [':', ' '] else []

mutual
/-- `{:?}`. -/
def DVal.show (s : Std) : DVal → Str
  | .atom a => a
  | .float x => s.debug x
  | .text t => '"' :: (t.flatMap (escape s.plain) ++ ['"'])
  | .node k name items => name.toList ++ (k.opening ++ (items.show s k true ++ k.closing))
/-- The fields; `first` if none precedes. -/
def DItems.show (s : Std) (k : Kind) : Bool → DItems → Str
  | _, .nil => []
  | first, .cons l v rest =>
    (if first then [] else [',', ' ']) ++ (k.label l ++ (v.show s ++ rest.show s k false))
end

/-! ## Building blocks -/

def items : List (String × DVal) → DItems
  | [] => .nil
  | (l, v) :: rest => .cons l v (items rest)

/-- Fields without names. -/
def unnamed : List DVal → DItems
  | [] => .nil
  | v :: rest => .cons "" v (unnamed rest)

def record (name : String) (fields : List (String × DVal)) : DVal := .node .record name (items fields)
def call (name : String) (args : List DVal) : DVal := .node .call name (unnamed args)

/-- The name of a variant. -/
def dUnit (name : String) : DVal := .atom name.toList
def dBool (b : Bool) : DVal := .atom (if b then "true".toList else "false".toList)
/-- `u8`, `u16`, `u32`, `u64` -/
def dUnsigned {w : Nat} (x : BitVec w) : DVal := .atom (displayNat x.toNat)
/-- `i8`, `i32`, `i64` -/
def dSigned {w : Nat} (x : BitVec w) : DVal := .atom (displayInt x.toInt)
def dF32 (x : F32) : DVal := .float x
def dStr (s : Str) : DVal := .text s
/-- `ActorId(pub i32)`, `src/network/models.rs:307`. -/
def dActorId (x : ActorId) : DVal := call "ActorId" [dSigned x]
/-- `ObjectId(pub i32)`, `src/network/models.rs:260`. -/
def dObjectId (x : ObjectId) : DVal := call "ObjectId" [dSigned x]
def dOption {α : Type} (d : α → DVal) : Option α → DVal
  | none => dUnit "None"
  | some x => call "Some" [d x]
def dList {α : Type} (d : α → DVal) (xs : List α) : DVal := .node .list "" (unnamed (xs.map d))
/-- `[T; 3]` -/
def dArray3 {α : Type} (d : α → DVal) (x : α × α × α) : DVal :=
  .node .list "" (unnamed [d x.1, d x.2.1, d x.2.2])

/-! ## Generated -/

