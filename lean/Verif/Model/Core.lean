import Verif.Model.Types
/-!
# Model of `src/core_parser.rs`
-/
namespace Boxcars

/-- `CoreParser`, `src/core_parser.rs:5-10`: the unread data and the offset. -/
structure CoreSt where
  data : List Byte
  col : I32
  deriving DecidableEq, Repr

/-- Outcome of a parser step.  The parser is mutated through `&mut self`, and the
error paths read its offset afterwards, so an error keeps the state. -/
inductive PRes (α : Type) where
  | ok (a : α) (s : CoreSt)
  | err (e : ParseError) (s : CoreSt)
  | fault (f : Fault)

/-- A Rust function `fn(&mut CoreParser, ..) -> Result<α, ParseError>`. -/
def P (α : Type) := Env → CoreSt → PRes α

namespace P

@[inline] def pure {α : Type} (a : α) : P α := fun _ s => .ok a s

@[inline] def bind {α β : Type} (m : P α) (f : α → P β) : P β := fun env s =>
  match m env s with
  | .ok a s' => f a env s'
  | .err e s' => .err e s'
  | .fault x => .fault x

instance : Monad P where
  pure := P.pure
  bind := P.bind

/-- `return Err(e)`. -/
def fail {α : Type} (e : ParseError) : P α := fun _ s => .err e s

/-- `.map_err(|e| ParseError::ParseError(section, self.bytes_read(), Box::new(e)))`:
the offset is read after the failure.  `src/core_parser.rs:72` and all section
wrappers in `src/header.rs`, `src/parser.rs`. -/
def wrap {α : Type} (sec : String) (m : P α) : P α := fun env s =>
  match m env s with
  | .ok a s' => .ok a s'
  | .err e s' => .err (.parseError sec s'.col e) s'
  | .fault x => .fault x

/-- `x as usize` for `x : i32`. -/
def usize (x : I32) : P Nat := fun env s => .ok (env.usizeOfI32 x) s

end P

/-- `CoreParser::new`, `src/core_parser.rs:13-15`. -/
def CoreSt.init (data : List Byte) : CoreSt := ⟨data, 0#32⟩

/-- `self.col += size as i32`, `src/core_parser.rs:37,50,64`: overflow panics
with overflow checks and wraps without. -/
def addCol (env : Env) (col : I32) (size : Nat) : Option I32 :=
  let add := i32OfNat size
  if env.checks && col.saddOverflow add then none else some (col + add)

/-- `CoreParser::take_data`, `src/core_parser.rs:42-53`. -/
def takeData (size : Nat) : P (List Byte) := fun env s =>
  if size ≤ s.data.length then
    match addCol env s.col size with
    | some col => .ok (s.data.take size) ⟨s.data.drop size, col⟩
    | none => .fault .overflow
  else .err (.insufficientData (i32OfNat size) (i32OfNat s.data.length)) s

/-- `CoreParser::take::<N>` and `take_bytes::<N>`, `src/core_parser.rs:29-40` and
`56-67` (identical bodies). -/
def take (n : Nat) : P (List Byte) := takeData n

/-- `CoreParser::view_data`, `src/core_parser.rs:22-27`. -/
def viewData (size : Nat) : P (List Byte) := fun _ s =>
  if size ≤ s.data.length then .ok (s.data.take size) s
  else .err (.insufficientData (i32OfNat size) (i32OfNat s.data.length)) s

/-- `self.take::<4>().map(i32::from_le_bytes)` (also `u32`, `f32`). -/
def take32 : P (BitVec 32) := do
  let bs ← take 4
  pure (BitVec.ofNat 32 (leNat bs))

/-- `self.take_bytes::<8>().map(u64::from_le_bytes)`. -/
def take64 : P (BitVec 64) := do
  let bs ← take 8
  pure (BitVec.ofNat 64 (leNat bs))

/-- `CoreParser::take_i32` / `take_u32`, `src/core_parser.rs:69-79`. -/
def takeI32 (sec : String) : P (BitVec 32) := P.wrap sec take32

/-- The loop of `CoreParser::repeat`, `src/core_parser.rs:90-94`. -/
def replicateP {α : Type} : Nat → P α → P (List α)
  | 0, _ => pure []
  | n + 1, f => do
    let a ← f
    let rest ← replicateP n f
    pure (a :: rest)

/-- `CoreParser::repeat`, `src/core_parser.rs:82-95`. -/
def repeatP {α : Type} (size : Nat) (f : P α) : P (List α) :=
  if size > 25000 then P.fail (.listTooLarge size) else replicateP size f

/-- `CoreParser::list_of`, `src/core_parser.rs:97-103`. -/
def listOf {α : Type} (f : P α) : P (List α) := do
  let size ← take32
  let n ← P.usize size
  repeatP n f

/-- `CoreParser::parse_str`, `src/core_parser.rs:110-113`. -/
def parseStr : P Str := do
  let size ← take32
  let n ← P.usize size
  let bs ← takeData n
  match decodeStr bs with
  | .ok s => pure s
  | .error e => P.fail (.utf8Error e)

/-- `CoreParser::parse_text`, `src/core_parser.rs:116-134`.  `characters * -2` is
between 2 and 20000, so the multiplication cannot overflow. -/
def parseText : P Str := do
  let characters ← take32
  if characters.toInt < -10000 ∨ 10000 < characters.toInt then
    P.fail (.textTooLarge characters)
  else if characters.toInt < 0 then
    let bs ← takeData (characters.toInt * -2).toNat
    pure (decodeUtf16 bs)
  else
    let bs ← takeData characters.toInt.toNat
    pure (decodeWindows1252 bs)

/-- `CoreParser::text_list`, `src/core_parser.rs:105-107`. -/
def textList : P (List Str) := listOf parseText

end Boxcars
