import Verif.Model.Types
/-!
# The bit reader: contract of `bitter::LittleEndianReader` and model of `src/bits.rs`
-/
namespace Boxcars

/-- State of a `LittleEndianReader`: the unread bits (least significant bit of
each byte first) and how many of them are buffered in the lookahead. -/
structure Reader where
  bits : List Bool
  look : Nat
  deriving DecidableEq, Repr

/-- The bits of a byte, least significant first. -/
def byteBits (b : Byte) : List Bool :=
  [b.getLsbD 0, b.getLsbD 1, b.getLsbD 2, b.getLsbD 3,
   b.getLsbD 4, b.getLsbD 5, b.getLsbD 6, b.getLsbD 7]

/-- `LittleEndianReader::new`. -/
def Reader.new (data : List Byte) : Reader := ⟨data.flatMap byteBits, 0⟩

/-- Value of a bit string, least significant bit first. -/
def bitsToNat : List Bool → Nat
  | [] => 0
  | b :: bs => b.toNat + 2 * bitsToNat bs

/-- Outcome of a function taking `&mut LittleEndianReader`.  The reader is kept on
failure too: `decode_rigid_body` goes on reading after a failed vector
(`src/network/attributes.rs:1270-1271`). -/
inductive BRes (ε α : Type) where
  | ok (a : α) (r : Reader)
  | err (e : ε) (r : Reader)
  | fault (f : Fault)

/-- A Rust function taking `&mut LittleEndianReader` and returning
`Result<α, ε>`; `ε = Unit` for functions returning `Option<α>`. -/
def BM (ε α : Type) := Env → Reader → BRes ε α

namespace BM

variable {ε ε' α β : Type}

@[inline] def pure (a : α) : BM ε α := fun _ r => .ok a r

@[inline] def bind (m : BM ε α) (f : α → BM ε β) : BM ε β := fun env r =>
  match m env r with
  | .ok a r' => f a env r'
  | .err e r' => .err e r'
  | .fault x => .fault x

instance : Monad (BM ε) where
  pure := BM.pure
  bind := BM.bind

/-- `return Err(e)` / `return None`. -/
def fail (e : ε) : BM ε α := fun _ r => .err e r

/-- `map_err`. -/
def mapErr (f : ε → ε') (m : BM ε α) : BM ε' α := fun env r =>
  match m env r with
  | .ok a r' => .ok a r'
  | .err e r' => .err (f e) r'
  | .fault x => .fault x

/-- `Option::ok_or(e)` / the macro `get_or!` (`src/macros.rs`). -/
def okOr (e : ε) (m : BM Unit α) : BM ε α := mapErr (fun _ => e) m

/-- `Result::ok` followed by `?` in a function returning `Option`. -/
def toOption (m : BM ε α) : BM Unit α := mapErr (fun _ => ()) m

/-- Binding the `Option` result of a call without `?`: a failure becomes `none`
and reading goes on from wherever the failed call left the reader. -/
def attempt (m : BM Unit α) : BM ε (Option α) := fun env r =>
  match m env r with
  | .ok a r' => .ok (some a) r'
  | .err _ r' => .ok none r'
  | .fault x => .fault x

/-- An abnormal event. -/
def faulty (f : Fault) : BM ε α := fun _ _ => .fault f

/-- `debug_assert!(c)`. -/
def debugAssert (c : Bool) : BM ε Unit := fun env r =>
  if env.checks && !c then .fault .debugAssert else .ok () r

end BM

section Contract
variable {ε : Type}

/-- `BitReader::refill_lookahead`. -/
def refill : BM ε Unit := fun env r =>
  .ok () { r with look := env.refill r.bits.length r.look }

/-- `BitReader::lookahead_bits`. -/
def lookaheadBits : BM ε Nat := fun _ r => .ok r.look r

/-- `BitReader::unbuffered_bytes_remaining`. -/
def unbufferedBytes : BM ε Nat := fun _ r => .ok ((r.bits.length - r.look) / 8) r

/-- `BitReader::has_bits_remaining(n)`. -/
def hasBitsRemaining (n : Nat) : BM ε Bool := fun _ r => .ok (decide (n ≤ r.bits.length)) r

/-- `BitReader::peek(n)` followed by `BitReader::consume(n)`, i.e.
`RlBits::peek_and_consume`, `src/bits.rs:19-23`.  Both require `n` bits in the
lookahead. -/
def peekAndConsume (n : Nat) : BM ε Nat := fun _ r =>
  if n ≤ r.look then .ok (bitsToNat (r.bits.take n)) ⟨r.bits.drop n, r.look - n⟩
  else .fault .lookahead

/-- `BitReader::read_bits(n)`.  A failed read consumes nothing; it may change how
much is buffered, which is left out because no caller reads after a failed
`read_*` (the exception, `decode_rigid_body`, recovers only from
`Vector3f::decode`, which peeks). -/
def readBits (n : Nat) : BM Unit Nat := fun env r =>
  if n ≤ r.bits.length then
    .ok (bitsToNat (r.bits.take n))
      ⟨r.bits.drop n, env.afterRead r.bits.length r.look n⟩
  else .err () r

/-- `BitReader::read_bit`. -/
def readBit : BM Unit Bool := do
  let x ← readBits 1
  pure (x == 1)

/-- `read_u8`, `read_i8`. -/
def readU8 : BM Unit Byte := do
  let x ← readBits 8
  pure (BitVec.ofNat 8 x)

/-- `read_u32`, `read_i32`, `read_f32` (`f32::from_bits`). -/
def readU32 : BM Unit (BitVec 32) := do
  let x ← readBits 32
  pure (BitVec.ofNat 32 x)

/-- `read_u64`, `read_i64`. -/
def readU64 : BM Unit (BitVec 64) := do
  let x ← readBits 64
  pure (BitVec.ofNat 64 x)

/-- The first `n` bytes of a bit string. -/
def bytesOfBits : Nat → List Bool → List Byte
  | 0, _ => []
  | n + 1, bs => BitVec.ofNat 8 (bitsToNat (bs.take 8)) :: bytesOfBits n (bs.drop 8)

/-- `BitReader::read_bytes(&mut buf[..n])`: fills the buffer or returns `false`.
The model returns the bytes; nothing reads the buffer after a failure. -/
def readBytes (n : Nat) : BM Unit (List Byte) := fun env r =>
  if 8 * n ≤ r.bits.length then
    .ok (bytesOfBits n r.bits)
      ⟨r.bits.drop (8 * n), env.afterRead r.bits.length r.look (8 * n)⟩
  else .err () r

/-- `BitReader::is_empty`. -/
def Reader.isEmpty (r : Reader) : Bool := r.bits.isEmpty

end Contract

/-! ## `src/bits.rs` -/

/-- `bit_width`, `src/bits.rs:4-6`. -/
def bitWidth (n : Nat) : Nat := if n = 0 then 0 else n.log2 + 1

/-- `RlBits::if_get`, `src/bits.rs:26-32`. -/
def ifGet {α : Type} (f : BM Unit α) : BM Unit (Option α) := do
  let b ← readBit
  if b then
    let x ← f
    pure (some x)
  else
    pure none

/-- `RlBits::peek_bits_max_computed`, `src/bits.rs:35-47`.  `data + (1 << bits)`
is below 2^64 for the `bits ≤ 63` that occur (`bits = 63` never gets here, the
lookahead check before the call fails). -/
def peekBitsMaxComputed {ε : Type} (bits max : Nat) : BM ε Nat := do
  BM.debugAssert (Nat.max (bitWidth max) 1 == bits + 1)
  let data ← peekAndConsume bits
  let up := data + 2 ^ bits
  if up ≥ max then
    pure data
  else
    let b ← peekAndConsume 1
    if b ≠ 0 then pure up else pure data

/-- `RlBits::read_bits_max_computed`, `src/bits.rs:50-61`. -/
def readBitsMaxComputed (bits max : Nat) : BM Unit Nat := do
  BM.debugAssert (Nat.max (bitWidth max) 1 == bits + 1)
  let data ← readBits bits
  let up := data + 2 ^ bits
  if up ≥ max then
    pure data
  else
    let x ← readBit
    pure (if x then up else data)

/-- `for _ in 0..n { push(f()?) }`. -/
def replicateBM {ε α : Type} : Nat → BM ε α → BM ε (List α)
  | 0, _ => pure []
  | n + 1, f => do
    let a ← f
    let rest ← replicateBM n f
    pure (a :: rest)

end Boxcars
