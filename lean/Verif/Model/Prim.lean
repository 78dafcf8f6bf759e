/-!
# Outcomes, environment and machine integers

Types shared by all model files.  Nothing here corresponds to one Rust file;
each item says which Rust behaviour it stands for.
-/

namespace Boxcars

/-- Rust `u8`. -/
abbrev Byte := BitVec 8
/-- Rust `i32` (two's complement; read with `toInt`) . -/
abbrev I32 := BitVec 32
/-- Rust `u32` (read with `toNat`). -/
abbrev U32 := BitVec 32
/-- Rust `u64`. -/
abbrev U64 := BitVec 64
/-- Rust `f32`, identified with its IEEE-754 binary32 bit pattern
(`f32::to_bits`).  Equality of `F32` is bit equality; IEEE comparison is in
`Model/Float.lean`. -/
abbrev F32 := BitVec 32
/-- Rust `String` / `&str`: its sequence of Unicode scalar values. -/
abbrev Str := List Char

/-- `str::len`: length in bytes of the UTF-8 encoding. -/
def Str.byteLen (s : Str) : Nat := (s.map (fun c => c.utf8Size)).sum

/-- Events that are not a Rust return value: a panic, an abort or divergence. -/
inductive Fault where
  /-- arithmetic overflow with `overflow-checks` on -/
  | overflow
  /-- slice or vector index out of range -/
  | index
  /-- failed `debug_assert!` -/
  | debugAssert
  /-- `unreachable!()` -/
  | unreachable
  /-- `peek`/`consume` beyond the bit reader's lookahead -/
  | lookahead
  /-- `Vec::with_capacity` "capacity overflow" panic -/
  | capacity
  /-- a loop of the model ran out of fuel (would be non-termination) -/
  | fuel
  deriving DecidableEq, Repr

/-- Outcome of a Rust call returning `Result<α, ε>`. -/
inductive Res (ε α : Type) where
  | ok (a : α)
  | err (e : ε)
  | fault (f : Fault)
  deriving Repr

/-- Everything the build and the libraries are free to choose.  All theorems
quantify over `Env`.

* `usizeBits`: width of `usize`.
* `checks`: `debug_assertions`/`overflow-checks` on or off.
* `refill rem look`: number of buffered bits after
  `bitter::BitReader::refill_lookahead` when `rem` bits remain and `look` of
  them were buffered.  Contract (bitter 0.9): at least 56 bits unless fewer
  remain; never more than 63 (the implementation tracks the count as
  `bit_count |= 56`, hence 56..=63).
* `afterRead rem look n`: number of buffered bits after a successful checked
  read of `n` bits (`read_bits`, `read_bytes`, ...).
* `perm`: iteration order of a hash map.
* `frameSize`: `size_of::<Frame>()`. -/
structure Env where
  usizeBits : Nat
  usizeBits_eq : usizeBits = 32 ∨ usizeBits = 64
  checks : Bool
  refill : Nat → Nat → Nat
  refill_ge : ∀ rem look, look ≤ rem → look ≤ 63 → min 56 rem ≤ refill rem look
  refill_le : ∀ rem look, look ≤ rem → look ≤ 63 → refill rem look ≤ min 63 rem
  afterRead : Nat → Nat → Nat → Nat
  afterRead_le : ∀ rem look n, n ≤ rem → afterRead rem look n ≤ min 63 (rem - n)
  perm : {α : Type} → List α → List α
  perm_perm : ∀ {α : Type} (l : List α), (perm l).Perm l
  frameSize : Nat
  frameSize_le : frameSize ≤ 128

/-- A concrete environment: 64-bit, checks on, greedy refill. -/
def Env.default64 : Env where
  usizeBits := 64
  usizeBits_eq := Or.inr rfl
  checks := true
  refill rem _ := min 63 rem
  refill_ge := by intros; omega
  refill_le := by intros; omega
  afterRead rem look n := if n ≤ look ∧ look ≤ 63 then min (look - n) (rem - n) else 0
  afterRead_le := by intro rem look n h; split <;> omega
  perm l := l
  perm_perm l := List.Perm.refl l
  frameSize := 80
  frameSize_le := by decide

/-- A concrete environment that differs from `default64` in every field:
32-bit, release, minimal buffering, reversed hash iteration. -/
def Env.release32 : Env where
  usizeBits := 32
  usizeBits_eq := Or.inl rfl
  checks := false
  refill rem _ := min 56 rem
  refill_ge := by intros; omega
  refill_le := by intros; omega
  afterRead _ _ _ := 0
  afterRead_le := by intros; omega
  perm l := l.reverse
  perm_perm l := List.reverse_perm l
  frameSize := 44
  frameSize_le := by decide

/-- `x as usize` for `x : i32`: sign extension to the width of `usize`. -/
def Env.usizeOfI32 (env : Env) (x : I32) : Nat :=
  if x.toInt < 0 then 2 ^ env.usizeBits - x.toInt.natAbs else x.toNat

/-- `isize::MAX`, the upper bound on the byte size of any slice or `Vec`. -/
def Env.isizeMax (env : Env) : Nat := 2 ^ (env.usizeBits - 1) - 1

/-- `u32::from_le_bytes` / `i32::from_le_bytes` / `u64::from_le_bytes` on a byte
list (least significant byte first). -/
def leNat : List Byte → Nat
  | [] => 0
  | b :: bs => b.toNat + 256 * leNat bs

/-- `x as i32` for `x : usize`. -/
def i32OfNat (n : Nat) : I32 := BitVec.ofNat 32 n

end Boxcars
