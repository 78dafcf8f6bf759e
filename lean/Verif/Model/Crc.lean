import Verif.Model.Prim
/-!
# Model of `src/crc.rs`
-/
namespace Boxcars

/-- `u32::swap_bytes`. -/
def swapBytes (x : U32) : U32 :=
  (x.extractLsb' 0 8) ++ (x.extractLsb' 8 8) ++ (x.extractLsb' 16 8) ++ (x.extractLsb' 24 8)

namespace Crc

/-- One iteration of the inner loop of the first table pass,
`src/crc.rs:8-15`. -/
def tableStep (poly crc : U32) : U32 :=
  if crc &&& 0x80000000#32 > 0#32 then (crc <<< 1) ^^^ poly else crc <<< 1

/-- `n` iterations of `tableStep` (`while j < 8`, `src/crc.rs:8`). -/
def tableIter (poly : U32) : Nat → U32 → U32
  | 0, crc => crc
  | n + 1, crc => tableIter poly n (tableStep poly crc)

/-- Entry `table[0][i]`, `src/crc.rs:5-19`. -/
def table0 (poly : U32) (i : Nat) : U32 :=
  swapBytes (tableIter poly 8 (BitVec.ofNat 32 i <<< 24))

/-- Value of the local `crc` after `j` iterations of the second pass,
`src/crc.rs:24-28` (before the `swap_bytes` of the store). -/
def table1Iter (poly : U32) (i : Nat) : Nat → U32
  | 0 => swapBytes (table0 poly i)
  | j + 1 =>
    let crc := table1Iter poly i j
    swapBytes (table0 poly (crc >>> 24).toNat) ^^^ (crc <<< 8)

/-- Entry `table[j][i]` of `gen_crc_table`, `src/crc.rs:1-33`.  The Rust fills
an array; the model gives the entry as a function of its indices. -/
def table (poly : U32) : Nat → Nat → U32
  | 0, i => table0 poly i
  | j + 1, i => swapBytes (table1Iter poly i (j + 1))

/-- `CRC_TABLE`, `src/crc.rs:37`: polynomial `0x04c1_1db7`. -/
def crcTable (j i : Nat) : U32 := table 0x04c11db7#32 j i

/-- `u32::from_le_bytes([sl[0], sl[1], sl[2], sl[3]])`, `src/crc.rs:54`. -/
def leU32 (b0 b1 b2 b3 : Byte) : U32 := b3 ++ b2 ++ b1 ++ b0

/-- Body of the `chunks_exact(16)` fold, `src/crc.rs:53-72`, for one 16-byte
chunk (the last case is never used: `chunksExact16` yields lists of length 16,
`Proofs/Crc.lean: chunksExact16_length`). -/
def chunk16 (acc : U32) (sl : List Byte) : U32 :=
  match sl with
  | [s0, s1, s2, s3, s4, s5, s6, s7, s8, s9, s10, s11, s12, s13, s14, s15] =>
    let top := leU32 s0 s1 s2 s3
    let one := top ^^^ acc
    crcTable 0 s15.toNat
      ^^^ crcTable 1 s14.toNat
      ^^^ crcTable 2 s13.toNat
      ^^^ crcTable 3 s12.toNat
      ^^^ crcTable 4 s11.toNat
      ^^^ crcTable 5 s10.toNat
      ^^^ crcTable 6 s9.toNat
      ^^^ crcTable 7 s8.toNat
      ^^^ crcTable 8 s7.toNat
      ^^^ crcTable 9 s6.toNat
      ^^^ crcTable 10 s5.toNat
      ^^^ crcTable 11 s4.toNat
      ^^^ crcTable 12 ((one >>> 24) &&& 0xFF#32).toNat
      ^^^ crcTable 13 ((one >>> 16) &&& 0xFF#32).toNat
      ^^^ crcTable 14 ((one >>> 8) &&& 0xFF#32).toNat
      ^^^ crcTable 15 (one &&& 0xFF#32).toNat
  | _ => acc

/-- The first `n` chunks of 16 bytes. -/
def chunks16 : Nat → List Byte → List (List Byte)
  | 0, _ => []
  | n + 1, data => data.take 16 :: chunks16 n (data.drop 16)

/-- `slice::chunks_exact(16)` (without the remainder). -/
def chunksExact16 (data : List Byte) : List (List Byte) :=
  chunks16 (data.length / 16) data

/-- Body of the byte-at-a-time fold, `src/crc.rs:75-77`. -/
def byteStep (acc : U32) (x : Byte) : U32 :=
  (acc >>> 8) ^^^ crcTable 0 (x.setWidth 32 ^^^ (acc &&& 0xFF#32)).toNat

/-- `calc_crc`, `src/crc.rs:51-80`. -/
def calcCrc (data : List Byte) : U32 :=
  let crc := ~~~ (swapBytes 0xefcbf201#32)
  let crc := (chunksExact16 data).foldl chunk16 crc
  let leftOver := data.length % 16
  let crc := (data.drop (data.length - leftOver)).foldl byteStep crc
  swapBytes (~~~ crc)

end Crc
end Boxcars
