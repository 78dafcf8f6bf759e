import Verif.Model.Prim
import Verif.Spec.Text
/-!
# Model of the hashes of the hash tables

`FnvHashMap` of the crate `fnv` is a `HashMap` with this hash, the 64-bit FNV-1a with a fixed start.
The tables are those of `src/network/object_index.rs:11` (object names), `src/network/mod.rs:80`
and `109` (object ids and stream ids) and `src/network/frame_decoder.rs:16` (`usize`).
-/
namespace Boxcars.Fnv
open Boxcars Spec

/-- `FnvHasher::write` for one byte. -/
def step (h : BitVec 64) (b : Byte) : BitVec 64 := (h ^^^ b.setWidth 64) * 0x100000001b3#64

/-- `FnvHasher::write`. -/
def write (h : BitVec 64) (bs : List Byte) : BitVec 64 := bs.foldl step h

/-- `FnvHasher::default`. -/
def start : BitVec 64 := 0xcbf29ce484222325#64

/-- `Hash for str`: the bytes and a byte `0xff`. -/
def strHash (s : Str) : BitVec 64 := write start (utf8 s ++ [0xff])

/-- `Hash for i32` on a little-endian machine, derived for `ObjectId` and `StreamId`,
`src/network/models.rs:283-306`. -/
def i32Hash (x : BitVec 32) : BitVec 64 := write start (le 4 x.toNat)

/-- `Hash for usize` of 64 bits, of an `i32` as such. -/
def usizeHash (x : BitVec 32) : BitVec 64 := write start (le 8 (x.signExtend 64).toNat)

end Boxcars.Fnv
