import Verif.Model.Prim
/-!
# Specification of the replay checksum

A 32-bit shift register, one message bit at a time, most significant bit of each
byte first, polynomial `0x04c11db7`, initial register `!0xefcbf201`, final
complement.  No tables, no chunks, no byte swaps.  This file does not use the
model.
-/
namespace Boxcars.Spec.Crc

/-- The generator polynomial without its leading term. -/
def poly : BitVec 32 := 0x04c11db7#32

/-- The register before the first bit. -/
def initial : BitVec 32 := 0x10340dfe#32

/-- Shift one message bit in. -/
def step (r : BitVec 32) (b : Bool) : BitVec 32 :=
  (r <<< 1) ^^^ (if r.msb = b then 0#32 else poly)

/-- The bits of a byte, most significant first. -/
def msbFirst (b : BitVec 8) : List Bool :=
  [b.getLsbD 7, b.getLsbD 6, b.getLsbD 5, b.getLsbD 4,
   b.getLsbD 3, b.getLsbD 2, b.getLsbD 1, b.getLsbD 0]

/-- The bits of a message. -/
def messageBits (data : List (BitVec 8)) : List Bool := data.flatMap msbFirst

/-- The checksum. -/
def crc (data : List (BitVec 8)) : BitVec 32 :=
  ~~~ ((messageBits data).foldl step initial)

end Boxcars.Spec.Crc
