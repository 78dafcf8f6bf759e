import Verif.Model.Prim
/-!
# Model of `src/parsing_utils.rs`

The crate calls `encoding_rs` and `core::str::from_utf8`; their behaviour on the
inputs used here is written out below from their documented contracts (WHATWG
Encoding Standard index for windows-1252, the WHATWG UTF-16LE decoder, and the
Rust standard library's UTF-8 validator).
-/
namespace Boxcars

/-- `core::str::Utf8Error`: `valid_up_to()` and `error_len()`. -/
structure Utf8Error where
  validUpTo : Nat
  errorLen : Option Nat
  deriving DecidableEq, Repr

/-- `as i8 >= -64` negated: the byte is a continuation byte `10xxxxxx`. -/
def isCont (b : Byte) : Bool := 0x80 ≤ b.toNat && b.toNat ≤ 0xBF

/-- Second-byte condition for three byte sequences
(`core::str::validations::run_utf8_validation`). -/
def utf8Second3 (first second : Nat) : Bool :=
  (first == 0xE0 && 0xA0 ≤ second && second ≤ 0xBF)
  || (0xE1 ≤ first && first ≤ 0xEC && 0x80 ≤ second && second ≤ 0xBF)
  || (first == 0xED && 0x80 ≤ second && second ≤ 0x9F)
  || (0xEE ≤ first && first ≤ 0xEF && 0x80 ≤ second && second ≤ 0xBF)

/-- Second-byte condition for four byte sequences. -/
def utf8Second4 (first second : Nat) : Bool :=
  (first == 0xF0 && 0x90 ≤ second && second ≤ 0xBF)
  || (0xF1 ≤ first && first ≤ 0xF3 && 0x80 ≤ second && second ≤ 0xBF)
  || (first == 0xF4 && 0x80 ≤ second && second ≤ 0x8F)

/-- `core::str::from_utf8`: validation as in the standard library, with the
decoded scalar values as result.  `off` is the offset of the current sequence.
`Char.ofNat` is only applied to valid scalar values (`Proofs/Text.lean`). -/
def utf8Decode (off : Nat) : List Byte → Except Utf8Error Str
  | [] => .ok []
  | b0 :: rest =>
    let n0 := b0.toNat
    if n0 < 0x80 then
      (utf8Decode (off + 1) rest).map (Char.ofNat n0 :: ·)
    else if 0xC2 ≤ n0 && n0 ≤ 0xDF then
      match rest with
      | [] => .error ⟨off, none⟩
      | b1 :: rest =>
        if !isCont b1 then .error ⟨off, some 1⟩
        else
          (utf8Decode (off + 2) rest).map
            (Char.ofNat ((n0 - 0xC0) * 64 + (b1.toNat - 0x80)) :: ·)
    else if 0xE0 ≤ n0 && n0 ≤ 0xEF then
      match rest with
      | [] => .error ⟨off, none⟩
      | b1 :: rest =>
        if !utf8Second3 n0 b1.toNat then .error ⟨off, some 1⟩
        else match rest with
          | [] => .error ⟨off, none⟩
          | b2 :: rest =>
            if !isCont b2 then .error ⟨off, some 2⟩
            else
              (utf8Decode (off + 3) rest).map
                (Char.ofNat ((n0 - 0xE0) * 4096 + (b1.toNat - 0x80) * 64 + (b2.toNat - 0x80)) :: ·)
    else if 0xF0 ≤ n0 && n0 ≤ 0xF4 then
      match rest with
      | [] => .error ⟨off, none⟩
      | b1 :: rest =>
        if !utf8Second4 n0 b1.toNat then .error ⟨off, some 1⟩
        else match rest with
          | [] => .error ⟨off, none⟩
          | b2 :: rest =>
            if !isCont b2 then .error ⟨off, some 2⟩
            else match rest with
              | [] => .error ⟨off, none⟩
              | b3 :: rest =>
                if !isCont b3 then .error ⟨off, some 3⟩
                else
                  (utf8Decode (off + 4) rest).map
                    (Char.ofNat ((n0 - 0xF0) * 262144 + (b1.toNat - 0x80) * 4096
                      + (b2.toNat - 0x80) * 64 + (b3.toNat - 0x80)) :: ·)
    else .error ⟨off, some 1⟩

/-- The windows-1252 code points of bytes `0x80..=0x9F` (WHATWG index). -/
def cp1252High : List Nat :=
  [0x20AC, 0x81, 0x201A, 0x0192, 0x201E, 0x2026, 0x2020, 0x2021,
   0x02C6, 0x2030, 0x0160, 0x2039, 0x0152, 0x8D, 0x017D, 0x8F,
   0x90, 0x2018, 0x2019, 0x201C, 0x201D, 0x2022, 0x2013, 0x2014,
   0x02DC, 0x2122, 0x0161, 0x203A, 0x0153, 0x9D, 0x017E, 0x0178]

/-- One byte of `WINDOWS_1252.decode_without_bom_handling`. -/
def cp1252Char (b : Byte) : Char :=
  let n := b.toNat
  if 0x80 ≤ n && n ≤ 0x9F then Char.ofNat (cp1252High.getD (n - 0x80) 0) else Char.ofNat n

/-- The little-endian 16-bit units of a byte string.  A trailing odd byte is
dropped here; every caller passes an even number of bytes
(`src/core_parser.rs:128`, `src/network/attributes.rs:1513`). -/
def utf16Units : List Byte → List Nat
  | b0 :: b1 :: rest => (b0.toNat + 256 * b1.toNat) :: utf16Units rest
  | _ => []

/-- U+FFFD. -/
def replacementChar : Char := Char.ofNat 0xFFFD

/-- `UTF_16LE.decode_without_bom_handling` on 16-bit units: surrogate pairs are
combined, every unpaired surrogate becomes U+FFFD. -/
def utf16Decode : List Nat → Str
  | [] => []
  | u :: rest =>
    if 0xD800 ≤ u && u ≤ 0xDBFF then
      match rest with
      | [] => [replacementChar]
      | v :: rest' =>
        if 0xDC00 ≤ v && v ≤ 0xDFFF then
          Char.ofNat (0x10000 + (u - 0xD800) * 0x400 + (v - 0xDC00)) :: utf16Decode rest'
        else
          replacementChar :: utf16Decode (v :: rest')
    else if 0xDC00 ≤ u && u ≤ 0xDFFF then
      replacementChar :: utf16Decode rest
    else Char.ofNat u :: utf16Decode rest

/-- `decode_str`, `src/parsing_utils.rs:9-12`. -/
def decodeStr (input : List Byte) : Except Utf8Error Str :=
  utf8Decode 0 (input.take (input.length - 1))

/-- `decode_utf16`, `src/parsing_utils.rs:14-18`. -/
def decodeUtf16 (input : List Byte) : Str :=
  utf16Decode (utf16Units (input.take (input.length - 2)))

/-- `decode_windows1252`, `src/parsing_utils.rs:20-24`. -/
def decodeWindows1252 (input : List Byte) : Str :=
  (input.take (input.length - 1)).map cp1252Char

end Boxcars
