/-!
# Specification of the text encodings

Written from the encoding standards, without using any model definition: UTF-8 is
Lean core's `String.utf8EncodeChar`, Windows-1252 is the character-to-byte table of
the Unicode consortium (with the five unassigned bytes mapping to themselves, as in
the WHATWG encoding standard), UTF-16 is the definition in the Unicode standard.
-/
namespace Boxcars.Spec

/-- Little-endian bytes of a number, `k` bytes. -/
def le : Nat → Nat → List (BitVec 8)
  | 0, _ => []
  | k + 1, n => BitVec.ofNat 8 n :: le k (n / 256)

/-- UTF-8 encoding of a character. -/
def utf8Char (c : Char) : List (BitVec 8) := (String.utf8EncodeChar c).map UInt8.toBitVec

/-- UTF-8 encoding of a string. -/
def utf8 (s : List Char) : List (BitVec 8) := s.flatMap utf8Char

/-- Where and why bytes are not UTF-8, as Rust's `Utf8Error` documents it.  The first
`v` bytes encode text and what follows starts with no character.  `k = none`: it is a
proper beginning of a character, so the input merely ended too early.
`k = some n`: the offending sequence is `n` bytes long, the longest beginning of a
character found there, and one byte if there is none. -/
def Utf8Fault (bs : List (BitVec 8)) (v : Nat) (k : Option Nat) : Prop :=
  ∃ s rest, bs = utf8 s ++ rest ∧ v = (utf8 s).length ∧ rest ≠ [] ∧
    (∀ c t, rest ≠ utf8Char c ++ t) ∧
    match k with
    | none => ∃ c t, utf8Char c = rest ++ t
    | some n => 1 ≤ n ∧ n ≤ rest.length ∧
        (n = 1 ∨ ∃ c t, utf8Char c = rest.take n ++ t) ∧
        ¬ ∃ c t, utf8Char c = rest.take (n + 1) ++ t

/-- The characters above U+00FF that Windows-1252 assigns to the bytes 0x80..0x9F. -/
def cp1252Table : List (Nat × Nat) :=
  [(0x20AC, 0x80), (0x201A, 0x82), (0x0192, 0x83), (0x201E, 0x84), (0x2026, 0x85),
   (0x2020, 0x86), (0x2021, 0x87), (0x02C6, 0x88), (0x2030, 0x89), (0x0160, 0x8A),
   (0x2039, 0x8B), (0x0152, 0x8C), (0x017D, 0x8E), (0x2018, 0x91), (0x2019, 0x92),
   (0x201C, 0x93), (0x201D, 0x94), (0x2022, 0x95), (0x2013, 0x96), (0x2014, 0x97),
   (0x02DC, 0x98), (0x2122, 0x99), (0x0161, 0x9A), (0x203A, 0x9B), (0x0153, 0x9C),
   (0x017E, 0x9E), (0x0178, 0x9F)]

/-- Windows-1252 byte of a character, if it has one. -/
def cp1252 (c : Char) : Option (BitVec 8) :=
  match cp1252Table.lookup c.toNat with
  | some b => some (BitVec.ofNat 8 b)
  | none =>
    if c.toNat < 0x80 ∨ (0xA0 ≤ c.toNat ∧ c.toNat ≤ 0xFF)
        ∨ c.toNat ∈ [0x81, 0x8D, 0x8F, 0x90, 0x9D] then
      some (BitVec.ofNat 8 c.toNat)
    else none

/-- `body` is the Windows-1252 encoding of `s`. -/
def IsCp1252 (s : List Char) (body : List (BitVec 8)) : Prop :=
  s.map cp1252 = body.map some

/-- High (leading) surrogate. -/
def isHigh (u : BitVec 16) : Prop := 0xD800 ≤ u.toNat ∧ u.toNat ≤ 0xDBFF
/-- Low (trailing) surrogate. -/
def isLow (u : BitVec 16) : Prop := 0xDC00 ≤ u.toNat ∧ u.toNat ≤ 0xDFFF

/-- UTF-16 code units of a character. -/
def utf16Char (c : Char) : List (BitVec 16) :=
  if c.toNat < 0x10000 then [BitVec.ofNat 16 c.toNat]
  else [BitVec.ofNat 16 (0xD800 + (c.toNat - 0x10000) / 0x400),
        BitVec.ofNat 16 (0xDC00 + (c.toNat - 0x10000) % 0x400)]

/-- UTF-16 code units of a string. -/
def utf16 (s : List Char) : List (BitVec 16) := s.flatMap utf16Char

/-- Decoding with replacement: well-formed sequences decode to their character,
every unpaired surrogate to U+FFFD. -/
inductive Utf16Replaced : List (BitVec 16) → List Char → Prop where
  | nil : Utf16Replaced [] []
  | char (c : Char) {us s} : Utf16Replaced us s → Utf16Replaced (utf16Char c ++ us) (c :: s)
  | high {u us s} : isHigh u → (∀ v, us.head? = some v → ¬ isLow v) → Utf16Replaced us s →
      Utf16Replaced (u :: us) ('�' :: s)
  | low {u us s} : isLow u → Utf16Replaced us s → Utf16Replaced (u :: us) ('�' :: s)

end Boxcars.Spec
