import Verif.Model.Serde
import Verif.Spec.Float
/-!
# JSON (RFC 8259)

The grammar of JSON, with what each text stands for.  Numbers stand for themselves, as they are
written.
-/
namespace Boxcars.Spec.Json
open Boxcars

/-- What a JSON text stands for. -/
inductive JVal where
  | null
  | bool (b : Bool)
  | num (text : Str)
  | str (s : Str)
  | arr (xs : List JVal)
  | obj (kvs : List (Str × JVal))

/-- `ws`, section 2. -/
def Space (w : Str) : Prop := ∀ c ∈ w, c = ' ' ∨ c = '\t' ∨ c = '\n' ∨ c = '\r'

/-- A decimal digit. -/
def Digit (c : Char) : Prop := 48 ≤ c.toNat ∧ c.toNat ≤ 57

/-- One digit or more. -/
def Digits (t : Str) : Prop := t ≠ [] ∧ ∀ c ∈ t, Digit c

/-- `int`: zero or digits that do not begin with zero. -/
def IntText (t : Str) : Prop := t = ['0'] ∨ Digits t ∧ t.head? ≠ some '0'

/-- `frac`, or nothing. -/
def FracText (t : Str) : Prop := t = [] ∨ ∃ d, Digits d ∧ t = '.' :: d

/-- `exp`, or nothing. -/
def ExpText (t : Str) : Prop := t = [] ∨ ∃ e s d, (e = 'e' ∨ e = 'E') ∧
  (s = [] ∨ s = ['+'] ∨ s = ['-']) ∧ Digits d ∧ t = e :: s ++ d

/-- `number`, section 6. -/
def Number (t : Str) : Prop := ∃ m i f e, (m = [] ∨ m = ['-']) ∧ IntText i ∧ FracText f ∧
  ExpText e ∧ t = m ++ i ++ f ++ e

/-- The value of a hexadecimal digit. -/
def hexValue (c : Char) : Option Nat :=
  if 48 ≤ c.toNat ∧ c.toNat ≤ 57 then some (c.toNat - 48)
  else if 97 ≤ c.toNat ∧ c.toNat ≤ 102 then some (c.toNat - 87)
  else if 65 ≤ c.toNat ∧ c.toNat ≤ 70 then some (c.toNat - 55)
  else none

/-- Four hexadecimal digits and their value. -/
def Hex4 (t : Str) (n : Nat) : Prop := ∃ a b c d w x y z, t = [a, b, c, d] ∧
  hexValue a = some w ∧ hexValue b = some x ∧ hexValue c = some y ∧ hexValue d = some z ∧
  n = ((w * 16 + x) * 16 + y) * 16 + z

/-- `char`, section 7: how a character may be written within a string. -/
inductive CharText : Char → Str → Prop where
  | plain {c : Char} : 32 ≤ c.toNat → c ≠ '"' → c ≠ '\\' → CharText c [c]
  | quote : CharText '"' ['\\', '"']
  | backslash : CharText '\\' ['\\', '\\']
  | slash : CharText '/' ['\\', '/']
  | backspace {c : Char} : c.toNat = 8 → CharText c ['\\', 'b']
  | formFeed {c : Char} : c.toNat = 12 → CharText c ['\\', 'f']
  | lineFeed {c : Char} : c.toNat = 10 → CharText c ['\\', 'n']
  | carriageReturn {c : Char} : c.toNat = 13 → CharText c ['\\', 'r']
  | tab {c : Char} : c.toNat = 9 → CharText c ['\\', 't']
  | hex {c : Char} {h : Str} : Hex4 h c.toNat → CharText c ('\\' :: 'u' :: h)
  /-- Two surrogates. -/
  | pair {c : Char} {h l : Str} {a b : Nat} : Hex4 h (0xd800 + a) → Hex4 l (0xdc00 + b) →
    a < 1024 → b < 1024 → c.toNat = 0x10000 + a * 1024 + b →
    CharText c ('\\' :: 'u' :: h ++ '\\' :: 'u' :: l)

/-- `string`, section 7, without the quotation marks. -/
inductive Chars : Str → Str → Prop where
  | nil : Chars [] []
  | cons {c : Char} {s t u : Str} : CharText c t → Chars s u → Chars (c :: s) (t ++ u)

/-- `string`. -/
def StringText (s t : Str) : Prop := ∃ u, Chars s u ∧ t = '"' :: u ++ ['"']

mutual
/-- `value`, section 3. -/
inductive Value : JVal → Str → Prop where
  | null : Value .null ['n', 'u', 'l', 'l']
  | true_ : Value (.bool true) ['t', 'r', 'u', 'e']
  | false_ : Value (.bool false) ['f', 'a', 'l', 's', 'e']
  | num {t : Str} : Number t → Value (.num t) t
  | str {s t : Str} : StringText s t → Value (.str s) t
  | noElems {w : Str} : Space w → Value (.arr []) ('[' :: w ++ [']'])
  | arr {xs : List JVal} {t : Str} : Elems xs t → Value (.arr xs) ('[' :: t ++ [']'])
  | noMembers {w : Str} : Space w → Value (.obj []) ('{' :: w ++ ['}'])
  | obj {kvs : List (Str × JVal)} {t : Str} : Members kvs t → Value (.obj kvs) ('{' :: t ++ ['}'])
/-- The elements of an array, section 5. -/
inductive Elems : List JVal → Str → Prop where
  | one {x : JVal} {w t w' : Str} : Space w → Value x t → Space w' → Elems [x] (w ++ t ++ w')
  | more {x : JVal} {xs : List JVal} {w t w' u : Str} : Space w → Value x t → Space w' →
    Elems xs u → Elems (x :: xs) (w ++ t ++ w' ++ ',' :: u)
/-- The members of an object, section 4. -/
inductive Members : List (Str × JVal) → Str → Prop where
  | one {k : Str} {x : JVal} {w q w₁ w₂ t w' : Str} : Space w → StringText k q → Space w₁ →
    Space w₂ → Value x t → Space w' → Members [(k, x)] (w ++ q ++ w₁ ++ ':' :: w₂ ++ t ++ w')
  | more {k : Str} {x : JVal} {kvs : List (Str × JVal)} {w q w₁ w₂ t w' u : Str} : Space w →
    StringText k q → Space w₁ → Space w₂ → Value x t → Space w' → Members kvs u →
    Members ((k, x) :: kvs) (w ++ q ++ w₁ ++ ':' :: w₂ ++ t ++ w' ++ ',' :: u)
end

/-- `JSON-text`, section 2. -/
def Text (x : JVal) (t : Str) : Prop := ∃ w u w', Space w ∧ Value x u ∧ Space w' ∧ t = w ++ u ++ w'

/-- What is assumed of the text of floats: JSON numbers that are not integers, different for
different floats. -/
structure FloatText (fmt : F32 → Str) : Prop where
  number : ∀ x, IsFinite x → Number (fmt x)
  mark : ∀ x, IsFinite x → ∃ c ∈ fmt x, c = '.' ∨ c = 'e' ∨ c = 'E'
  inj : ∀ x y, IsFinite x → IsFinite y → fmt x = fmt y → x = y

/-- Decimal digits of an integer. -/
def intText (i : Int) : Str :=
  if i < 0 then '-' :: Nat.toDigits 10 i.natAbs else Nat.toDigits 10 i.natAbs

mutual
/-- What a serialized value is in JSON. -/
noncomputable def jval (fmt : F32 → Str) : SVal → JVal
  | .null => .null
  | .bool b => .bool b
  | .int i => .num (intText i)
  | .f32 x => open Classical in if IsFinite x then .num (fmt x) else .null
  | .str s => .str s
  | .seq xs => .arr (jvals fmt xs)
  | .map kvs => .obj (jfields fmt kvs)
  | .unitVariant name => .str name.toList
  | .variant name x => .obj [(name.toList, jval fmt x)]
/-- Elements. -/
noncomputable def jvals (fmt : F32 → Str) : List SVal → List JVal
  | [] => []
  | x :: xs => jval fmt x :: jvals fmt xs
/-- Members. -/
noncomputable def jfields (fmt : F32 → Str) : List (String × SVal) → List (Str × JVal)
  | [] => []
  | (k, x) :: kvs => (k.toList, jval fmt x) :: jfields fmt kvs
end

end Boxcars.Spec.Json
