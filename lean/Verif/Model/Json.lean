import Verif.Model.Serde
import Verif.Model.Examples
/-!
# JSON text

Model of what `serde_json` writes (`to_writer` and `to_writer_pretty`) and of `examples/json.rs`.
The text of a finite float is left open: it is a parameter `fmt`.  Texts are lists of characters;
they are written as UTF-8.
-/
namespace Boxcars.Json
open Boxcars Examples

/-- A hexadecimal digit in lower case. -/
def hexDigit (n : Nat) : Char := (['0', '1', '2', '3', '4', '5', '6', '7', '8', '9', 'a', 'b', 'c',
  'd', 'e', 'f'][n]?).getD '0'

/-- One character within a string, `serde_json`'s table `ESCAPE`. -/
def escapeChar (c : Char) : Str :=
  if c = '"' then ['\\', '"']
  else if c = '\\' then ['\\', '\\']
  else if c.toNat = 8 then ['\\', 'b']
  else if c.toNat = 9 then ['\\', 't']
  else if c.toNat = 10 then ['\\', 'n']
  else if c.toNat = 12 then ['\\', 'f']
  else if c.toNat = 13 then ['\\', 'r']
  else if c.toNat < 32 then ['\\', 'u', '0', '0', hexDigit (c.toNat / 16), hexDigit (c.toNat % 16)]
  else [c]

/-- `format_escaped_str`. -/
def quoted (s : Str) : Str := '"' :: s.flatMap escapeChar ++ ['"']

/-- `serialize_f32`: not a number and the infinities are `null`. -/
def float (fmt : F32 → Str) (x : F32) : Str :=
  if F32.expField x = 255 then ['n', 'u', 'l', 'l'] else fmt x

/-- `serialize_bool`. -/
def bool (b : Bool) : Str := if b then ['t', 'r', 'u', 'e'] else ['f', 'a', 'l', 's', 'e']

mutual
/-- `serde_json::to_writer`: an enum variant without content is a string, one with content is an
object with one member. -/
def compact (fmt : F32 → Str) : SVal → Str
  | .null => ['n', 'u', 'l', 'l']
  | .bool b => bool b
  | .int i => displayInt i
  | .f32 x => float fmt x
  | .str s => quoted s
  | .seq xs => '[' :: compactElems fmt true xs ++ [']']
  | .map kvs => '{' :: compactFields fmt true kvs ++ ['}']
  | .unitVariant name => quoted name.toList
  | .variant name x => '{' :: quoted name.toList ++ ':' :: compact fmt x ++ ['}']
/-- The elements of an array; `first` is `serde_json`'s `State::First`. -/
def compactElems (fmt : F32 → Str) (first : Bool) : List SVal → Str
  | [] => []
  | x :: xs => (if first then [] else [',']) ++ compact fmt x ++ compactElems fmt false xs
/-- The members of an object. -/
def compactFields (fmt : F32 → Str) (first : Bool) : List (String × SVal) → Str
  | [] => []
  | (k, x) :: kvs =>
    (if first then [] else [',']) ++ quoted k.toList ++ ':' :: compact fmt x ++
      compactFields fmt false kvs
end

/-- `PrettyFormatter::begin_array_value` and `begin_object_key`: a line of its own with two spaces
for each level. -/
def newline (level : Nat) (first : Bool) : Str :=
  (if first then ['\n'] else [',', '\n']) ++ List.replicate (2 * level) ' '

mutual
/-- `serde_json::to_writer_pretty` at a level of indentation. -/
def pretty (fmt : F32 → Str) (level : Nat) : SVal → Str
  | .null => ['n', 'u', 'l', 'l']
  | .bool b => bool b
  | .int i => displayInt i
  | .f32 x => float fmt x
  | .str s => quoted s
  | .seq [] => ['[', ']']
  | .seq (x :: xs) =>
    '[' :: newline (level + 1) true ++ pretty fmt (level + 1) x ++
      prettyElems fmt (level + 1) xs ++ newline level true ++ [']']
  | .map [] => ['{', '}']
  | .map ((k, x) :: kvs) =>
    '{' :: newline (level + 1) true ++ quoted k.toList ++ [':', ' '] ++ pretty fmt (level + 1) x ++
      prettyFields fmt (level + 1) kvs ++ newline level true ++ ['}']
  | .unitVariant name => quoted name.toList
  | .variant name x =>
    '{' :: newline (level + 1) true ++ quoted name.toList ++ [':', ' '] ++
      pretty fmt (level + 1) x ++ newline level true ++ ['}']
/-- The elements of an array after the first. -/
def prettyElems (fmt : F32 → Str) (level : Nat) : List SVal → Str
  | [] => []
  | x :: xs => newline level false ++ pretty fmt level x ++ prettyElems fmt level xs
/-- The members of an object after the first. -/
def prettyFields (fmt : F32 → Str) (level : Nat) : List (String × SVal) → Str
  | [] => []
  | (k, x) :: kvs =>
    newline level false ++ quoted k.toList ++ [':', ' '] ++ pretty fmt level x ++
      prettyFields fmt level kvs
end

/-- `main`, `examples/json.rs:4-25`: what is printed, and the end.  Standard error is left out. -/
def jsonMain (fmt : F32 → Str) (env : Env) (data : List Byte) : Str × Exit :=
  match ParserBuilder.new.alwaysCheckCrc.mustParseNetworkData.parse env data with
  | .err e => ([], .parse e)
  | .fault f => ([], .fault f)
  | .ok r => (pretty fmt 0 (serReplay r), .success)

end Boxcars.Json
