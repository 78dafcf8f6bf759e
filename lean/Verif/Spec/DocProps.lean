import Verif.Spec.File
/-!
# Header properties as the documentation of the format describes them

`src/parser.rs`, lines 34-57. How strings are read is left to `StrField` and `TextField`; that they
differ from the documented formula is C101.
-/
namespace Boxcars.Spec

/-- "related to steam / ps4". -/
def StorePlatform (k : Str) : Prop := k = "OnlinePlatform_Steam".toList ∨ k = "OnlinePlatform_PS4".toList

mutual
/-- "Read string. This will be the key. If the key is "None" we're done with given key value pair.
Read string to determine the value type. Skip next 8 bytes. Decode the value based on the value
type." -/
inductive DocProps : List (Str × HeaderProp) → Bytes → Prop where
  | done {bs} : StrField "None".toList bs → DocProps [] bs
  | prop {key kind v rest b1 b2 sz b3 b4} :
      key ≠ "None".toList → StrField key b1 → StrField kind b2 → sz.length = 8 →
      DocVal kind v b3 → DocProps rest b4 →
      DocProps ((key, v) :: rest) (b1 ++ (b2 ++ (sz ++ (b3 ++ b4))))
/-- The eight documented value types. -/
inductive DocVal : Str → HeaderProp → Bytes → Prop where
  /-- "read byte. Does it equal 1?" -/
  | bool (b : BitVec 8) : DocVal "BoolProperty".toList (.bool (b == 1)) [b]
  /-- "read two strings" -/
  | byte {k v b1 b2} : ¬StorePlatform k → StrField k b1 → StrField v b2 →
      DocVal "ByteProperty".toList (.byte k (some v)) (b1 ++ b2)
  /-- "(unless the first seen is related to steam / ps4)" -/
  | store {k b} : StorePlatform k → StrField k b → DocVal "ByteProperty".toList (.byte k none) b
  | float (x) : DocVal "FloatProperty".toList (.float x) (word x)
  | int (x) : DocVal "IntProperty".toList (.int x) (word x)
  | name {s b} : TextField s b → DocVal "NameProperty".toList (.name s) b
  | str {s b} : TextField s b → DocVal "StrProperty".toList (.str s) b
  | qword (x) : DocVal "QWordProperty".toList (.qword x) (dword x)
  /-- "A nested map of key-value pairs (recurse into step 1)" -/
  | array {ps b} : DocProps ps b → DocVal "ArrayProperty".toList (.array [ps]) b
end

/-- No array. -/
def Flat (ps : List (Str × HeaderProp)) : Prop := ∀ p ∈ ps, ∀ xs, p.2 ≠ .array xs

/-- Every byte property has two strings, the first of which is not `None`. -/
def TwoStrings (ps : List (Str × HeaderProp)) : Prop :=
  ∀ p ∈ ps, ∀ k v, p.2 = .byte k v → k ≠ "None".toList ∧ v ≠ none

end Boxcars.Spec
