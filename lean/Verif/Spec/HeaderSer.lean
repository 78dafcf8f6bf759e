import Verif.Model.Types
/-!
# What a serialized header value keeps

The documentation of `Serialize for HeaderProp` (`src/models.rs:289-292`) admits that a
`Name` and a `Str` cannot be told apart afterwards.  `plainProp` forgets exactly which
kind of text a value was.
-/
namespace Boxcars.Spec

mutual
/-- A value with every name and every 64-bit number replaced by the string that is written
for it. -/
def plainProp : HeaderProp → HeaderProp
  | .name s => .str s
  | .qword q => .str (Nat.toDigits 10 q.toNat)
  | .array elems => .array (plainElems elems)
  | .struct name fields => .struct name (plainProps fields)
  | .bool b => .bool b
  | .byte kind value => .byte kind value
  | .float f => .float f
  | .int i => .int i
  | .str s => .str s

/-- The same for every value of a list of properties; keys, their order and repetitions
stay. -/
def plainProps : List (Str × HeaderProp) → List (Str × HeaderProp)
  | [] => []
  | (k, v) :: rest => (k, plainProp v) :: plainProps rest

/-- The same for the elements of an array. -/
def plainElems : List (List (Str × HeaderProp)) → List (List (Str × HeaderProp))
  | [] => []
  | e :: rest => plainProps e :: plainElems rest
end

/-- A replay with its header values made plain. -/
def plainReplay (r : Replay) : Replay := { r with properties := plainProps r.properties }

mutual
/-- A float of a header value. -/
def propFloats : HeaderProp → List F32
  | .float f => [f]
  | .array elems => elemsFloats elems
  | .struct _ fields => propsFloats fields
  | _ => []
/-- The floats of a list of properties. -/
def propsFloats : List (Str × HeaderProp) → List F32
  | [] => []
  | (_, v) :: rest => propFloats v ++ propsFloats rest
/-- The floats of the elements of an array. -/
def elemsFloats : List (List (Str × HeaderProp)) → List F32
  | [] => []
  | e :: rest => propsFloats e ++ elemsFloats rest
end

end Boxcars.Spec
