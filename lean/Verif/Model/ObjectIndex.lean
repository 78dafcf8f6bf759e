import Verif.Model.NetModels
import Verif.Model.Data
/-!
# Model of `src/network/object_index.rs`
-/
namespace Boxcars

/-- The loop of `ObjectIndex::new`, `src/network/object_index.rs:15-24`, together
with `by_name` (lines 27-29): `entry(name).or_insert(i)` keeps the first index of
each name, so a lookup finds the first position from `i` on.  `i as i32` is
`i32OfNat`. -/
def findName (name : Str) : Nat → List Str → Option ObjectId
  | _, [] => none
  | i, n :: ns => if n = name then some (i32OfNat i) else findName name (i + 1) ns

/-- `ObjectIndex::by_name`, `src/network/object_index.rs:27-29`. -/
def byName (objects : List Str) (name : Str) : Option ObjectId := findName name 0 objects

/-- `AncestorIterator::next`, `src/network/object_index.rs:45-53`, iterated: the
complete sequence of yielded ids.  The Rust iterator is lazy and its consumers
may stop early; the sequence is the same.  `none` means out of fuel
(`Props/Tables.lean` shows `ancestorFuel` suffices for every name). -/
def hierarchyAux (objects : List Str) : Nat → Str → Option (List ObjectId)
  | 0, _ => none
  | fuel + 1, name =>
    match parentClass (normalizeObject name) with
    | none => some []
    | some parent =>
      match hierarchyAux objects fuel parent with
      | none => none
      | some rest =>
        match byName objects name with
        | some id => some (id :: rest)
        | none => some rest

/-- Number of steps allowed for walking up the class tree. -/
def ancestorFuel : Nat := 16

/-- `ObjectIndex::hierarchy`, `src/network/object_index.rs:32-34`. -/
def hierarchy (objects : List Str) (name : Str) : Option (List ObjectId) :=
  hierarchyAux objects ancestorFuel name

end Boxcars
