import Verif.Model.Types
/-!
# Comparisons forced by equal hashes

A hash table tells a key that it does not hold from those that it holds with the same hash only by
comparing them.
-/
namespace Boxcars.Spec

/-- The comparisons that cannot be avoided when keys are entered one after the other into a table
that already holds some. -/
def forced {α : Type} [DecidableEq α] (hash : α → BitVec 64) : List α → List α → Nat
  | _, [] => 0
  | held, k :: ks =>
    if k ∈ held then forced hash held ks
    else (held.filter fun x => hash x = hash k).length + forced hash (k :: held) ks

end Boxcars.Spec
