import Verif.Spec.Bits
/-!
# Bits as bytes
-/
namespace Boxcars.Spec

/-- The number with the given bits, least significant first. -/
def binary : Bits → Nat
  | [] => 0
  | b :: bs => b.toNat + 2 * binary bs

/-- Eight bits to a byte, the last byte filled up with zeros. -/
def pack : Bits → List (BitVec 8)
  | [] => []
  | b :: bs => BitVec.ofNat 8 (binary (b :: bs.take 7)) :: pack (bs.drop 7)
termination_by bs => bs.length
decreasing_by simp only [List.length_drop, List.length_cons]; omega

end Boxcars.Spec
