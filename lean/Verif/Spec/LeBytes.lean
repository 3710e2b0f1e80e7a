import Verif.Spec.Num
/-
The little-endian encoding of a number in a given number of bytes.
-/
namespace Spec

/-- The `n` least significant bytes of `x`, least significant first. -/
def leBytes : Nat → Nat → List (BitVec 8)
  | 0, _ => []
  | n + 1, x => BitVec.ofNat 8 x :: leBytes n (x / 256)

end Spec
