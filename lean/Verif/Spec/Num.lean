/-
Numbers denoted by word and byte arrays, least significant first.
-/
namespace Spec

/-- The number denoted by an array of 64-bit words. -/
def val : List (BitVec 64) → Nat
  | [] => 0
  | w :: ws => w.toNat + 2 ^ 64 * val ws

/-- The number denoted by an array of bytes. -/
def bval : List (BitVec 8) → Nat
  | [] => 0
  | b :: bs => b.toNat + 2 ^ 8 * bval bs

end Spec
