import Verif.Spec.Num
import Mathlib.Data.ZMod.Defs
import Mathlib.Data.ZMod.Basic
/-
The field of CSIDH-512 (Castryck, Lange, Martindale, Panny, Renes: CSIDH, 2018/383, section 7): p = 4·l1·…·l74 − 1
where the l's are the first 73 odd primes and 587.  Field elements are held as a·2^512 mod p in 8 words.
-/
namespace Spec.Csidh
open Spec

/-- The first 73 odd primes, and 587. -/
def ell : List Nat := [
  3, 5, 7, 11, 13, 17, 19, 23, 29, 31, 37, 41, 43, 47, 53, 59, 61, 67, 71, 73, 79, 83, 89, 97, 101, 103, 107, 109,
  113, 127, 131, 137, 139, 149, 151, 157, 163, 167, 173, 179, 181, 191, 193, 197, 199, 211, 223, 227, 229, 233, 239,
  241, 251, 257, 263, 269, 271, 277, 281, 283, 293, 307, 311, 313, 317, 331, 337, 347, 349, 353, 359, 367, 373, 587]

/-- The modulus. -/
def p : Nat := 4 * ell.prod - 1

/-- The words of `x` are the canonical Montgomery representation of `a`. -/
structure IsElt (x : List (BitVec 64)) (a : ZMod p) : Prop where
  len : x.length = 8
  lt : val x < p
  val : ((val x : Nat) : ZMod p) = a * 2 ^ 512

end Spec.Csidh
