import Verif.Spec.Keccak
/- NIST SP 800-185, sections 2.3 and 3: the encodings and cSHAKE, for byte strings. -/
namespace Spec.CShake
open Spec.Keccak

/-- The smallest positive `n` with `x < 2^(8n)`. -/
def byteLen (x : Nat) : Nat := if h : x < 256 then 1 else byteLen (x / 256) + 1
termination_by x
decreasing_by omega

/-- The `n`-byte big-endian encoding of `x`. -/
def bigEndian : Nat → Nat → List Byte
  | 0, _ => []
  | n + 1, x => BitVec.ofNat 8 (x / 256 ^ n) :: bigEndian n x

/-- left_encode(x). -/
def leftEncode (x : Nat) : List Byte := BitVec.ofNat 8 (byteLen x) :: bigEndian (byteLen x) x

/-- encode_string(S) for a byte string: its length is in bits. -/
def encodeString (s : List Byte) : List Byte := leftEncode (8 * s.length) ++ s

/-- bytepad(X, w): left_encode(w) || X followed by as few zero bytes as make the length a multiple
of `w`. -/
def bytepad (x : List Byte) (w : Nat) : List Byte :=
  let z := leftEncode w ++ x
  z ++ List.replicate ((w - z.length % w) % w) 0

/-- cSHAKE128(X, L, N, S); `n` is the output length in bytes.  The suffix byte 0x04 holds the two
domain bits 00 and the first 1 of the padding. -/
def cshake128 (N S X : List Byte) (n : Nat) : List Byte :=
  if N = [] ∧ S = [] then shake128 X n
  else spongeBytes keccakF 168 0x04 (bytepad (encodeString N ++ encodeString S) 168 ++ X) 0 n

def cshake256 (N S X : List Byte) (n : Nat) : List Byte :=
  if N = [] ∧ S = [] then shake256 X n
  else spongeBytes keccakF 136 0x04 (bytepad (encodeString N ++ encodeString S) 136 ++ X) 0 n

end Spec.CShake
