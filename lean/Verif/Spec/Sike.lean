import Verif.Spec.Num
import Verif.Spec.LeBytes
/-!
The SIKE key encapsulation scheme (SIKE specification, algorithms 1 and 2) over abstract primitives: a hash function,
public keys of ephemeral scalars and the two halves of the key agreement.
-/
namespace Spec.Sike

structure Scheme where
  /-- `hash x n`: n bytes of the hash of x -/
  hash : List (BitVec 8) → Nat → List (BitVec 8)
  /-- length of the messages m -/
  msgLen : Nat
  /-- length of the shared key K -/
  keyLen : Nat
  /-- length and bit length of the ephemeral scalar -/
  scalarLen : Nat
  scalarBits : Nat
  /-- length of the ephemeral public key -/
  pkLen : Nat
  /-- ephemeral public key of a scalar -/
  gen : List (BitVec 8) → List (BitVec 8)
  /-- secret from an ephemeral scalar and a static public key -/
  exA : List (BitVec 8) → List (BitVec 8) → List (BitVec 8)
  /-- secret from a static scalar and an ephemeral public key -/
  exB : List (BitVec 8) → List (BitVec 8) → List (BitVec 8)

def xor (x y : List (BitVec 8)) : List (BitVec 8) := List.zipWith (· ^^^ ·) x y

variable (S : Scheme)

/-- The scalar made from m and the public key: G(m ‖ pk), reduced modulo 2^scalarBits. -/
def Scheme.coins (m pk : List (BitVec 8)) : List (BitVec 8) :=
  leBytes S.scalarLen (bval (S.hash (m ++ pk) S.scalarLen) % 2 ^ S.scalarBits)

/-- Public-key encryption of m with scalar r. -/
def Scheme.enc (r pk m : List (BitVec 8)) : List (BitVec 8) :=
  S.gen r ++ xor m (S.hash (S.exA r pk) S.msgLen)

def Scheme.dec (sk ct : List (BitVec 8)) : List (BitVec 8) :=
  xor (ct.drop S.pkLen) (S.hash (S.exB sk (ct.take S.pkLen)) S.msgLen)

/-- Ciphertext and shared key for message m. -/
def Scheme.encaps (m pk : List (BitVec 8)) : List (BitVec 8) × List (BitVec 8) :=
  let ct := S.enc (S.coins m pk) pk m
  (ct, S.hash (m ++ ct) S.keyLen)

/-- Re-encryption gives the ephemeral public key of the ciphertext. -/
def Scheme.Accepts (sk pk ct : List (BitVec 8)) : Prop := S.gen (S.coins (S.dec sk ct) pk) = ct.take S.pkLen

instance (sk pk ct : List (BitVec 8)) : Decidable (S.Accepts sk pk ct) := by unfold Scheme.Accepts; infer_instance

/-- Shared key for ciphertext ct and static key (sk, s, pk), where s is the secret value for rejections. -/
def Scheme.decaps (sk s pk ct : List (BitVec 8)) : List (BitVec 8) :=
  if S.Accepts sk pk ct then S.hash (S.dec sk ct ++ ct) S.keyLen else S.hash (s ++ ct) S.keyLen

end Spec.Sike
