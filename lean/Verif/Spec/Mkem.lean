import Verif.Spec.Sike
/-!
The multi-recipient key encapsulation scheme of "Scalable Ciphertext Compression Techniques for Post-Quantum KEMs and
their Applications" (Katsumata et al.), over the primitives of `Spec.Sike.Scheme`: one ephemeral key for all recipients,
made from the message only.  The three uses of the hash are separated by a first byte 1, 2, 3.
-/
namespace Spec.Mkem
open Spec.Sike

variable (S : Scheme)

/-- The ephemeral scalar of message m. -/
def coins (m : List (BitVec 8)) : List (BitVec 8) :=
  leBytes S.scalarLen (bval (S.hash (1 :: m) S.scalarLen) % 2 ^ S.scalarBits)

/-- The part of the ciphertext common to all recipients. -/
def ct0 (m : List (BitVec 8)) : List (BitVec 8) := S.gen (coins S m)

/-- The part of the ciphertext for the recipient with public key pk. -/
def ct (m pk : List (BitVec 8)) : List (BitVec 8) := xor m (S.hash (2 :: S.exA (coins S m) pk) S.msgLen)

/-- The common key. -/
def key (m : List (BitVec 8)) : List (BitVec 8) := S.hash (3 :: m) S.keyLen

/-- The message a recipient gets from the two parts of the ciphertext. -/
def dec (sk c0 c : List (BitVec 8)) : List (BitVec 8) := xor c (S.hash (2 :: S.exB sk c0) S.msgLen)

/-- Re-encryption of the message gives both parts. -/
def Accepts (sk pk c0 c : List (BitVec 8)) : Prop := ct0 S (dec S sk c0 c) = c0 ∧ ct S (dec S sk c0 c) pk = c

instance (sk pk c0 c : List (BitVec 8)) : Decidable (Accepts S sk pk c0 c) := by unfold Accepts; infer_instance

/-- The key of a recipient, s being the secret value for rejections. -/
def decaps (sk s pk c0 c : List (BitVec 8)) : List (BitVec 8) := if Accepts S sk pk c0 c then key S (dec S sk c0 c) else key S s

end Spec.Mkem
