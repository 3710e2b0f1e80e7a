import Verif.Spec.Keccak
/- The six FIPS 202 functions as a table. -/
namespace Spec.Sha3
open Spec.Keccak

inductive Inst | sha3_224 | sha3_256 | sha3_384 | sha3_512 | shake128 | shake256
  deriving DecidableEq, Repr

/-- FIPS 202, section 6: rate in bytes. -/
def Inst.rate : Inst → Nat
  | .sha3_224 => 144 | .sha3_256 => 136 | .sha3_384 => 104 | .sha3_512 => 72
  | .shake128 => 168 | .shake256 => 136

/-- Domain bits followed by the first padding bit. -/
def Inst.suffix : Inst → Byte
  | .shake128 | .shake256 => 0x1f
  | _ => 0x06

/-- Digest length in bytes (0 for the extendable-output functions). -/
def Inst.digestLen : Inst → Nat
  | .sha3_224 => 28 | .sha3_256 => 32 | .sha3_384 => 48 | .sha3_512 => 64 | _ => 0

/-- Bytes `k .. k+n-1` of the output stream on message `m`. -/
def Inst.out (i : Inst) (m : List Byte) (k n : Nat) : List Byte :=
  spongeBytes keccakF i.rate i.suffix m k n

/-- The digest. -/
def Inst.digest (i : Inst) (m : List Byte) : List Byte := i.out m 0 i.digestLen

example (m : List Byte) : Inst.sha3_224.digest m = Keccak.sha3_224 m := rfl
example (m : List Byte) : Inst.sha3_256.digest m = Keccak.sha3_256 m := rfl
example (m : List Byte) : Inst.sha3_384.digest m = Keccak.sha3_384 m := rfl
example (m : List Byte) : Inst.sha3_512.digest m = Keccak.sha3_512 m := rfl
example (m : List Byte) (n : Nat) : Inst.shake128.out m 0 n = Keccak.shake128 m n := rfl
example (m : List Byte) (n : Nat) : Inst.shake256.out m 0 n = Keccak.shake256 m n := rfl

end Spec.Sha3
