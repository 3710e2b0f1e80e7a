import Verif.Spec.CsidhField
/-
What the CSIDH key code is supposed to do, in terms of bytes, numbers and integers.
-/
namespace Spec.Csidh
open Spec

/-- The k-th candidate for a random field element: the low 511 bits of the k-th block of 64 bytes, little endian. -/
def candidate (rng : List (BitVec 8)) (k : Nat) : Nat := bval ((rng.drop (64 * k)).take 64) % 2 ^ 511

/-- The i-th of the 4-bit two's complement numbers in an array of bytes, the low half of a byte first. -/
def nibble (e : List (BitVec 8)) (i : Nat) : Int :=
  let n : Nat := (e.getD (i / 2) 0).toNat / 16 ^ (i % 2) % 16
  if n < 8 then n else (n : Int) - 16

/-- The exponent of the i-th prime in a private key: the i-th 4-bit number, the high half of a byte first. -/
def exponent (e : List (BitVec 8)) (i : Nat) : Int := nibble e (if i % 2 = 0 then i + 1 else i - 1)

/-- A byte which, as a signed number, is at most 5 in absolute value. -/
def small (b : BitVec 8) : Bool := decide (-5 ≤ b.toInt ∧ b.toInt ≤ 5)

end Spec.Csidh
