import Verif.Spec.AES
/-
CTR_DRBG of NIST SP 800-90A (section 10.2.1) with AES-256, without derivation function:
keylen = 256, blocklen = 128, seedlen = 384.
-/
namespace Spec.DRBG
open Spec.AES (Byte)

/-- The `k`-byte big-endian encoding of a number. -/
def be : Nat → Nat → List Byte
  | 0, _ => []
  | k + 1, n => be k (n / 256) ++ [BitVec.ofNat 8 n]

/-- The number a byte string stands for, big-endian. -/
def num (l : List Byte) : Nat := l.foldl (fun a b => 256 * a + b.toNat) 0

/-- The working state: Key, and V as a number below 2^128. -/
structure State where
  key : List Byte
  v : Nat

/-- Block_Encrypt(Key, V). -/
def blockEncrypt (s : State) : List Byte := Spec.AES.encrypt s.key (be 16 s.v)

/-- V = (V + 1) mod 2^blocklen. -/
def step (s : State) : State := { s with v := (s.v + 1) % 2 ^ 128 }

/-- `n` times: increment V, output Block_Encrypt(Key, V).  The output and the state. -/
def blocks : Nat → State → List Byte × State
  | 0, s => ([], s)
  | n + 1, s =>
    let s := step s
    let (rest, s') := blocks n s
    (blockEncrypt s ++ rest, s')

/-- CTR_DRBG_Update (10.2.1.2). -/
def update (provided : List Byte) (s : State) : State :=
  let temp := (blocks 3 s).1
  let temp := List.zipWith (· ^^^ ·) temp provided
  { key := temp.take 32, v := num (temp.drop 32) }

/-- Inputs brought to seedlen bits: padded with zeros (10.2.1.3.1), here also cut to size. -/
def pad48 (b : List Byte) : List Byte := b.take 48 ++ List.replicate (48 - b.length) 0

/-- seed_material -/
def seed (entropy other : List Byte) : List Byte := List.zipWith (· ^^^ ·) (pad48 entropy) (pad48 other)

/-- CTR_DRBG_Instantiate_algorithm (10.2.1.3.1). -/
def instantiate (entropy personalization : List Byte) : State :=
  update (seed entropy personalization) { key := List.replicate 32 0, v := 0 }

/-- CTR_DRBG_Reseed_algorithm (10.2.1.4.1). -/
def reseed (s : State) (entropy additional : List Byte) : State := update (seed entropy additional) s

/-- CTR_DRBG_Generate_algorithm (10.2.1.5.1) for `n` bytes. -/
def generate (s : State) (n : Nat) (additional : List Byte) : List Byte × State :=
  let s := if additional = [] then s else update (pad48 additional) s
  let (temp, s) := blocks ((n + 15) / 16) s
  (temp.take n, update (pad48 additional) s)

end Spec.DRBG
