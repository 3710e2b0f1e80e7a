/-
Specification of Keccak-p[1600,24] and of the sponge construction, transcribed from
FIPS PUB 202 (sections 3.1-3.4, 4, 5.1, 6).  Nothing here refers to the Go code or to its model.
-/
namespace Spec.Keccak

/-- A state array `A[x,y,z]` (FIPS 202, 3.1), `w = 64`. -/
abbrev StateArray := Fin 5 → Fin 5 → Fin 64 → Bool

/-- Algorithm 1, theta. -/
def theta (A : StateArray) : StateArray :=
  let C : Fin 5 → Fin 64 → Bool := fun x z =>
    A x 0 z ^^ A x 1 z ^^ A x 2 z ^^ A x 3 z ^^ A x 4 z
  let D : Fin 5 → Fin 64 → Bool := fun x z => C (x - 1) z ^^ C (x + 1) (z - 1)
  fun x y z => A x y z ^^ D x z

/-- The walk `(x,y) := (y, (2x+3y) mod 5)` of Algorithm 2, started at `(1,0)`. -/
def rhoWalk : Nat → Fin 5 × Fin 5
  | 0 => (1, 0)
  | t + 1 => let p := rhoWalk t; (p.2, 2 * p.1 + 3 * p.2)

/-- The offset Algorithm 2 gives to lane `(x,y)`: `(t+1)(t+2)/2` for the step `t < 24` at which
the walk visits `(x,y)`, and `0` for lane `(0,0)`, which it never visits. -/
def rhoOffset (x y : Fin 5) : Nat :=
  match (List.range 24).find? (fun t => rhoWalk t == (x, y)) with
  | some t => (t + 1) * (t + 2) / 2
  | none => 0

/-- Algorithm 2, rho. -/
def rho (A : StateArray) : StateArray :=
  fun x y z => A x y (z - Fin.ofNat 64 (rhoOffset x y))

/-- Algorithm 3, pi. -/
def pi (A : StateArray) : StateArray :=
  fun x y z => A (x + 3 * y) x z

/-- Algorithm 4, chi. -/
def chi (A : StateArray) : StateArray :=
  fun x y z => A x y z ^^ ((A (x + 1) y z ^^ true) && A (x + 2) y z)

/-- One step of the LFSR of Algorithm 5 on the 8-bit string `R` (`R = R[0] … R[7]`):
`R := 0 || R`, then `R[0], R[4], R[5], R[6]` are xored with `R[8]`, then truncate to 8. -/
def lfsrStep (R : List Bool) : List Bool :=
  let R := false :: R
  let r8 := R.getD 8 false
  [R.getD 0 false ^^ r8, R.getD 1 false, R.getD 2 false, R.getD 3 false, R.getD 4 false ^^ r8,
   R.getD 5 false ^^ r8, R.getD 6 false ^^ r8, R.getD 7 false]

/-- Algorithm 5, rc(t). -/
def rc (t : Nat) : Bool :=
  ((List.range (t % 255)).foldl (fun R _ => lfsrStep R)
    [true, false, false, false, false, false, false, false]).getD 0 false

/-- The round constant string RC of Algorithm 6: `RC[2^j - 1] = rc(j + 7 ir)` for `j = 0..6`. -/
def RC (ir : Nat) (z : Fin 64) : Bool :=
  match (List.range 7).find? (fun j => 2 ^ j - 1 == z.val) with
  | some j => rc (j + 7 * ir)
  | none => false

/-- Algorithm 6, iota. -/
def iota (ir : Nat) (A : StateArray) : StateArray :=
  fun x y z => if x = 0 ∧ y = 0 then A x y z ^^ RC ir z else A x y z

/-- Rnd(A, ir) (section 3.3). -/
def Rnd (A : StateArray) (ir : Nat) : StateArray := iota ir (chi (pi (rho (theta A))))

/-- Keccak-p[1600,24] on state arrays: rounds `0 … 23` (for `b = 1600`, `12 + 2l - nr = 0`). -/
def keccakArray (A : StateArray) : StateArray := (List.range 24).foldl Rnd A

abbrev Byte := BitVec 8

/-- Bit `i` of a byte string, under the FIPS 202 (B.1) convention: bit `8k+j` is bit `j`
(least significant first) of byte `k`. -/
def bitOf (s : List Byte) (i : Nat) : Bool := (s.getD (i / 8) 0).getLsbD (i % 8)

/-- `A[x,y,z] = S[w(5y+x)+z]` (section 3.1.2). -/
def ofBytes (s : List Byte) : StateArray := fun x y z => bitOf s (64 * (5 * y.val + x.val) + z.val)

/-- The byte with bits `f 0` (least significant) … `f 7`. -/
def byteOfBits (f : Nat → Bool) : Byte :=
  BitVec.ofBoolListLE [f 0, f 1, f 2, f 3, f 4, f 5, f 6, f 7]

/-- The inverse conversion (section 3.1.3), giving 200 bytes. -/
def toBytes (A : StateArray) : List Byte :=
  (List.range 200).map fun k => byteOfBits fun j =>
    let i := 8 * k + j
    A (Fin.ofNat 5 (i / 64)) (Fin.ofNat 5 (i / 320)) (Fin.ofNat 64 i)

/-- Keccak-f[1600] on 1600-bit strings held as 200 bytes. -/
def keccakF (s : List Byte) : List Byte := toBytes (keccakArray (ofBytes s))

/-- Xor of two equally long byte strings. -/
def xorBytes (a b : List Byte) : List Byte := List.zipWith (· ^^^ ·) a b

/-- Message, domain-separation bits and pad10*1 for a byte-aligned message (sections 5.1, 6.1, 6.2
and B.2): `sfx` is the byte holding the domain bits followed by the first `1` of the padding; then
come as few zero bits as possible and a final `1`, so that the length is a multiple of `r` bytes. -/
def pad (r : Nat) (sfx : Byte) (m : List Byte) : List Byte :=
  let q := r - m.length % r
  if q = 1 then m ++ [sfx ||| 0x80]
  else m ++ [sfx] ++ List.replicate (q - 2) 0 ++ [0x80]

/-- The absorbing phase (Algorithm 8, steps 1-6): `S := f(S ⊕ (P_i || 0^c))` over the `r`-byte
blocks of `P`. -/
def absorb (f : List Byte → List Byte) (r : Nat) (P : List Byte) : List Byte :=
  (List.range (P.length / r)).foldl
    (fun S i => f (xorBytes S ((P.drop (i * r)).take r ++ List.replicate (200 - r) 0)))
    (List.replicate 200 0)

/-- The squeezing phase (Algorithm 8, steps 7-10) as an infinite stream: block `j` of the output is
`Trunc_r(f^j(S))`. -/
def squeeze (f : List Byte → List Byte) (r : Nat) (S : List Byte) (k : Nat) : Byte :=
  (Nat.repeat f (k / r) S).getD (k % r) 0

/-- Byte `k` of `SPONGE[f, pad, r](m || suffix)`. -/
def spongeStream (f : List Byte → List Byte) (r : Nat) (sfx : Byte) (m : List Byte) (k : Nat) : Byte :=
  squeeze f r (absorb f r (pad r sfx m)) k

/-- Output bytes `k, …, k+n-1`. -/
def spongeBytes (f : List Byte → List Byte) (r : Nat) (sfx : Byte) (m : List Byte) (k n : Nat) :
    List Byte := (List.range n).map fun i => spongeStream f r sfx m (k + i)

/-- The six functions of FIPS 202, section 6 (byte-aligned messages): rate in bytes and suffix byte.
`SHA3-n`: capacity `2n`, suffix bits `01`; `SHAKE`: capacity `2*128`/`2*256`, suffix bits `1111`. -/
def sha3_224 (m : List Byte) : List Byte := spongeBytes keccakF 144 0x06 m 0 28
def sha3_256 (m : List Byte) : List Byte := spongeBytes keccakF 136 0x06 m 0 32
def sha3_384 (m : List Byte) : List Byte := spongeBytes keccakF 104 0x06 m 0 48
def sha3_512 (m : List Byte) : List Byte := spongeBytes keccakF 72 0x06 m 0 64
def shake128 (m : List Byte) (n : Nat) : List Byte := spongeBytes keccakF 168 0x1f m 0 n
def shake256 (m : List Byte) (n : Nat) : List Byte := spongeBytes keccakF 136 0x1f m 0 n

end Spec.Keccak
