import Verif.Model.SidhArith
/-
Model of dh/sidh/internal/{p434,p503,p751}/fp2.go and of the types of dh/sidh/common/types.go.  The three fp2.go
files are the same text up to names and the tables of `p34`.  Line numbers are those of p434.
-/
namespace Model.Sidh
open Model Model.Limb

/-- common/types.go:43-46 `Fp2` -/
@[ext] structure Fp2 where
  A : List W64
  B : List W64
deriving DecidableEq

/-- common/types.go:48-57 `DomainParams` -/
structure DomainParams where
  affineP : Fp2
  affineQ : Fp2
  affineR : Fp2
  isogenyStrategy : List Nat
  secretBitLen : Nat
  secretByteLen : Nat

/-- common/types.go:59-82 `SidhParams`; `prime` collects the constants of the package that implements the field
(selected in the code by `ID`). -/
structure SidhParams where
  id : Nat
  prime : Prime
  bytelen : Nat
  publicKeySize : Nat
  sharedSecretSize : Nat
  A : DomainParams
  B : DomainParams
  oneFp2 : Fp2
  halfFp2 : Fp2
  msgLen : Nat
  kemSize : Nat
  ciphertextSize : Nat
  initA : Fp2
  initC : Fp2

variable (P : Prime)

/-- fp2.go:12-16 `mulP` -/
def mulP (lhs rhs : List W64) : List W64 := rdcP P (mulW P lhs rhs)

/-- fp2.go:37-42: the odd powers, `lookup[i] = lookup[i-1] * xx`; `k` still to be made from `last`. -/
def p34Table (xx last : List W64) : Nat → List (List W64)
  | 0 => []
  | k + 1 =>
    let t := mulP P last xx
    t :: p34Table xx t k

/-- `k` times `mulP(dest, dest, dest)` -/
def sqrTimes (d : List W64) : Nat → List W64
  | 0 => d
  | k + 1 => sqrTimes (mulP P d d) k

/-- fp2.go:47-54: the main loop over the two tables.  A table entry `pow` gives `pow` squarings, also one when it
is 0. -/
def p34Loop (lookup : List (List W64)) : List W64 → List Nat → List Nat → List W64
  | d, pw :: pows, m :: muls =>
    p34Loop lookup (mulP P (sqrTimes P (mulP P d d) (pw - 1)) (lookup.getD m [])) pows muls
  | d, _, _ => d

/-- fp2.go:26-55 `p34` -/
def p34 (x : List W64) : List W64 :=
  let xx := mulP P x x
  let lookup := x :: p34Table P xx x 15
  p34Loop P lookup (lookup.getD P.initialMul []) P.powStrategy P.mulStrategy

/-- fp2.go:57-60 `add` -/
def add (lhs rhs : Fp2) : Fp2 := ⟨addP P lhs.A rhs.A, addP P lhs.B rhs.B⟩

/-- fp2.go:62-65 `sub` -/
def sub (lhs rhs : Fp2) : Fp2 := ⟨subP P lhs.A rhs.A, subP P lhs.B rhs.B⟩

/-- fp2.go:67-93 `mul`.  Every read of the arguments precedes the first write of `dest`, so that it may be one of
them. -/
def mul (lhs rhs : Fp2) : Fp2 :=
  let ac := mulW P lhs.A rhs.A
  let bd := mulW P lhs.B rhs.B
  let bMinA := subP P lhs.B lhs.A
  let cMinD := subP P rhs.A rhs.B
  let adPlusBc := mulW P bMinA cMinD
  let adPlusBc := adlP adPlusBc ac
  let adPlusBc := adlP adPlusBc bd
  let acMinBd := sulP P ac bd
  ⟨rdcP P acMinBd, rdcP P adPlusBc⟩

/-- fp2.go:99-130 `inv` -/
def inv (x : Fp2) : Fp2 :=
  let e1 := mulW P x.A x.A
  let e2 := mulW P x.B x.B
  let e1 := adlP e1 e2
  let f1 := rdcP P e1
  let f2 := mulP P f1 f1
  let f2 := p34 P f2
  let f2 := mulP P f2 f2
  let f2 := mulP P f2 f1
  let e1 := mulW P x.A f2
  let destA := rdcP P e1
  let f1 := subP P (List.replicate P.n 0) x.B
  let e1 := mulW P f1 f2
  ⟨destA, rdcP P e1⟩

/-- fp2.go:132-147 `sqr` -/
def sqr (x : Fp2) : Fp2 :=
  let a2 := addP P x.A x.A
  let aPlusB := addP P x.A x.B
  let aMinusB := subP P x.A x.B
  let a2MinB2 := mulW P aPlusB aMinusB
  let ab2 := mulW P a2 x.B
  ⟨rdcP P a2MinB2, rdcP P ab2⟩

/-- fp2.go:153-158 `cswap`, one of its two pairs -/
def cswap (x y : Fp2) (choice : Byte) : Fp2 × Fp2 :=
  let (xa, ya) := cswapP x.A y.A choice
  let (xb, yb) := cswapP x.B y.B choice
  (⟨xa, xb⟩, ⟨ya, yb⟩)

/-- fp2.go:165-174 `ToMontgomery` -/
def toMontgomery (x : Fp2) : Fp2 :=
  ⟨rdcP P (mulW P x.A P.r2), rdcP P (mulW P x.B P.r2)⟩

/-- fp2.go:182-195 `FromMontgomery`.  `copy(aR[:], in.A[:])` fills the low words of the zeroed `aR`. -/
def fromMontgomery (x : Fp2) : Fp2 :=
  ⟨modP P (rdcP P (x.A ++ List.replicate P.n 0)), modP P (rdcP P (x.B ++ List.replicate P.n 0))⟩

end Model.Sidh
