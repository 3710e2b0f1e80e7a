import Verif.Model.Limb
/-
Model of dh/sidh/internal/{p434,p503,p751}/arith_generic.go.  The three files are the same text (generated from
templates/arith_generic.gotemp) up to the constants, collected in `Prime`.  Line numbers are those of p434.

`common.Fp` is an array of 12 words of which these functions read and write the first FpWords; the model keeps
only those.  (The others are zero in every constant and nothing writes them.)  `common.FpX2` likewise has
2·FpWords words.
-/
namespace Model.Sidh
open Model Model.Limb

/-- The constants of one field package (params.go). -/
structure Prime where
  /-- `FpWords` -/
  n : Nat
  /-- `P434` -/
  p : List W64
  /-- `P434x2` -/
  px2 : List W64
  /-- `P434p1` -/
  p1 : List W64
  /-- `P434R2` -/
  r2 : List W64
  /-- `P434p1Zeros` -/
  p1Zeros : Nat
  /-- `powStrategy` of fp2.go -/
  powStrategy : List Nat
  /-- `mulStrategy` of fp2.go -/
  mulStrategy : List Nat
  /-- `initialMul` of fp2.go -/
  initialMul : Nat

variable (P : Prime)

/-- arith_generic.go:15-35 `addP434` -/
def addP (x y : List W64) : List W64 :=
  let (z, _) := addLoop x y 0
  let (z, carry) := subLoop z P.px2 0
  let mask := 0 - carry
  (addLoop z (maskWords P.px2 mask) 0).1

/-- arith_generic.go:38-51 `subP434` -/
def subP (x y : List W64) : List W64 :=
  let (z, borrow) := subLoop x y 0
  let mask := 0 - borrow
  (addLoop z (maskWords P.px2 mask) 0).1

/-- arith_generic.go:58-67 `cswapP434` -/
def cswapP (x y : List W64) (choice : Byte) : List W64 × List W64 :=
  cswapWords (0 - choice.setWidth 64) x y

/-- arith_generic.go:78-97: the first loop of `rdcP434` at index `i`, `k` iterations left, `z` written so far. -/
def rdcLow (x : List W64) (z : List W64) (s : Acc) (i : Nat) : Nat → List W64 × Acc
  | 0 => (z, s)
  | k + 1 =>
    let s := macCol z P.p1 i ((forJ 0 i).filter fun j => j + P.p1Zeros < i + 1) s
    let s := s.addw (word x i)
    rdcLow x (z ++ [s.v]) s.shift (i + 1) k

/-- arith_generic.go:99-118: the second loop at index `i`, `k` iterations left; `count` is its value before the
iteration. -/
def rdcHigh (x : List W64) (z : List W64) (s : Acc) (count i : Nat) : Nat → List W64 × Acc
  | 0 => (z, s)
  | k + 1 =>
    let count := if 0 < count then count - 1 else count
    let s := macCol z P.p1 i ((forJ (i - P.n + 1) P.n).filter fun j => j < P.n - count) s
    let s := s.addw (word x i)
    rdcHigh x (z.set (i - P.n) s.v) s.shift count (i + 1) k

/-- arith_generic.go:71-121 `rdcP434`.  What `z` held before is not read. -/
def rdcP (x : List W64) : List W64 :=
  let (z, s) := rdcLow P x [] ⟨0, 0, 0⟩ 0 P.n
  let (z, s) := rdcHigh P x z s P.p1Zeros P.n (P.n - 1)
  let (v, _) := add64 s.v (word x (2 * P.n - 1)) 0
  z.set (P.n - 1) v

/-- arith_generic.go:128-139: the first loop of `mulP434`. -/
def mulLow (x y : List W64) (s : Acc) (i : Nat) : Nat → List W64 × Acc
  | 0 => ([], s)
  | k + 1 =>
    let s := macCol x y i (forJ 0 (i + 1)) s
    let (z, s') := mulLow x y s.shift (i + 1) k
    (s.v :: z, s')

/-- arith_generic.go:141-151: the second loop. -/
def mulHigh (x y : List W64) (s : Acc) (i : Nat) : Nat → List W64 × Acc
  | 0 => ([], s)
  | k + 1 =>
    let s := macCol x y i (forJ (i - P.n + 1) P.n) s
    let (z, s') := mulHigh x y s.shift (i + 1) k
    (s.v :: z, s')

/-- arith_generic.go:123-154 `mulP434` -/
def mulW (x y : List W64) : List W64 :=
  let (z, s) := mulLow x y ⟨0, 0, 0⟩ 0 P.n
  let (z', s) := mulHigh P x y s P.n (P.n - 1)
  z ++ z' ++ [s.v]

/-- arith_generic.go:157-162 `adlP434` -/
def adlP (x y : List W64) : List W64 := (addLoop x y 0).1

/-- arith_generic.go:165-177 `modP434` -/
def modP (x : List W64) : List W64 :=
  let (x, borrow) := subLoop x P.p 0
  let mask := 0 - borrow
  (addLoop x (maskWords P.p mask) 0).1

/-- arith_generic.go:180-192 `sulP434` -/
def sulP (x y : List W64) : List W64 :=
  let (z, borrow) := subLoop x y 0
  let mask := 0 - borrow
  z.take P.n ++ (addLoop (z.drop P.n) (maskWords P.p mask) 0).1

end Model.Sidh
