import Verif.Model.SidhCurve
/-
dh/sidh/internal/{p434,p503,p751}/fp2.go and the routines of curve.go that write through pointers, on a memory that maps
locations to elements of the quadratic field.  A call may pass the same location as destination and as argument; the
halves A and B of an element are read and written in the order of the code.  The operations on the halves may have
their destination among their arguments (Model.SidhAlias).

Local variables are values; the arguments `params.OneFp2` and `params.HalfFp2` are constants.
-/
namespace Model.Sidh.Mem
open Model Model.Limb Model.Sidh

variable {L : Type} [DecidableEq L]

/-- `*l = v` -/
def put {V : Type} (m : L → V) (l : L) (v : V) : L → V := fun b => if b = l then v else m b

/-- `l.A = v` -/
def setA (m : L → Fp2) (l : L) (v : List W64) : L → Fp2 := fun b => if b = l then ⟨v, (m b).B⟩ else m b

/-- `l.B = v` -/
def setB (m : L → Fp2) (l : L) (v : List W64) : L → Fp2 := fun b => if b = l then ⟨(m b).A, v⟩ else m b

section fp2
variable (P : Prime)

/-- fp2.go:12-16 `mulP(dest, lhs, rhs)` on a memory of words -/
def mulPM (dest lhs rhs : L) (m : L → List W64) : L → List W64 :=
  let ab := mulW P (m lhs) (m rhs)
  put m dest (rdcP P ab)

/-- `k` times `mulP(dest, dest, dest)` -/
def sqrTimesM (dest : L) (m : L → List W64) : Nat → L → List W64
  | 0 => m
  | k + 1 => sqrTimesM dest (mulPM P dest dest dest m) k

/-- fp2.go:47-54: the main loop of `p34`; the entries of `lookup` are local -/
def p34LoopM (dest : L) (lookup : List (List W64)) : (L → List W64) → List Nat → List Nat → L → List W64
  | m, pw :: pows, e :: muls =>
    let m := mulPM P dest dest dest m
    let m := sqrTimesM P dest m (pw - 1)
    let m := put m dest (rdcP P (mulW P (m dest) (lookup.getD e [])))
    p34LoopM dest lookup m pows muls
  | m, _, _ => m

/-- fp2.go:26-55 `p34(dest, x)` -/
def p34M (dest x : L) (m : L → List W64) : L → List W64 :=
  let xx := mulP P (m x) (m x)
  let lookup := m x :: p34Table P xx (m x) 15
  let m := put m dest (lookup.getD P.initialMul [])
  p34LoopM P dest lookup m P.powStrategy P.mulStrategy

/-- fp2.go:57-60 `add(dest, lhs, rhs)` -/
def addM (dest lhs rhs : L) (m : L → Fp2) : L → Fp2 :=
  let m := setA m dest (addP P (m lhs).A (m rhs).A)
  setB m dest (addP P (m lhs).B (m rhs).B)

/-- fp2.go:62-65 `sub(dest, lhs, rhs)` -/
def subM (dest lhs rhs : L) (m : L → Fp2) : L → Fp2 :=
  let m := setA m dest (subP P (m lhs).A (m rhs).A)
  setB m dest (subP P (m lhs).B (m rhs).B)

/-- fp2.go:67-93 `mul(dest, lhs, rhs)` -/
def mulM (dest lhs rhs : L) (m : L → Fp2) : L → Fp2 :=
  let ac := mulW P (m lhs).A (m rhs).A
  let bd := mulW P (m lhs).B (m rhs).B
  let bMinA := subP P (m lhs).B (m lhs).A
  let cMinD := subP P (m rhs).A (m rhs).B
  let adPlusBc := mulW P bMinA cMinD
  let adPlusBc := adlP adPlusBc ac
  let adPlusBc := adlP adPlusBc bd
  let m := setB m dest (rdcP P adPlusBc)
  let acMinBd := sulP P ac bd
  setA m dest (rdcP P acMinBd)

/-- fp2.go:99-130 `inv(dest, x)`.  In `p34(&f2, &f2)` the destination is the argument. -/
def invM (dest x : L) (m : L → Fp2) : L → Fp2 :=
  let e1 := mulW P (m x).A (m x).A
  let e2 := mulW P (m x).B (m x).B
  let e1 := adlP e1 e2
  let f1 := rdcP P e1
  let f2 := mulP P f1 f1
  let f2 := p34M P () () (fun _ => f2) ()
  let f2 := mulP P f2 f2
  let f2 := mulP P f2 f1
  let e1 := mulW P (m x).A f2
  let m := setA m dest (rdcP P e1)
  let f1 := subP P (List.replicate P.n 0) (m x).B
  let e1 := mulW P f1 f2
  setB m dest (rdcP P e1)

/-- fp2.go:132-147 `sqr(dest, x)` -/
def sqrM (dest x : L) (m : L → Fp2) : L → Fp2 :=
  let a2 := addP P (m x).A (m x).A
  let aPlusB := addP P (m x).A (m x).B
  let aMinusB := subP P (m x).A (m x).B
  let a2MinB2 := mulW P aPlusB aMinusB
  let ab2 := mulW P a2 (m x).B
  let m := setA m dest (rdcP P a2MinB2)
  setB m dest (rdcP P ab2)

/-- fp2.go:153-158 `cswap(xPx, xPz, xQx, xQz, choice)` -/
def cswapM (xPx xPz xQx xQz : L) (choice : Byte) (m : L → Fp2) : L → Fp2 :=
  let (a, b) := cswapP (m xPx).A (m xQx).A choice
  let m := setA (setA m xPx a) xQx b
  let (a, b) := cswapP (m xPx).B (m xQx).B choice
  let m := setB (setB m xPx a) xQx b
  let (a, b) := cswapP (m xPz).A (m xQz).A choice
  let m := setA (setA m xPz a) xQz b
  let (a, b) := cswapP (m xPz).B (m xQz).B choice
  setB (setB m xPz a) xQz b

/-- fp2.go:165-174 `ToMontgomery(out, in)` -/
def toMontgomeryM (out inp : L) (m : L → Fp2) : L → Fp2 :=
  let m := setA m out (rdcP P (mulW P (m inp).A P.r2))
  setB m out (rdcP P (mulW P (m inp).B P.r2))

/-- fp2.go:182-195 `FromMontgomery(out, in)`: `modP(&out.A)` works in place -/
def fromMontgomeryM (out inp : L) (m : L → Fp2) : L → Fp2 :=
  let m := setA m out (rdcP P ((m inp).A ++ List.replicate P.n 0))
  let m := setA m out (modP P (m out).A)
  let m := setB m out (rdcP P ((m inp).B ++ List.replicate P.n 0))
  setB m out (modP P (m out).B)

end fp2

/-! ### curve.go -/

variable {F : Type} (o : Ops F)

/-- curve.go:27-46 `Jinvariant(cparams, j)`; A and C are the locations of the fields of cparams -/
def jinvariantM (A C j : L) (m : L → F) : L → F :=
  let m := put m j (o.sqr (m A))
  let t1 := o.sqr (m C)
  let t0 := o.add t1 t1
  let t0 := o.sub (m j) t0
  let t0 := o.sub t0 t1
  let m := put m j (o.sub t0 t1)
  let t1 := o.sqr t1
  let m := put m j (o.mul (m j) t1)
  let t0 := o.add t0 t0
  let t0 := o.add t0 t0
  let t1 := o.sqr t0
  let t0 := o.mul t0 t1
  let t0 := o.add t0 t0
  let t0 := o.add t0 t0
  let m := put m j (o.inv (m j))
  put m j (o.mul t0 (m j))

/-- curve.go:50-66 `RecoverCoordinateA(curve, xp, xq, xr)`; `a` is the location of curve.A -/
def recoverCoordinateAM (one : F) (a xp xq xr : L) (m : L → F) : L → F :=
  let t1 := o.add (m xp) (m xq)
  let t0 := o.mul (m xp) (m xq)
  let m := put m a (o.mul (m xr) t1)
  let m := put m a (o.add (m a) t0)
  let t0 := o.mul t0 (m xr)
  let m := put m a (o.sub (m a) one)
  let t0 := o.add t0 t0
  let t1 := o.add t1 (m xr)
  let t0 := o.add t0 t0
  let m := put m a (o.sqr (m a))
  let t0 := o.inv t0
  let m := put m a (o.mul (m a) t0)
  put m a (o.sub (m a) t1)

/-- curve.go:110-117 `RecoverCurveCoefficients3(cparams, coefEq)`: a and c of the destination, A and C of the argument -/
def recoverCurveCoefficients3M (a c A C : L) (m : L → F) : L → F :=
  let m := put m a (o.add (m A) (m C))
  let m := put m a (o.add (m a) (m a))
  put m c (o.sub (m A) (m C))

/-- curve.go:120-127 `RecoverCurveCoefficients4(cparams, coefEq)` -/
def recoverCurveCoefficients4M (half : F) (a c A C : L) (m : L → F) : L → F :=
  let m := put m c (o.mul (m C) half)
  let m := put m a (o.sub (m A) (m c))
  put m c (o.mul (m c) half)

/-- curve.go:165-181 `Pow2k(xP, params, k)`, one iteration: x and z are the fields of xP, A and C those of params -/
def dblStepM (x z A C : L) (m : L → F) : L → F :=
  let t0 := o.sub (m x) (m z)
  let t1 := o.add (m x) (m z)
  let t0 := o.sqr t0
  let t1 := o.sqr t1
  let m := put m z (o.mul (m C) t0)
  let m := put m x (o.mul (m z) t1)
  let t1 := o.sub t1 t0
  let t0 := o.mul (m A) t1
  let m := put m z (o.add (m z) t0)
  put m z (o.mul (m z) t1)

/-- curve.go:165-181 `Pow2k(xP, params, k)` -/
def pow2kM (x z A C : L) : Nat → (L → F) → L → F
  | 0, m => m
  | k + 1, m => pow2kM x z A C k (dblStepM o x z A C m)

/-- curve.go:186-214 `Pow3k(xP, params, k)`, one iteration -/
def tplStepM (x z A C : L) (m : L → F) : L → F :=
  let t0 := o.sub (m x) (m z)
  let t2 := o.sqr t0
  let t1 := o.add (m x) (m z)
  let t3 := o.sqr t1
  let t4 := o.add t1 t0
  let t0 := o.sub t1 t0
  let t1 := o.sqr t4
  let t1 := o.sub t1 t3
  let t1 := o.sub t1 t2
  let t5 := o.mul t3 (m A)
  let t3 := o.mul t3 t5
  let t6 := o.mul t2 (m C)
  let t2 := o.mul t2 t6
  let t3 := o.sub t2 t3
  let t2 := o.sub t5 t6
  let t1 := o.mul t2 t1
  let t2 := o.add t3 t1
  let t2 := o.sqr t2
  let m := put m x (o.mul t2 t4)
  let t1 := o.sub t3 t1
  let t1 := o.sqr t1
  put m z (o.mul t1 t0)

/-- curve.go:186-214 `Pow3k(xP, params, k)` -/
def pow3kM (x z A C : L) : Nat → (L → F) → L → F
  | 0, m => m
  | k + 1, m => pow3kM x z A C k (tplStepM o x z A C m)

/-- curve.go:219-230 `Fp2Batch3Inv(x1, x2, x3, y1, y2, y3)` -/
def batch3InvM (x1 x2 x3 y1 y2 y3 : L) (m : L → F) : L → F :=
  let x1x2 := o.mul (m x1) (m x2)
  let t := o.mul x1x2 (m x3)
  let t := o.inv t
  let m := put m y1 (o.mul t (m x2))
  let m := put m y1 (o.mul (m y1) (m x3))
  let m := put m y2 (o.mul t (m x1))
  let m := put m y2 (o.mul (m y2) (m x3))
  put m y3 (o.mul t x1x2)

end Model.Sidh.Mem
