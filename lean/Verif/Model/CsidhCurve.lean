import Verif.Model.CsidhArith
/-
Model of dh/csidh/curve.go.  As in Model.SidhCurve the functions are written over a record of field operations;
`limbOps` instantiates it with the word arithmetic of fp511.go, and that instance is the model of the Go code.

The Go routines overwrite temporaries and some calls pass the same point as argument and destination; here each
assignment is a `let`.  In all of them the fields of an argument are read before the destination that may coincide
with it is written.
-/
namespace Model.Csidh
open Model Model.Limb

/-- The operations of fp511.go the curve code calls. -/
structure Ops (F : Type) where
  zero : F
  one : F
  four : F
  add : F → F → F
  sub : F → F → F
  mul : F → F → F
  exp64 : F → W64 → F
  cswap : F → F → Byte → F × F

/-- fp511.go as an instance of `Ops` -/
def limbOps : Ops Fp where
  zero := List.replicate 8 0
  one := Csidh.one
  four := Csidh.four
  add := addRdc
  sub := subRdc
  mul := mulRdc
  exp64 := modExpRdc64
  cswap := cswap512

/-- csidh.go:11-14 `point` -/
structure Pt (F : Type) where
  x : F
  z : F

/-- csidh.go:17-20 `coeff` -/
structure Coef (F : Type) where
  a : F
  c : F

variable {F : Type} (o : Ops F)

/-- curve.go:8-22 `xAdd(PaQ, P, Q, PdQ)`: the new PaQ -/
def xAdd (P Q PdQ : Pt F) : Pt F :=
  let t0 := o.add P.x P.z
  let t1 := o.sub P.x P.z
  let t2 := o.add Q.x Q.z
  let t3 := o.sub Q.x Q.z
  let t0 := o.mul t0 t3
  let t1 := o.mul t1 t2
  let t2 := o.add t0 t1
  let t3 := o.sub t0 t1
  let t2 := o.mul t2 t2
  let t3 := o.mul t3 t3
  ⟨o.mul PdQ.z t2, o.mul PdQ.x t3⟩

/-- curve.go:28-43 `xDbl(Q, P, A)`: the new Q -/
def xDbl (P A : Pt F) : Pt F :=
  let t0 := o.add P.x P.z
  let t0 := o.mul t0 t0
  let t1 := o.sub P.x P.z
  let t1 := o.mul t1 t1
  let t2 := o.sub t0 t1
  let t1 := o.mul o.four t1
  let t1 := o.mul t1 A.z
  let qx := o.mul t0 t1
  let t0 := o.add A.z A.z
  let t0 := o.add t0 A.x
  let t0 := o.mul t0 t2
  let t0 := o.add t0 t1
  let qz := o.mul t0 t2
  ⟨qx, qz⟩

/-- curve.go:50-73 `xDblAdd(PaP, PaQ, P, Q, PdQ, A24)`: the new PaP and PaQ -/
def xDblAdd (P Q PdQ : Pt F) (A24 : Coef F) : Pt F × Pt F :=
  let t0 := o.add P.x P.z
  let t1 := o.sub P.x P.z
  let ppx := o.mul t0 t0
  let t2 := o.sub Q.x Q.z
  let pqx := o.add Q.x Q.z
  let t0 := o.mul t0 t2
  let ppz := o.mul t1 t1
  let t1 := o.mul t1 pqx
  let t2 := o.sub ppx ppz
  let ppz := o.mul ppz A24.c
  let ppx := o.mul ppx ppz
  let pqx := o.mul A24.a t2
  let pqz := o.sub t0 t1
  let ppz := o.add ppz pqx
  let pqx := o.add t0 t1
  let ppz := o.mul ppz t2
  let pqz := o.mul pqz pqz
  let pqx := o.mul pqx pqx
  let pqz := o.mul pqz PdQ.x
  let pqx := o.mul pqx PdQ.z
  (⟨ppx, ppz⟩, ⟨pqx, pqz⟩)

/-- curve.go:78-81 `cswappoint` -/
def cswappoint (P1 P2 : Pt F) (choice : Byte) : Pt F × Pt F :=
  let (x1, x2) := o.cswap P1.x P2.x choice
  let (z1, z2) := o.cswap P1.z P2.z choice
  (⟨x1, z1⟩, ⟨x2, z2⟩)

/-- `uint8(k[j>>6] >> (j&63) & 1)` -/
def bitAt (k : Fp) (j : Nat) : Byte := ((word k (j / 64) >>> (j % 64)) &&& 1).setWidth 8

/-- curve.go:99-106: the value of j after the loop that skips the leading zero bits, started at the argument -/
def topBit (k : Fp) : Nat → Nat
  | 0 => 0
  | j + 1 => if bitAt k (j + 1) ≠ 0 then j + 1 else topBit k j

/-- curve.go:110-116: the loop of `xMul`, `i` iterations left -/
def xMulLoop (P : Pt F) (A24 : Coef F) (k : Fp) : Nat → Pt F → Pt F → Byte → Pt F × Pt F
  | 0, Q, R, _ => (Q, R)
  | i + 1, Q, R, prev =>
    let bit := bitAt k i
    let (Q, R) := cswappoint o Q R (prev ^^^ bit)
    let (Q, R) := xDblAdd o Q R P A24
    xMulLoop P A24 k i Q R bit

/-- curve.go:87-119 `xMul(kP, P, co, k)`: the new kP -/
def xMul (P : Pt F) (co : Coef F) (k : Fp) : Pt F :=
  let A : Pt F := ⟨co.a, co.c⟩
  let R := P
  let a24 := o.add co.c co.c
  let a24 := o.add a24 co.a
  let c24 := o.mul co.c o.four
  let j := topBit k 511
  let Q := xDbl o P A
  let (Q, R) := xMulLoop o P ⟨a24, c24⟩ k j Q R 1
  let (Q, _) := cswappoint o Q R ((word k 0 &&& 1).setWidth 8)
  Q

/-- The variables of the loop of `xIso`. -/
structure IsoSt (F : Type) where
  M : List (Pt F)
  prod : Pt F
  Q : Pt F

/-- curve.go:162-176: one iteration of the loop of `xIso` -/
def isoStep (kern : Pt F) (S D : F) (i : Nat) (s : IsoSt F) : IsoSt F :=
  let M := if 2 ≤ i then s.M.set (i % 3) (xAdd o (s.M.getD ((i - 1) % 3) kern) kern (s.M.getD ((i - 2) % 3) kern)) else s.M
  let m := M.getD (i % 3) kern
  let t1 := o.sub m.x m.z
  let t0 := o.add m.x m.z
  let px := o.mul s.prod.x t1
  let pz := o.mul s.prod.z t0
  let t1 := o.mul t1 S
  let t0 := o.mul t0 D
  let t2 := o.add t0 t1
  let qx := o.mul s.Q.x t2
  let t2 := o.sub t0 t1
  let qz := o.mul s.Q.z t2
  ⟨M, ⟨px, pz⟩, ⟨qx, qz⟩⟩

/-- curve.go:162-176: the loop from `i` on, `k` iterations left -/
def isoLoop (kern : Pt F) (S D : F) : Nat → Nat → IsoSt F → IsoSt F
  | _, 0, s => s
  | i, k + 1, s => isoLoop kern S D (i + 1) k (isoStep o kern S D i s)

/-- curve.go:129-200 `xIso(img, co, kern, kernOrder)`: the new img and co -/
def xIso (img : Pt F) (co : Coef F) (kern : Pt F) (kernOrder : W64) : Pt F × Coef F :=
  let ec := o.add co.c co.c
  let ea := o.add co.a ec
  let ec := o.sub co.a ec
  let S := o.add img.x img.z
  let D := o.sub img.x img.z
  let prodx := o.sub kern.x kern.z
  let prodz := o.add kern.x kern.z
  let t1 := o.mul prodx S
  let t0 := o.mul prodz D
  let qx := o.add t0 t1
  let qz := o.sub t0 t1
  let m1 := xDbl o kern ⟨co.a, co.c⟩
  let s := isoLoop o kern S D 1 ((kernOrder >>> 1).toNat - 1) ⟨[kern, m1, ⟨o.zero, o.zero⟩], ⟨prodx, prodz⟩, ⟨qx, qz⟩⟩
  let qx := o.mul s.Q.x s.Q.x
  let qz := o.mul s.Q.z s.Q.z
  let ix := o.mul img.x qx
  let iz := o.mul img.z qz
  let ea := o.exp64 ea kernOrder
  let ec := o.exp64 ec kernOrder
  let px := o.mul s.prod.x s.prod.x
  let px := o.mul px px
  let px := o.mul px px
  let pz := o.mul s.prod.z s.prod.z
  let pz := o.mul pz pz
  let pz := o.mul pz pz
  let ec := o.mul ec px
  let ea := o.mul ea pz
  let a := o.add ea ec
  let c := o.sub ea ec
  let a := o.add a a
  (⟨ix, iz⟩, ⟨a, c⟩)

/-- curve.go:203-212 `montEval` -/
def montEval (A x : F) : F :=
  let r := o.mul x x
  let t := o.mul A x
  let r := o.add r t
  let r := o.add r o.one
  o.mul r x

end Model.Csidh
