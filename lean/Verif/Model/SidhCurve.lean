import Verif.Model.SidhFp2
/-
Model of dh/sidh/internal/{p434,p503,p751}/curve.go and core.go.  The three copies of each file are the same text
(line numbers of curve.go are common to all; those of core.go are the ones of p503 and p751, p434 has 4 more lines
at the top).

The functions are written over a record `Ops` of field operations.  `limbOps` below instantiates it with the word
arithmetic of fp2.go: that instance is the model of the Go code.  Other instances are used in the proofs.

The Go routines overwrite temporaries; here each assignment is a `let`.
-/
namespace Model.Sidh
open Model

/-- The operations of fp2.go the curve code calls. -/
structure Ops (F : Type) where
  add : F → F → F
  sub : F → F → F
  mul : F → F → F
  sqr : F → F
  inv : F → F
  cswap : F → F → Byte → F × F

/-- fp2.go as an instance of `Ops` -/
def limbOps (P : Prime) : Ops Fp2 where
  add := Sidh.add P
  sub := Sidh.sub P
  mul := Sidh.mul P
  sqr := Sidh.sqr P
  inv := Sidh.inv P
  cswap := Sidh.cswap

/-- common/types.go:95-98 `ProjectivePoint` -/
structure Pt (F : Type) where
  X : F
  Z : F

/-- common/types.go:103-106 `ProjectiveCurveParameters` and 86-89 `CurveCoefficientsEquiv` -/
structure Coef (F : Type) where
  A : F
  C : F

/-- curve.go:11-14 `isogeny3` -/
structure Iso3 (F : Type) where
  K1 : F
  K2 : F

/-- curve.go:17-20 `isogeny4` -/
structure Iso4 (F : Type) where
  K1 : F
  K2 : F
  K3 : F

variable {F : Type} (o : Ops F)

/-- curve.go:27-46 `Jinvariant` -/
def jinvariant (c : Coef F) : F :=
  let j := o.sqr c.A
  let t1 := o.sqr c.C
  let t0 := o.add t1 t1
  let t0 := o.sub j t0
  let t0 := o.sub t0 t1
  let j := o.sub t0 t1
  let t1 := o.sqr t1
  let j := o.mul j t1
  let t0 := o.add t0 t0
  let t0 := o.add t0 t0
  let t1 := o.sqr t0
  let t0 := o.mul t0 t1
  let t0 := o.add t0 t0
  let t0 := o.add t0 t0
  let j := o.inv j
  o.mul t0 j

/-- curve.go:50-66 `RecoverCoordinateA`, the new `curve.A` (`curve.C` is left alone); `one` is `params.OneFp2` -/
def recoverCoordinateA (one xp xq xr : F) : F :=
  let t1 := o.add xp xq
  let t0 := o.mul xp xq
  let a := o.mul xr t1
  let a := o.add a t0
  let t0 := o.mul t0 xr
  let a := o.sub a one
  let t0 := o.add t0 t0
  let t1 := o.add t1 xr
  let t0 := o.add t0 t0
  let a := o.sqr a
  let t0 := o.inv t0
  let a := o.mul a t0
  o.sub a t1

/-- curve.go:69-79 `CalcCurveParamsEquiv3` -/
def calcCurveParamsEquiv3 (c : Coef F) : Coef F :=
  let c2 := o.add c.C c.C
  ⟨o.add c.A c2, o.sub c.A c2⟩

/-- curve.go:82-91 `CalcCurveParamsEquiv4` -/
def calcCurveParamsEquiv4 (c : Coef F) : Coef F :=
  let c2 := o.add c.C c.C
  ⟨o.add c.A c2, o.add c2 c2⟩

/-- curve.go:94-107 `CalcAplus2Over4` -/
def calcAplus2Over4 (c : Coef F) : F :=
  let tmp := o.add c.C c.C
  let ret := o.add c.A tmp
  let tmp := o.add tmp tmp
  let tmp := o.inv tmp
  o.mul ret tmp

/-- curve.go:110-117 `RecoverCurveCoefficients3` -/
def recoverCurveCoefficients3 (e : Coef F) : Coef F :=
  let a := o.add e.A e.C
  ⟨o.add a a, o.sub e.A e.C⟩

/-- curve.go:120-127 `RecoverCurveCoefficients4`; `half` is `params.HalfFp2` -/
def recoverCurveCoefficients4 (half : F) (e : Coef F) : Coef F :=
  let c := o.mul e.C half
  let a := o.sub e.A c
  ⟨a, o.mul c half⟩

/-- curve.go:132-161 `xDbladd`: (2P, P+Q) -/
def xDbladd (p q qmp : Pt F) (a24 : F) : Pt F × Pt F :=
  let t0 := o.add p.X p.Z
  let t1 := o.sub p.X p.Z
  let x2P := o.sqr t0
  let t2 := o.sub q.X q.Z
  let xPaQ := o.add q.X q.Z
  let t0 := o.mul t0 t2
  let z2P := o.mul t1 t1
  let t1 := o.mul t1 xPaQ
  let t2 := o.sub x2P z2P
  let x2P := o.mul x2P z2P
  let xPaQ := o.mul a24 t2
  let zPaQ := o.sub t0 t1
  let z2P := o.add xPaQ z2P
  let xPaQ := o.add t0 t1
  let z2P := o.mul z2P t2
  let zPaQ := o.sqr zPaQ
  let xPaQ := o.sqr xPaQ
  let zPaQ := o.mul qmp.X zPaQ
  let xPaQ := o.mul qmp.Z xPaQ
  (⟨x2P, z2P⟩, ⟨xPaQ, zPaQ⟩)

/-- curve.go:165-181 `Pow2k`, one iteration -/
def dblStep (c : Coef F) (p : Pt F) : Pt F :=
  let t0 := o.sub p.X p.Z
  let t1 := o.add p.X p.Z
  let t0 := o.sqr t0
  let t1 := o.sqr t1
  let z := o.mul c.C t0
  let x := o.mul z t1
  let t1 := o.sub t1 t0
  let t0 := o.mul c.A t1
  let z := o.add z t0
  ⟨x, o.mul z t1⟩

/-- curve.go:165-181 `Pow2k` -/
def pow2k (c : Coef F) : Nat → Pt F → Pt F
  | 0, p => p
  | k + 1, p => pow2k c k (dblStep o c p)

/-- curve.go:186-214 `Pow3k`, one iteration -/
def tplStep (c : Coef F) (p : Pt F) : Pt F :=
  let t0 := o.sub p.X p.Z
  let t2 := o.sqr t0
  let t1 := o.add p.X p.Z
  let t3 := o.sqr t1
  let t4 := o.add t1 t0
  let t0 := o.sub t1 t0
  let t1 := o.sqr t4
  let t1 := o.sub t1 t3
  let t1 := o.sub t1 t2
  let t5 := o.mul t3 c.A
  let t3 := o.mul t3 t5
  let t6 := o.mul t2 c.C
  let t2 := o.mul t2 t6
  let t3 := o.sub t2 t3
  let t2 := o.sub t5 t6
  let t1 := o.mul t2 t1
  let t2 := o.add t3 t1
  let t2 := o.sqr t2
  let x := o.mul t2 t4
  let t1 := o.sub t3 t1
  let t1 := o.sqr t1
  ⟨x, o.mul t1 t0⟩

/-- curve.go:186-214 `Pow3k` -/
def pow3k (c : Coef F) : Nat → Pt F → Pt F
  | 0, p => p
  | k + 1, p => pow3k c k (tplStep o c p)

/-- curve.go:219-230 `Fp2Batch3Inv` -/
def batch3Inv (x1 x2 x3 : F) : F × F × F :=
  let x1x2 := o.mul x1 x2
  let t := o.mul x1x2 x3
  let t := o.inv t
  let y1 := o.mul t x2
  let y1 := o.mul y1 x3
  let y2 := o.mul t x1
  let y2 := o.mul y2 x3
  let y3 := o.mul t x1x2
  (y1, y2, y3)

/-- fp2.go:153-158 `cswap` on the coordinates of two points -/
def cswapPt (p q : Pt F) (choice : Byte) : Pt F × Pt F :=
  let (px, qx) := o.cswap p.X q.X choice
  let (pz, qz) := o.cswap p.Z q.Z choice
  (⟨px, pz⟩, ⟨qx, qz⟩)

/-- Bit `i` of the scalar as read by curve.go:245, `scalar[i>>3] >> (i & 7) & 1`; `none` is the index panic. -/
def scalarBit (scalar : List Byte) (i : Nat) : Option Byte := do
  let b ← scalar[i / 8]?
  some ((b >>> (i % 8)) &&& 1)

/-- curve.go:244-250: the loop of `ScalarMul3Pt` from bit `i`, `k` iterations left -/
def ladderLoop (a24 : F) (scalar : List Byte) (i : Nat) : Nat → Pt F → Pt F → Pt F → Byte → Option (Pt F × Pt F × Byte)
  | 0, _, r1, r2, prev => some (r1, r2, prev)
  | k + 1, r0, r1, r2, prev => do
    let bit ← scalarBit scalar i
    let swap := prev ^^^ bit
    let (r1, r2) := cswapPt o r1 r2 swap
    let (r0, r2) := xDbladd o r0 r2 r1 a24
    ladderLoop a24 scalar (i + 1) k r0 r1 r2 bit

/-- curve.go:235-253 `ScalarMul3Pt` -/
def scalarMul3Pt (c : Coef F) (p q pmq : Pt F) (nbits : Nat) (scalar : List Byte) : Option (Pt F) := do
  let a24 := calcAplus2Over4 o c
  let (r1, r2, prev) ← ladderLoop o a24 scalar 0 nbits q p pmq 0
  some (cswapPt o r1 r2 prev).1

/-- curve.go:261-287 `isogeny3.GenerateCurve` -/
def gen3 (p : Pt F) : Coef F × Iso3 F :=
  let k1 := o.sub p.X p.Z
  let t0 := o.sqr k1
  let k2 := o.add p.X p.Z
  let t1 := o.sqr k2
  let t2 := o.add t0 t1
  let t3 := o.add k1 k2
  let t3 := o.sqr t3
  let t3 := o.sub t3 t2
  let t2 := o.add t1 t3
  let t3 := o.add t3 t0
  let t4 := o.add t3 t0
  let t4 := o.add t4 t4
  let t4 := o.add t1 t4
  let c := o.mul t2 t4
  let t4 := o.add t1 t2
  let t4 := o.add t4 t4
  let t4 := o.add t0 t4
  let t4 := o.mul t3 t4
  let t0 := o.sub t4 c
  (⟨o.add c t0, c⟩, ⟨k1, k2⟩)

/-- curve.go:294-310 `isogeny3.EvaluatePoint` -/
def eval3 (phi : Iso3 F) (p : Pt F) : Pt F :=
  let t0 := o.add p.X p.Z
  let t1 := o.sub p.X p.Z
  let t0 := o.mul phi.K1 t0
  let t1 := o.mul phi.K2 t1
  let t2 := o.add t0 t1
  let t0 := o.sub t1 t0
  let t2 := o.sqr t2
  let t0 := o.sqr t0
  ⟨o.mul p.X t2, o.mul p.Z t0⟩

/-- curve.go:319-334 `isogeny4.GenerateCurve` -/
def gen4 (p : Pt F) : Coef F × Iso4 F :=
  let k2 := o.sub p.X p.Z
  let k3 := o.add p.X p.Z
  let k1 := o.sqr p.Z
  let k1 := o.add k1 k1
  let c := o.sqr k1
  let k1 := o.add k1 k1
  let a := o.sqr p.X
  let a := o.add a a
  let a := o.sqr a
  (⟨a, c⟩, ⟨k1, k2, k3⟩)

/-- curve.go:341-362 `isogeny4.EvaluatePoint` -/
def eval4 (phi : Iso4 F) (p : Pt F) : Pt F :=
  let t0 := o.add p.X p.Z
  let t1 := o.sub p.X p.Z
  let xq := o.mul t0 phi.K2
  let zq := o.mul t1 phi.K3
  let t0 := o.mul t0 t1
  let t0 := o.mul t0 phi.K1
  let t1 := o.add xq zq
  let zq := o.sub xq zq
  let t1 := o.sqr t1
  let zq := o.sqr zq
  let xq := o.add t0 t1
  let t0 := o.sub zq t0
  ⟨o.mul xq t1, o.mul zq t0⟩

/-! ### core.go -/

/-- core.go:27-35 (and the other three copies): the inner loop of the traversal,
`for i <= stratSz-j { push (xR, i); k := strat[sIdx]; sIdx++; xR = [mult k] xR; i += k }`.
`lim` is `stratSz-j`; `rest` is `strat[sIdx:]`, reading beyond it is a panic (`none`); `pw k` is the multiplication
(`Pow2k(xR, &cparam, 2*k)` or `Pow3k(xR, &cparam, k)`).  The slices `points` and `indices` are one stack with the
last element first. -/
def descend {α : Type} (lim : Nat) (pw : Nat → α → α) : List Nat → List (α × Nat) → α → Nat → Option (List Nat × List (α × Nat) × α × Nat)
  | [], stk, xR, i => if i ≤ lim then none else some ([], stk, xR, i)
  | k :: rest, stk, xR, i =>
    if i ≤ lim then descend lim pw rest ((xR, i) :: stk) (pw k xR) (i + k) else some (k :: rest, stk, xR, i)

/-- core.go:26-48 `traverseTreePublicKeyA`, the outer loop, `n` iterations left (j = stratSz − n + 1); `extra` are the
points phiP, phiQ, phiR (none in the `SharedKey` versions).  Popping an empty stack is a panic. -/
def traverse4 : Nat → List Nat → List (Pt F × Nat) → Coef F → Pt F → Nat → List (Pt F) → Option (Pt F × List (Pt F))
  | 0, _, _, _, xR, _, extra => some (xR, extra)
  | n + 1, rest, stk, cparam, xR, i, extra => do
    let (rest, stk, xR, _) ← descend n (fun k => pow2k o cparam (2 * k)) rest stk xR i
    let (cparam, phi) := gen4 o xR
    let stk := stk.map fun e => (eval4 o phi e.1, e.2)
    let extra := extra.map (eval4 o phi)
    match stk with
    | [] => none
    | (xR, i) :: stk => traverse4 n rest stk cparam xR i extra

/-- core.go:97-120 `traverseTreePublicKeyB`, the outer loop -/
def traverse3 : Nat → List Nat → List (Pt F × Nat) → Coef F → Pt F → Nat → List (Pt F) → Option (Pt F × List (Pt F))
  | 0, _, _, _, xR, _, extra => some (xR, extra)
  | n + 1, rest, stk, cparam, xR, i, extra => do
    let (rest, stk, xR, _) ← descend n (fun k => pow3k o cparam k) rest stk xR i
    let (cparam, phi) := gen3 o xR
    let stk := stk.map fun e => (eval3 o phi e.1, e.2)
    let extra := extra.map (eval3 o phi)
    match stk with
    | [] => none
    | (xR, i) :: stk => traverse3 n rest stk cparam xR i extra

/-- core.go:16-49 `traverseTreePublicKeyA` and 53-83 `traverseTreeSharedKeyA` (with no extra points) -/
def traverseTreeA (strat : List Nat) (curve : Coef F) (xR : Pt F) (extra : List (Pt F)) : Option (Pt F × List (Pt F)) :=
  traverse4 o strat.length strat [] (calcCurveParamsEquiv4 o curve) xR 0 extra

/-- core.go:87-121 `traverseTreePublicKeyB` and 125-155 `traverseTreeSharedKeyB` (with no extra points) -/
def traverseTreeB (strat : List Nat) (curve : Coef F) (xR : Pt F) (extra : List (Pt F)) : Option (Pt F × List (Pt F)) :=
  traverse3 o strat.length strat [] (calcCurveParamsEquiv3 o curve) xR 0 extra

/-- The constants of `params` the curve code uses. -/
structure CParams (F : Type) where
  one : F
  half : F
  initA : F
  initC : F
  pA : F
  qA : F
  rA : F
  pB : F
  qB : F
  rB : F
  stratA : List Nat
  stratB : List Nat
  bitsA : Nat
  bitsB : Nat

/-- Three field elements: x-coordinates of P, Q, P−Q. -/
structure Tri (F : Type) where
  p : F
  q : F
  r : F

/-- core.go:159-189 `PublicKeyGenA` -/
def publicKeyGenA (c : CParams F) (prv : List Byte) : Option (Tri F) := do
  let xR ← scalarMul3Pt o ⟨c.initA, c.initC⟩ ⟨c.pA, c.one⟩ ⟨c.qA, c.one⟩ ⟨c.rA, c.one⟩ c.bitsA prv
  let (xR, extra) ← traverseTreeA o c.stratA ⟨c.initA, c.initC⟩ xR [⟨c.pB, c.one⟩, ⟨c.qB, c.one⟩, ⟨c.rB, c.one⟩]
  let (_, phi) := gen4 o xR
  match extra with
  | [xPB, xQB, xRB] =>
    let xPA := eval4 o phi xPB
    let xQA := eval4 o phi xQB
    let xRA := eval4 o phi xRB
    let (iP, iQ, iR) := batch3Inv o xPA.Z xQA.Z xRA.Z
    some ⟨o.mul xPA.X iP, o.mul xQA.X iQ, o.mul xRA.X iR⟩
  | _ => none

/-- core.go:193-222 `PublicKeyGenB` -/
def publicKeyGenB (c : CParams F) (prv : List Byte) : Option (Tri F) := do
  let xR ← scalarMul3Pt o ⟨c.initA, c.initC⟩ ⟨c.pB, c.one⟩ ⟨c.qB, c.one⟩ ⟨c.rB, c.one⟩ c.bitsB prv
  let (xR, extra) ← traverseTreeB o c.stratB ⟨c.initA, c.initC⟩ xR [⟨c.pA, c.one⟩, ⟨c.qA, c.one⟩, ⟨c.rA, c.one⟩]
  let (_, phi) := gen3 o xR
  match extra with
  | [xPA, xQA, xRA] =>
    let xPB := eval3 o phi xPA
    let xQB := eval3 o phi xQA
    let xRB := eval3 o phi xRA
    let (iP, iQ, iR) := batch3Inv o xPB.Z xQB.Z xRB.Z
    some ⟨o.mul xPB.X iP, o.mul xQB.X iQ, o.mul xRB.X iR⟩
  | _ => none

/-- core.go:229-254 `DeriveSecretA` up to the j-invariant -/
def deriveA (c : CParams F) (prv : List Byte) (pub : Tri F) : Option F := do
  let a := recoverCoordinateA o c.one pub.p pub.q pub.r
  let cparam : Coef F := ⟨a, c.initC⟩
  let xR ← scalarMul3Pt o cparam ⟨pub.p, c.one⟩ ⟨pub.q, c.one⟩ ⟨pub.r, c.one⟩ c.bitsA prv
  let (xR, _) ← traverseTreeA o c.stratA cparam xR []
  let (e, _) := gen4 o xR
  some (jinvariant o (recoverCurveCoefficients4 o c.half e))

/-- core.go:257-282 `DeriveSecretB` up to the j-invariant -/
def deriveB (c : CParams F) (prv : List Byte) (pub : Tri F) : Option F := do
  let a := recoverCoordinateA o c.one pub.p pub.q pub.r
  let cparam : Coef F := ⟨a, c.initC⟩
  let xR ← scalarMul3Pt o cparam ⟨pub.p, c.one⟩ ⟨pub.q, c.one⟩ ⟨pub.r, c.one⟩ c.bitsB prv
  let (xR, _) ← traverseTreeB o c.stratB cparam xR []
  let (e, _) := gen3 o xR
  some (jinvariant o (recoverCurveCoefficients3 o e))

/-- The constants of a parameter set. -/
def SidhParams.curve (s : SidhParams) : CParams Fp2 where
  one := s.oneFp2
  half := s.halfFp2
  initA := s.initA
  initC := s.initC
  pA := s.A.affineP
  qA := s.A.affineQ
  rA := s.A.affineR
  pB := s.B.affineP
  qB := s.B.affineQ
  rB := s.B.affineR
  stratA := s.A.isogenyStrategy
  stratB := s.B.isogenyStrategy
  bitsA := s.A.secretBitLen
  bitsB := s.B.secretBitLen

end Model.Sidh
