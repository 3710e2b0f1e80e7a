import Verif.Model.SidhCurve
/-
What an observer of the timing of the SIDH code could see: the code of fp2.go, curve.go and core.go (of
dh/sidh/internal/{p434,p503,p751}) once more, this time writing down every call of a routine of the field arithmetic,
every outcome of a condition and every index used to read a table or a slice, in the order of the Go text.

The values computed are those of Model/SidhFp2.lean and Model/SidhCurve.lean (`Lemmas/SidhSteps.lean` proves it).  Line numbers
are as in these two files.  Inside a routine of the field arithmetic nothing is recorded: these routines are the
assembly of arith_amd64.s and arith_arm64.s, or the loops of arith_generic.go, whose bounds are constants.
-/
namespace Model.Sidh
open Model Model.Limb

/-- The routines of arith_decl.go, or arith_generic.go. -/
inductive Fn
  | add | sub | mul | rdc | adl | sul | mod | cswap
deriving DecidableEq

/-- What is read at an index: the bytes of the private key, the strategy of the isogeny tree, the stack of points,
the odd powers of `p34` and its two tables. -/
inductive Tab
  | key | strategy | points | powers | powTable | mulTable
deriving DecidableEq

/-- An observable step. -/
inductive Ev
  /-- a call of a routine of the field arithmetic -/
  | call (f : Fn)
  /-- a condition was evaluated, with this outcome -/
  | test (b : Bool)
  /-- a table or slice was read at this index -/
  | load (t : Tab) (i : Nat)
  /-- a slice of this length was extended by `append` -/
  | push (n : Nat)
  /-- n bytes were copied, compared or combined byte by byte -/
  | bytes (n : Nat)
  /-- n bytes were asked of the random source -/
  | rng (n : Nat)
  /-- SHAKE256: `Reset`, `Write` of n bytes, `Read` of n bytes -/
  | reset
  | write (n : Nat)
  | read (n : Nat)
deriving DecidableEq

/-- A computation: its result, `none` for a panic, and what could be seen of it. -/
def Tr (α : Type) : Type := Option α × List Ev

namespace Tr

def val {α : Type} (m : Tr α) : Option α := m.1
def log {α : Type} (m : Tr α) : List Ev := m.2

/-- One after the other; a panic is the end. -/
def bind {α β : Type} (m : Tr α) (f : α → Tr β) : Tr β :=
  match m with
  | (none, l) => (none, l)
  | (some a, l) => ((f a).1, l ++ (f a).2)

instance : Monad Tr where
  pure a := (some a, [])
  bind := Tr.bind

/-- Something is seen. -/
def tell (l : List Ev) : Tr Unit := (some (), l)

/-- A value comes out of something that is seen as `l`. -/
def step {α : Type} (v : α) (l : List Ev) : Tr α := (some v, l)

/-- The same where there may be a panic. -/
def lift {α : Type} (v : Option α) (l : List Ev := []) : Tr α := (v, l)

/-- A panic. -/
def panic {α : Type} : Tr α := (none, [])

end Tr
open Tr

/-- A call of a routine. -/
def call {α : Type} (f : Fn) (v : α) : Tr α := step v [.call f]

/-! ### fp2.go -/
section fp2
variable (P : Prime)

/-- fp2.go:12-16 `mulP` -/
def mulPT (lhs rhs : List W64) : Tr (List W64) := do
  let ab ← call .mul (mulW P lhs rhs)
  call .rdc (rdcP P ab)

/-- fp2.go:40-42: the loop making the odd powers, at index `i`, `k` iterations left -/
def p34TableT (xx last : List W64) (i : Nat) : Nat → Tr (List (List W64))
  | 0 => do
    tell [.test false]
    pure []
  | k + 1 => do
    tell [.test true, .load .powers (i - 1)]
    let t ← mulPT P last xx
    let ts ← p34TableT xx t (i + 1) k
    pure (t :: ts)

/-- fp2.go:49-51: the loop `for j := uint8(1); j < powStrategy[i]; j++`, `k` iterations left -/
def sqrTimesT (i : Nat) (d : List W64) : Nat → Tr (List W64)
  | 0 => do
    tell [.load .powTable i, .test false]
    pure d
  | k + 1 => do
    tell [.load .powTable i, .test true]
    let d ← mulPT P d d
    sqrTimesT i d k

/-- fp2.go:47-53: the main loop from index `i` -/
def p34LoopT (lookup : List (List W64)) (i : Nat) : List W64 → List Nat → List Nat → Tr (List W64)
  | d, pw :: pows, m :: muls => do
    tell [.test true]
    let d ← mulPT P d d
    let d ← sqrTimesT P i d (pw - 1)
    tell [.load .mulTable i, .load .powers m]
    let d ← mulPT P d (lookup.getD m [])
    p34LoopT lookup (i + 1) d pows muls
  | d, _, _ => do
    tell [.test false]
    pure d

/-- fp2.go:26-55 `p34` -/
def p34T (x : List W64) : Tr (List W64) := do
  let xx ← mulPT P x x
  let t ← p34TableT P xx x 1 15
  let lookup := x :: t
  tell [.load .powers P.initialMul]
  p34LoopT P lookup 0 (lookup.getD P.initialMul []) P.powStrategy P.mulStrategy

/-- fp2.go:57-60 `add` -/
def addT (lhs rhs : Fp2) : Tr Fp2 := do
  let a ← call .add (addP P lhs.A rhs.A)
  let b ← call .add (addP P lhs.B rhs.B)
  pure ⟨a, b⟩

/-- fp2.go:62-65 `sub` -/
def subT (lhs rhs : Fp2) : Tr Fp2 := do
  let a ← call .sub (subP P lhs.A rhs.A)
  let b ← call .sub (subP P lhs.B rhs.B)
  pure ⟨a, b⟩

/-- fp2.go:67-93 `mul` -/
def mulT (lhs rhs : Fp2) : Tr Fp2 := do
  let ac ← call .mul (mulW P lhs.A rhs.A)
  let bd ← call .mul (mulW P lhs.B rhs.B)
  let bMinA ← call .sub (subP P lhs.B lhs.A)
  let cMinD ← call .sub (subP P rhs.A rhs.B)
  let adPlusBc ← call .mul (mulW P bMinA cMinD)
  let adPlusBc ← call .adl (adlP adPlusBc ac)
  let adPlusBc ← call .adl (adlP adPlusBc bd)
  let destB ← call .rdc (rdcP P adPlusBc)
  let acMinBd ← call .sul (sulP P ac bd)
  let destA ← call .rdc (rdcP P acMinBd)
  pure ⟨destA, destB⟩

/-- fp2.go:99-130 `inv` -/
def invT (x : Fp2) : Tr Fp2 := do
  let e1 ← call .mul (mulW P x.A x.A)
  let e2 ← call .mul (mulW P x.B x.B)
  let e1 ← call .adl (adlP e1 e2)
  let f1 ← call .rdc (rdcP P e1)
  let f2 ← mulPT P f1 f1
  let f2 ← p34T P f2
  let f2 ← mulPT P f2 f2
  let f2 ← mulPT P f2 f1
  let e1 ← call .mul (mulW P x.A f2)
  let destA ← call .rdc (rdcP P e1)
  let f1 ← call .sub (subP P (List.replicate P.n 0) x.B)
  let e1 ← call .mul (mulW P f1 f2)
  let destB ← call .rdc (rdcP P e1)
  pure ⟨destA, destB⟩

/-- fp2.go:132-147 `sqr` -/
def sqrT (x : Fp2) : Tr Fp2 := do
  let a2 ← call .add (addP P x.A x.A)
  let aPlusB ← call .add (addP P x.A x.B)
  let aMinusB ← call .sub (subP P x.A x.B)
  let a2MinB2 ← call .mul (mulW P aPlusB aMinusB)
  let ab2 ← call .mul (mulW P a2 x.B)
  let destA ← call .rdc (rdcP P a2MinB2)
  let destB ← call .rdc (rdcP P ab2)
  pure ⟨destA, destB⟩

/-- fp2.go:153-158 `cswap`, one of its two pairs -/
def cswapT (x y : Fp2) (choice : Byte) : Tr (Fp2 × Fp2) := do
  let a ← call .cswap (cswapP x.A y.A choice)
  let b ← call .cswap (cswapP x.B y.B choice)
  pure (⟨a.1, b.1⟩, ⟨a.2, b.2⟩)

/-- fp2.go:165-174 `ToMontgomery` -/
def toMontgomeryT (x : Fp2) : Tr Fp2 := do
  let aRR ← call .mul (mulW P x.A P.r2)
  let a ← call .rdc (rdcP P aRR)
  let aRR ← call .mul (mulW P x.B P.r2)
  let b ← call .rdc (rdcP P aRR)
  pure ⟨a, b⟩

/-- fp2.go:182-195 `FromMontgomery` -/
def fromMontgomeryT (x : Fp2) : Tr Fp2 := do
  tell [.bytes (8 * P.n)]
  let a ← call .rdc (rdcP P (x.A ++ List.replicate P.n 0))
  let a ← call .mod (modP P a)
  tell [.bytes (16 * P.n), .bytes (8 * P.n)]
  let b ← call .rdc (rdcP P (x.B ++ List.replicate P.n 0))
  let b ← call .mod (modP P b)
  pure ⟨a, b⟩

end fp2

/-- The operations of fp2.go the curve code calls. -/
structure TOps (F : Type) where
  add : F → F → Tr F
  sub : F → F → Tr F
  mul : F → F → Tr F
  sqr : F → Tr F
  inv : F → Tr F
  cswap : F → F → Byte → Tr (F × F)

/-- fp2.go as an instance -/
def limbOpsT (P : Prime) : TOps Fp2 where
  add := addT P
  sub := subT P
  mul := mulT P
  sqr := sqrT P
  inv := invT P
  cswap := cswapT

/-! ### curve.go -/
section curve
variable {F : Type} (o : TOps F)

/-- curve.go:27-46 `Jinvariant` -/
def jinvariantT (c : Coef F) : Tr F := do
  let j ← o.sqr c.A
  let t1 ← o.sqr c.C
  let t0 ← o.add t1 t1
  let t0 ← o.sub j t0
  let t0 ← o.sub t0 t1
  let j ← o.sub t0 t1
  let t1 ← o.sqr t1
  let j ← o.mul j t1
  let t0 ← o.add t0 t0
  let t0 ← o.add t0 t0
  let t1 ← o.sqr t0
  let t0 ← o.mul t0 t1
  let t0 ← o.add t0 t0
  let t0 ← o.add t0 t0
  let j ← o.inv j
  o.mul t0 j

/-- curve.go:50-66 `RecoverCoordinateA` -/
def recoverCoordinateAT (one xp xq xr : F) : Tr F := do
  let t1 ← o.add xp xq
  let t0 ← o.mul xp xq
  let a ← o.mul xr t1
  let a ← o.add a t0
  let t0 ← o.mul t0 xr
  let a ← o.sub a one
  let t0 ← o.add t0 t0
  let t1 ← o.add t1 xr
  let t0 ← o.add t0 t0
  let a ← o.sqr a
  let t0 ← o.inv t0
  let a ← o.mul a t0
  o.sub a t1

/-- curve.go:69-79 `CalcCurveParamsEquiv3` -/
def calcCurveParamsEquiv3T (c : Coef F) : Tr (Coef F) := do
  let c2 ← o.add c.C c.C
  let a ← o.add c.A c2
  let d ← o.sub c.A c2
  pure ⟨a, d⟩

/-- curve.go:82-91 `CalcCurveParamsEquiv4` -/
def calcCurveParamsEquiv4T (c : Coef F) : Tr (Coef F) := do
  let c2 ← o.add c.C c.C
  let a ← o.add c.A c2
  let d ← o.add c2 c2
  pure ⟨a, d⟩

/-- curve.go:94-107 `CalcAplus2Over4` -/
def calcAplus2Over4T (c : Coef F) : Tr F := do
  let tmp ← o.add c.C c.C
  let ret ← o.add c.A tmp
  let tmp ← o.add tmp tmp
  let tmp ← o.inv tmp
  o.mul ret tmp

/-- curve.go:110-117 `RecoverCurveCoefficients3` -/
def recoverCurveCoefficients3T (e : Coef F) : Tr (Coef F) := do
  let a ← o.add e.A e.C
  let a ← o.add a a
  let c ← o.sub e.A e.C
  pure ⟨a, c⟩

/-- curve.go:120-127 `RecoverCurveCoefficients4` -/
def recoverCurveCoefficients4T (half : F) (e : Coef F) : Tr (Coef F) := do
  let c ← o.mul e.C half
  let a ← o.sub e.A c
  let c ← o.mul c half
  pure ⟨a, c⟩

/-- curve.go:132-161 `xDbladd` -/
def xDbladdT (p q qmp : Pt F) (a24 : F) : Tr (Pt F × Pt F) := do
  let t0 ← o.add p.X p.Z
  let t1 ← o.sub p.X p.Z
  let x2P ← o.sqr t0
  let t2 ← o.sub q.X q.Z
  let xPaQ ← o.add q.X q.Z
  let t0 ← o.mul t0 t2
  let z2P ← o.mul t1 t1
  let t1 ← o.mul t1 xPaQ
  let t2 ← o.sub x2P z2P
  let x2P ← o.mul x2P z2P
  let xPaQ ← o.mul a24 t2
  let zPaQ ← o.sub t0 t1
  let z2P ← o.add xPaQ z2P
  let xPaQ ← o.add t0 t1
  let z2P ← o.mul z2P t2
  let zPaQ ← o.sqr zPaQ
  let xPaQ ← o.sqr xPaQ
  let zPaQ ← o.mul qmp.X zPaQ
  let xPaQ ← o.mul qmp.Z xPaQ
  pure (⟨x2P, z2P⟩, ⟨xPaQ, zPaQ⟩)

/-- curve.go:165-181 `Pow2k`, one iteration -/
def dblStepT (c : Coef F) (p : Pt F) : Tr (Pt F) := do
  let t0 ← o.sub p.X p.Z
  let t1 ← o.add p.X p.Z
  let t0 ← o.sqr t0
  let t1 ← o.sqr t1
  let z ← o.mul c.C t0
  let x ← o.mul z t1
  let t1 ← o.sub t1 t0
  let t0 ← o.mul c.A t1
  let z ← o.add z t0
  let z ← o.mul z t1
  pure ⟨x, z⟩

/-- curve.go:165-181 `Pow2k` -/
def pow2kT (c : Coef F) : Nat → Pt F → Tr (Pt F)
  | 0, p => do
    tell [.test false]
    pure p
  | k + 1, p => do
    tell [.test true]
    let p ← dblStepT o c p
    pow2kT c k p

/-- curve.go:186-214 `Pow3k`, one iteration -/
def tplStepT (c : Coef F) (p : Pt F) : Tr (Pt F) := do
  let t0 ← o.sub p.X p.Z
  let t2 ← o.sqr t0
  let t1 ← o.add p.X p.Z
  let t3 ← o.sqr t1
  let t4 ← o.add t1 t0
  let t0 ← o.sub t1 t0
  let t1 ← o.sqr t4
  let t1 ← o.sub t1 t3
  let t1 ← o.sub t1 t2
  let t5 ← o.mul t3 c.A
  let t3 ← o.mul t3 t5
  let t6 ← o.mul t2 c.C
  let t2 ← o.mul t2 t6
  let t3 ← o.sub t2 t3
  let t2 ← o.sub t5 t6
  let t1 ← o.mul t2 t1
  let t2 ← o.add t3 t1
  let t2 ← o.sqr t2
  let x ← o.mul t2 t4
  let t1 ← o.sub t3 t1
  let t1 ← o.sqr t1
  let z ← o.mul t1 t0
  pure ⟨x, z⟩

/-- curve.go:186-214 `Pow3k` -/
def pow3kT (c : Coef F) : Nat → Pt F → Tr (Pt F)
  | 0, p => do
    tell [.test false]
    pure p
  | k + 1, p => do
    tell [.test true]
    let p ← tplStepT o c p
    pow3kT c k p

/-- curve.go:219-230 `Fp2Batch3Inv` -/
def batch3InvT (x1 x2 x3 : F) : Tr (F × F × F) := do
  let x1x2 ← o.mul x1 x2
  let t ← o.mul x1x2 x3
  let t ← o.inv t
  let y1 ← o.mul t x2
  let y1 ← o.mul y1 x3
  let y2 ← o.mul t x1
  let y2 ← o.mul y2 x3
  let y3 ← o.mul t x1x2
  pure (y1, y2, y3)

/-- fp2.go:153-158 `cswap` on the coordinates of two points -/
def cswapPtT (p q : Pt F) (choice : Byte) : Tr (Pt F × Pt F) := do
  let x ← o.cswap p.X q.X choice
  let z ← o.cswap p.Z q.Z choice
  pure (⟨x.1, z.1⟩, ⟨x.2, z.2⟩)

/-- curve.go:244-250: the loop of `ScalarMul3Pt` from bit `i`, `k` iterations left -/
def ladderLoopT (a24 : F) (scalar : List Byte) (i : Nat) : Nat → Pt F → Pt F → Pt F → Byte → Tr (Pt F × Pt F × Byte)
  | 0, _, r1, r2, prev => do
    tell [.test false]
    pure (r1, r2, prev)
  | k + 1, r0, r1, r2, prev => do
    tell [.test true, .load .key (i / 8)]
    let bit ← lift (scalarBit scalar i)
    let swap := prev ^^^ bit
    let r ← cswapPtT o r1 r2 swap
    let s ← xDbladdT o r0 r.2 r.1 a24
    ladderLoopT a24 scalar (i + 1) k s.1 r.1 s.2 bit

/-- curve.go:235-253 `ScalarMul3Pt` -/
def scalarMul3PtT (c : Coef F) (p q pmq : Pt F) (nbits : Nat) (scalar : List Byte) : Tr (Pt F) := do
  let a24 ← calcAplus2Over4T o c
  let r ← ladderLoopT o a24 scalar 0 nbits q p pmq 0
  let s ← cswapPtT o r.1 r.2.1 r.2.2
  pure s.1

/-- curve.go:261-287 `isogeny3.GenerateCurve` -/
def gen3T (p : Pt F) : Tr (Coef F × Iso3 F) := do
  let k1 ← o.sub p.X p.Z
  let t0 ← o.sqr k1
  let k2 ← o.add p.X p.Z
  let t1 ← o.sqr k2
  let t2 ← o.add t0 t1
  let t3 ← o.add k1 k2
  let t3 ← o.sqr t3
  let t3 ← o.sub t3 t2
  let t2 ← o.add t1 t3
  let t3 ← o.add t3 t0
  let t4 ← o.add t3 t0
  let t4 ← o.add t4 t4
  let t4 ← o.add t1 t4
  let c ← o.mul t2 t4
  let t4 ← o.add t1 t2
  let t4 ← o.add t4 t4
  let t4 ← o.add t0 t4
  let t4 ← o.mul t3 t4
  let t0 ← o.sub t4 c
  let a ← o.add c t0
  pure (⟨a, c⟩, ⟨k1, k2⟩)

/-- curve.go:294-310 `isogeny3.EvaluatePoint` -/
def eval3T (phi : Iso3 F) (p : Pt F) : Tr (Pt F) := do
  let t0 ← o.add p.X p.Z
  let t1 ← o.sub p.X p.Z
  let t0 ← o.mul phi.K1 t0
  let t1 ← o.mul phi.K2 t1
  let t2 ← o.add t0 t1
  let t0 ← o.sub t1 t0
  let t2 ← o.sqr t2
  let t0 ← o.sqr t0
  let x ← o.mul p.X t2
  let z ← o.mul p.Z t0
  pure ⟨x, z⟩

/-- curve.go:319-334 `isogeny4.GenerateCurve` -/
def gen4T (p : Pt F) : Tr (Coef F × Iso4 F) := do
  let k2 ← o.sub p.X p.Z
  let k3 ← o.add p.X p.Z
  let k1 ← o.sqr p.Z
  let k1 ← o.add k1 k1
  let c ← o.sqr k1
  let k1 ← o.add k1 k1
  let a ← o.sqr p.X
  let a ← o.add a a
  let a ← o.sqr a
  pure (⟨a, c⟩, ⟨k1, k2, k3⟩)

/-- curve.go:341-362 `isogeny4.EvaluatePoint` -/
def eval4T (phi : Iso4 F) (p : Pt F) : Tr (Pt F) := do
  let t0 ← o.add p.X p.Z
  let t1 ← o.sub p.X p.Z
  let xq ← o.mul t0 phi.K2
  let zq ← o.mul t1 phi.K3
  let t0 ← o.mul t0 t1
  let t0 ← o.mul t0 phi.K1
  let t1 ← o.add xq zq
  let zq ← o.sub xq zq
  let t1 ← o.sqr t1
  let zq ← o.sqr zq
  let xq ← o.add t0 t1
  let t0 ← o.sub zq t0
  let xq ← o.mul xq t1
  let zq ← o.mul zq t0
  pure ⟨xq, zq⟩

/-! ### core.go -/

/-- core.go:27-35: the inner loop of the traversal.  `sIdx` is as in the code; `rest` is `strat[sIdx:]`, the stack is
`points` and `indices` with the last element first. -/
def descendT {α : Type} (lim : Nat) (pw : Nat → α → Tr α) (sIdx : Nat) : List Nat → List (α × Nat) → α → Nat →
    Tr (Nat × List Nat × List (α × Nat) × α × Nat)
  | [], stk, xR, i => do
    tell [.test (decide (i ≤ lim))]
    if i ≤ lim then panic else pure (sIdx, [], stk, xR, i)
  | k :: rest, stk, xR, i => do
    tell [.test (decide (i ≤ lim))]
    if i ≤ lim then do
      tell [.push stk.length, .push stk.length, .load .strategy sIdx]
      let xR' ← pw k xR
      descendT lim pw (sIdx + 1) rest ((xR, i) :: stk) xR' (i + k)
    else pure (sIdx, k :: rest, stk, xR, i)

/-- core.go:37-39: `for k := 0; k < len(points); k++ { points[k] = phi.EvaluatePoint(&points[k]) }` up to the last
evaluation of the condition -/
def evalStackT {α : Type} (ev : α → Tr α) : List (α × Nat) → Tr (List (α × Nat))
  | [] => pure []
  | e :: es => do
    let es ← evalStackT ev es
    tell [.test true, .load .points es.length]
    let p ← ev e.1
    pure ((p, e.2) :: es)

/-- core.go:40-42: the points phiP, phiQ, phiR, one after the other -/
def evalExtraT {α : Type} (ev : α → Tr α) : List α → Tr (List α)
  | [] => pure []
  | p :: ps => do
    let p ← ev p
    let ps ← evalExtraT ev ps
    pure (p :: ps)

/-- core.go:26-48 `traverseTreePublicKeyA`, the outer loop, `n` iterations left -/
def traverse4T : Nat → Nat → List Nat → List (Pt F × Nat) → Coef F → Pt F → Nat → List (Pt F) → Tr (Pt F × List (Pt F))
  | 0, _, _, _, _, xR, _, extra => do
    tell [.test false]
    pure (xR, extra)
  | n + 1, sIdx, rest, stk, cparam, xR, i, extra => do
    tell [.test true]
    let d ← descendT n (fun k => pow2kT o cparam (2 * k)) sIdx rest stk xR i
    let g ← gen4T o d.2.2.2.1
    let stk ← evalStackT (eval4T o g.2) d.2.2.1
    tell [.test false]
    let extra ← evalExtraT (eval4T o g.2) extra
    match stk with
    | [] => panic
    | (xR, i) :: stk => do
      tell [.load .points stk.length, .load .points stk.length]
      traverse4T n d.1 d.2.1 stk g.1 xR i extra

/-- core.go:97-120 `traverseTreePublicKeyB`, the outer loop -/
def traverse3T : Nat → Nat → List Nat → List (Pt F × Nat) → Coef F → Pt F → Nat → List (Pt F) → Tr (Pt F × List (Pt F))
  | 0, _, _, _, _, xR, _, extra => do
    tell [.test false]
    pure (xR, extra)
  | n + 1, sIdx, rest, stk, cparam, xR, i, extra => do
    tell [.test true]
    let d ← descendT n (fun k => pow3kT o cparam k) sIdx rest stk xR i
    let g ← gen3T o d.2.2.2.1
    let stk ← evalStackT (eval3T o g.2) d.2.2.1
    tell [.test false]
    let extra ← evalExtraT (eval3T o g.2) extra
    match stk with
    | [] => panic
    | (xR, i) :: stk => do
      tell [.load .points stk.length, .load .points stk.length]
      traverse3T n d.1 d.2.1 stk g.1 xR i extra

/-- core.go:16-49 `traverseTreePublicKeyA` and 53-83 `traverseTreeSharedKeyA` (with no extra points) -/
def traverseTreeAT (strat : List Nat) (curve : Coef F) (xR : Pt F) (extra : List (Pt F)) : Tr (Pt F × List (Pt F)) := do
  let cparam ← calcCurveParamsEquiv4T o curve
  traverse4T o strat.length 0 strat [] cparam xR 0 extra

/-- core.go:87-121 `traverseTreePublicKeyB` and 125-155 `traverseTreeSharedKeyB` (with no extra points) -/
def traverseTreeBT (strat : List Nat) (curve : Coef F) (xR : Pt F) (extra : List (Pt F)) : Tr (Pt F × List (Pt F)) := do
  let cparam ← calcCurveParamsEquiv3T o curve
  traverse3T o strat.length 0 strat [] cparam xR 0 extra

/-- core.go:159-189 `PublicKeyGenA` -/
def publicKeyGenAT (c : CParams F) (prv : List Byte) : Tr (Tri F) := do
  let xR ← scalarMul3PtT o ⟨c.initA, c.initC⟩ ⟨c.pA, c.one⟩ ⟨c.qA, c.one⟩ ⟨c.rA, c.one⟩ c.bitsA prv
  let r ← traverseTreeAT o c.stratA ⟨c.initA, c.initC⟩ xR [⟨c.pB, c.one⟩, ⟨c.qB, c.one⟩, ⟨c.rB, c.one⟩]
  let g ← gen4T o r.1
  match r.2 with
  | [xPB, xQB, xRB] => do
    let xPA ← eval4T o g.2 xPB
    let xQA ← eval4T o g.2 xQB
    let xRA ← eval4T o g.2 xRB
    let i ← batch3InvT o xPA.Z xQA.Z xRA.Z
    let p ← o.mul xPA.X i.1
    let q ← o.mul xQA.X i.2.1
    let r ← o.mul xRA.X i.2.2
    pure ⟨p, q, r⟩
  | _ => panic

/-- core.go:193-222 `PublicKeyGenB` -/
def publicKeyGenBT (c : CParams F) (prv : List Byte) : Tr (Tri F) := do
  let xR ← scalarMul3PtT o ⟨c.initA, c.initC⟩ ⟨c.pB, c.one⟩ ⟨c.qB, c.one⟩ ⟨c.rB, c.one⟩ c.bitsB prv
  let r ← traverseTreeBT o c.stratB ⟨c.initA, c.initC⟩ xR [⟨c.pA, c.one⟩, ⟨c.qA, c.one⟩, ⟨c.rA, c.one⟩]
  let g ← gen3T o r.1
  match r.2 with
  | [xPA, xQA, xRA] => do
    let xPB ← eval3T o g.2 xPA
    let xQB ← eval3T o g.2 xQA
    let xRB ← eval3T o g.2 xRA
    let i ← batch3InvT o xPB.Z xQB.Z xRB.Z
    let p ← o.mul xPB.X i.1
    let q ← o.mul xQB.X i.2.1
    let r ← o.mul xRB.X i.2.2
    pure ⟨p, q, r⟩
  | _ => panic

/-- core.go:229-254 `DeriveSecretA` up to the j-invariant -/
def deriveAT (c : CParams F) (prv : List Byte) (pub : Tri F) : Tr F := do
  let a ← recoverCoordinateAT o c.one pub.p pub.q pub.r
  let xR ← scalarMul3PtT o ⟨a, c.initC⟩ ⟨pub.p, c.one⟩ ⟨pub.q, c.one⟩ ⟨pub.r, c.one⟩ c.bitsA prv
  let r ← traverseTreeAT o c.stratA ⟨a, c.initC⟩ xR []
  let g ← gen4T o r.1
  let k ← recoverCurveCoefficients4T o c.half g.1
  jinvariantT o k

/-- core.go:257-282 `DeriveSecretB` up to the j-invariant -/
def deriveBT (c : CParams F) (prv : List Byte) (pub : Tri F) : Tr F := do
  let a ← recoverCoordinateAT o c.one pub.p pub.q pub.r
  let xR ← scalarMul3PtT o ⟨a, c.initC⟩ ⟨pub.p, c.one⟩ ⟨pub.q, c.one⟩ ⟨pub.r, c.one⟩ c.bitsB prv
  let r ← traverseTreeBT o c.stratB ⟨a, c.initC⟩ xR []
  let g ← gen3T o r.1
  let k ← recoverCurveCoefficients3T o g.1
  jinvariantT o k

end curve

end Model.Sidh
