import Verif.Model.Csidh
/-
dh/csidh/curve.go and the functions of csidh.go that call it, with points in memory: a memory maps locations to points,
and a call may pass the same location as destination and as argument.  Coordinates are read and written in the order of
the code.  The field operations themselves may have their destination among their arguments (Model.CsidhAlias).

Local variables whose address is never taken are values.  Those whose address is passed on get locations of their own,
apart from those of the caller.  Pointers to `coeff` and `fp` cannot point to points; those arguments are values.
-/
namespace Model.Csidh.Mem
open Model Model.Limb Model.Csidh

variable {F : Type} (o : Ops F) {L : Type} [DecidableEq L]

/-- `l.x = v` -/
def setX (m : L → Pt F) (l : L) (v : F) : L → Pt F := fun b => if b = l then ⟨v, (m b).z⟩ else m b

/-- `l.z = v` -/
def setZ (m : L → Pt F) (l : L) (v : F) : L → Pt F := fun b => if b = l then ⟨(m b).x, v⟩ else m b

/-- `*l = P` -/
def setPt (m : L → Pt F) (l : L) (P : Pt F) : L → Pt F := fun b => if b = l then P else m b

/-- curve.go:8-22 `xAdd(PaQ, P, Q, PdQ)` -/
def xAddM (PaQ P Q PdQ : L) (m : L → Pt F) : L → Pt F :=
  let t0 := o.add (m P).x (m P).z
  let t1 := o.sub (m P).x (m P).z
  let t2 := o.add (m Q).x (m Q).z
  let t3 := o.sub (m Q).x (m Q).z
  let t0 := o.mul t0 t3
  let t1 := o.mul t1 t2
  let t2 := o.add t0 t1
  let t3 := o.sub t0 t1
  let t2 := o.mul t2 t2
  let t3 := o.mul t3 t3
  let m := setX m PaQ (o.mul (m PdQ).z t2)
  setZ m PaQ (o.mul (m PdQ).x t3)

/-- curve.go:28-43 `xDbl(Q, P, A)` -/
def xDblM (Q P A : L) (m : L → Pt F) : L → Pt F :=
  let t0 := o.add (m P).x (m P).z
  let t0 := o.mul t0 t0
  let t1 := o.sub (m P).x (m P).z
  let t1 := o.mul t1 t1
  let t2 := o.sub t0 t1
  let t1 := o.mul o.four t1
  let t1 := o.mul t1 (m A).z
  let m := setX m Q (o.mul t0 t1)
  let t0 := o.add (m A).z (m A).z
  let t0 := o.add t0 (m A).x
  let t0 := o.mul t0 t2
  let t0 := o.add t0 t1
  setZ m Q (o.mul t0 t2)

/-- curve.go:50-73 `xDblAdd(PaP, PaQ, P, Q, PdQ, A24)` -/
def xDblAddM (PaP PaQ P Q PdQ : L) (A24 : Coef F) (m : L → Pt F) : L → Pt F :=
  let t0 := o.add (m P).x (m P).z
  let t1 := o.sub (m P).x (m P).z
  let m := setX m PaP (o.mul t0 t0)
  let t2 := o.sub (m Q).x (m Q).z
  let m := setX m PaQ (o.add (m Q).x (m Q).z)
  let t0 := o.mul t0 t2
  let m := setZ m PaP (o.mul t1 t1)
  let t1 := o.mul t1 (m PaQ).x
  let t2 := o.sub (m PaP).x (m PaP).z
  let m := setZ m PaP (o.mul (m PaP).z A24.c)
  let m := setX m PaP (o.mul (m PaP).x (m PaP).z)
  let m := setX m PaQ (o.mul A24.a t2)
  let m := setZ m PaQ (o.sub t0 t1)
  let m := setZ m PaP (o.add (m PaP).z (m PaQ).x)
  let m := setX m PaQ (o.add t0 t1)
  let m := setZ m PaP (o.mul (m PaP).z t2)
  let m := setZ m PaQ (o.mul (m PaQ).z (m PaQ).z)
  let m := setX m PaQ (o.mul (m PaQ).x (m PaQ).x)
  let m := setZ m PaQ (o.mul (m PaQ).z (m PdQ).x)
  setX m PaQ (o.mul (m PaQ).x (m PdQ).z)

/-- curve.go:78-81 `cswappoint(P1, P2, choice)` -/
def cswappointM (P1 P2 : L) (choice : Byte) (m : L → Pt F) : L → Pt F :=
  let (x1, x2) := o.cswap (m P1).x (m P2).x choice
  let m := setX (setX m P1 x1) P2 x2
  let (z1, z2) := o.cswap (m P1).z (m P2).z choice
  setZ (setZ m P1 z1) P2 z2

/-- The locations of `xMul`: those of the caller and its variables Q, R and A. -/
inductive MulLoc (L : Type) where
  | caller (l : L) | Q | R | A
deriving DecidableEq

/-- curve.go:110-116: the loop of `xMul`, `i` iterations left -/
def xMulLoopM (P : L) (A24 : Coef F) (k : Fp) : Nat → Byte → (MulLoc L → Pt F) → MulLoc L → Pt F
  | 0, _, m => m
  | i + 1, prev, m =>
    let bit := bitAt k i
    let m := cswappointM o .Q .R (prev ^^^ bit) m
    let m := xDblAddM o .Q .R .Q .R (.caller P) A24 m
    xMulLoopM P A24 k i bit m

/-- curve.go:87-119 `xMul(kP, P, co, k)` -/
def xMulM (kP P : L) (co : Coef F) (k : Fp) (m : L → Pt F) : L → Pt F :=
  let mm : MulLoc L → Pt F := fun
    | .caller l => m l
    | .Q => ⟨o.zero, o.zero⟩
    | .R => m P
    | .A => ⟨co.a, co.c⟩
  let a24 := o.add co.c co.c
  let a24 := o.add a24 co.a
  let c24 := o.mul co.c o.four
  let j := topBit k 511
  let mm := xDblM o .Q (.caller P) .A mm
  let mm := xMulLoopM o P ⟨a24, c24⟩ k j 1 mm
  let mm := cswappointM o .Q .R ((word k 0 &&& 1).setWidth 8) mm
  let mm := setPt mm (.caller kP) (mm .Q)
  fun l => mm (.caller l)

/-- The locations of `xIso`: those of the caller, the array M and the literal `&point{x: co.a, z: co.c}`. -/
inductive IsoLoc (L : Type) where
  | caller (l : L) | M (i : Nat) | A
deriving DecidableEq

/-- curve.go:162-176: one iteration of the loop of `xIso`; `prod` and `Q` are local values -/
def isoStepM (kern : L) (S D : F) (i : Nat) (s : (IsoLoc L → Pt F) × Pt F × Pt F) : (IsoLoc L → Pt F) × Pt F × Pt F :=
  let (m, prod, Q) := s
  let m := if 2 ≤ i then xAddM o (.M (i % 3)) (.M ((i - 1) % 3)) (.caller kern) (.M ((i - 2) % 3)) m else m
  let t1 := o.sub (m (.M (i % 3))).x (m (.M (i % 3))).z
  let t0 := o.add (m (.M (i % 3))).x (m (.M (i % 3))).z
  let px := o.mul prod.x t1
  let pz := o.mul prod.z t0
  let t1 := o.mul t1 S
  let t0 := o.mul t0 D
  let t2 := o.add t0 t1
  let qx := o.mul Q.x t2
  let t2 := o.sub t0 t1
  let qz := o.mul Q.z t2
  (m, ⟨px, pz⟩, ⟨qx, qz⟩)

/-- curve.go:162-176: the loop from `i` on, `k` iterations left -/
def isoLoopM (kern : L) (S D : F) : Nat → Nat → (IsoLoc L → Pt F) × Pt F × Pt F → (IsoLoc L → Pt F) × Pt F × Pt F
  | _, 0, s => s
  | i, k + 1, s => isoLoopM kern S D (i + 1) k (isoStepM o kern S D i s)

/-- curve.go:129-200 `xIso(img, co, kern, kernOrder)`: the memory and the new co -/
def xIsoM (img : L) (co : Coef F) (kern : L) (kernOrder : W64) (m : L → Pt F) : (L → Pt F) × Coef F :=
  let mm : IsoLoc L → Pt F := fun
    | .caller l => m l
    | .M i => if i = 0 then m kern else ⟨o.zero, o.zero⟩
    | .A => ⟨co.a, co.c⟩
  let ec := o.add co.c co.c
  let ea := o.add co.a ec
  let ec := o.sub co.a ec
  let S := o.add (mm (.caller img)).x (mm (.caller img)).z
  let D := o.sub (mm (.caller img)).x (mm (.caller img)).z
  let prodx := o.sub (mm (.caller kern)).x (mm (.caller kern)).z
  let prodz := o.add (mm (.caller kern)).x (mm (.caller kern)).z
  let t1 := o.mul prodx S
  let t0 := o.mul prodz D
  let qx := o.add t0 t1
  let qz := o.sub t0 t1
  let mm := xDblM o (.M 1) (.caller kern) .A mm
  let (mm, prod, Q) := isoLoopM o kern S D 1 ((kernOrder >>> 1).toNat - 1) (mm, ⟨prodx, prodz⟩, ⟨qx, qz⟩)
  let qx := o.mul Q.x Q.x
  let qz := o.mul Q.z Q.z
  let mm := setX mm (.caller img) (o.mul (mm (.caller img)).x qx)
  let mm := setZ mm (.caller img) (o.mul (mm (.caller img)).z qz)
  let ea := o.exp64 ea kernOrder
  let ec := o.exp64 ec kernOrder
  let px := o.mul prod.x prod.x
  let px := o.mul px px
  let px := o.mul px px
  let pz := o.mul prod.z prod.z
  let pz := o.mul pz pz
  let pz := o.mul pz pz
  let ec := o.mul ec px
  let ea := o.mul ea pz
  let a := o.add ea ec
  let c := o.sub ea ec
  let a := o.add a a
  (fun l => mm (.caller l), ⟨a, c⟩)

/-- curve.go:203-212 `montEval(res, A, x)` on a memory of field elements -/
def montEvalM (res A x : L) (m : L → F) : L → F :=
  let set := fun (m : L → F) v => fun l => if l = res then v else m l
  let m := set m (m x)
  let m := set m (o.mul (m res) (m res))
  let t := o.mul (m A) (m x)
  let m := set m (o.add (m res) t)
  let m := set m (o.add (m res) o.one)
  set m (o.mul (m res) (m x))

/-- csidh.go:74-116 `cofactorMul(p, a, halfL, halfR, order)` with halfR = halfL + n: the memory, the two results and the
new `order`.  The variable Q of each call is a new location (`none`), the caller's are `some l`. -/
def cofactorMulM {L : Type} [DecidableEq L] (p : L) (a : Coef Fp) (halfL n : Nat) (order : Fp) (m : L → Pt Fp) :
    (L → Pt Fp) × Bool × Bool × Fp :=
  if n = 0 then (m, false, false, order)
  else if n = 1 then
    if !isZero (m p).z then
      let m := xMulM limbOps p p a (fpw (word primes halfL)) m
      if !isZero (m p).z then (m, true, false, order)
      else
        let order := mul512 order (word primes halfL)
        if isLess fourSqrtP order then (m, true, true, order) else (m, false, false, order)
    else (m, false, false, order)
  else
    let h := (n + 1) / 2
    let mid := halfL + h
    let mulR := mulPrimes halfL h (fpw 1)
    let mulL := mulPrimes mid (n - h) (fpw 1)
    let mm : Option L → Pt Fp := fun
      | none => ⟨fp0, fp0⟩
      | some l => m l
    let mm := xMulM limbOps none (some p) a mulR mm
    let mm := xMulM limbOps (some p) (some p) a mulL mm
    let (mm, d1, r1, order) := cofactorMulM none a mid (n - h) order mm
    let (mm, d2, r2, order) := cofactorMulM (some p) a halfL h order mm
    (fun l => mm (some l), d1 || d2, r1 || r2, order)
termination_by n
decreasing_by all_goals omega

/-- The locations of `Validate`: its variables P and A. -/
inductive ValLoc where
  | P | A
deriving DecidableEq

/-- csidh.go:297-313: one round of the loop of `Validate` with the random number x: the results of `cofactorMul` -/
def validateRoundM (a x : Fp) : Bool × Bool :=
  let m : ValLoc → Pt Fp := fun
    | .P => ⟨x, one⟩
    | .A => ⟨a, one⟩
  let m := xDblM limbOps .P .P .A m
  let m := xDblM limbOps .P .P .A m
  let r := cofactorMulM .P ⟨(m .A).x, (m .A).z⟩ 0 74 (fpw 1) m
  (r.2.1, r.2.2.1)

/-- The locations of the rounds of `groupAction`: its variables P and K. -/
inductive ActLoc where
  | P | K
deriving DecidableEq

/-- The variables of the loop over the primes, with P in memory. -/
structure ActMem where
  m : ActLoc → Pt Fp
  A : Coef Fp
  half : Half

/-- csidh.go:162-184: one iteration of the loop over the primes, for prime number `i`; K is set to zero by its
declaration. -/
def actStepM (v : W64) (i : Nat) (s : ActMem) : ActMem :=
  let s :=
    if s.half.e.getD i 0 ≠ 0 then
      let m := setPt s.m .K ⟨fp0, fp0⟩
      let m := xMulM limbOps .K .P s.A (cofactor s.half.e i) m
      if !isZero (m .K).z then
        let (m, A) := xIsoM limbOps .P s.A .K v m
        let e := s.half.e.set i (s.half.e.getD i 0 - 1)
        let k := if e.getD i 0 = 0 then mul512 s.half.k (word primes i) else s.half.k
        ⟨m, A, {s.half with e := e, k := k}⟩
      else ⟨m, s.A, s.half⟩
    else s
  {s with half := {s.half with done := s.half.done && decide (s.half.e.getD i 0 = 0)}}

/-- csidh.go:162-184: the loop over the primes from index `i` on -/
def actLoopM : List W64 → Nat → ActMem → ActMem
  | [], _, s => s
  | v :: vs, i, s => actLoopM vs (i + 1) (actStepM v i s)

/-- csidh.go:160-184: what one round does with the half of the given sign: `xMul(&P, &P, &A, &k[sign])`, then the loop -/
def roundHalfM (A x : Fp) (h : Half) : ActMem :=
  let m : ActLoc → Pt Fp := fun
    | .P => ⟨x, one⟩
    | .K => ⟨fp0, fp0⟩
  let m := xMulM limbOps .P .P ⟨A, one⟩ h.k m
  actLoopM primes 0 ⟨m, ⟨A, one⟩, {h with done := true}⟩

/-- The variables of the outer loop of `groupAction` (A.c is `one` at the top of it). -/
structure RoundMem where
  A : Fp
  h0 : Half
  h1 : Half

/-- csidh.go:153-189: one round of the outer loop with the random number x, up to the test whether all is done.
`none` is `continue`.  `montEval(&rhs, &A.a, &P.x)` has three different locations. -/
def actRoundM (s : RoundMem) (x : Fp) : Option RoundMem :=
  let rhs := montEvalM limbOps 0 1 2 (fun l : Nat => if l = 1 then s.A else if l = 2 then x else fp0) 0
  let sign := decide (isNonQuadRes rhs ≠ 0)
  let h := if sign then s.h1 else s.h0
  if h.done then none
  else
    let r := roundHalfM s.A x h
    let c := modExpRdc512 r.A.c pMin1
    let A := mulRdc r.A.a c
    some ⟨A, if sign then s.h0 else r.half, if sign then r.half else s.h1⟩

/-- csidh.go:148-193: the outer loop of `groupAction`, `round` being its body -/
def actRoundsM (round : RoundMem → Fp → Option RoundMem) (s : RoundMem) (rng : List Byte) : Option (Fp × List Byte) :=
  match hr : randFp rng with
  | none => none
  | some (x, rest) =>
    match round s x with
    | none => actRoundsM round s rest
    | some s' => if s'.h0.done && s'.h1.done then some (s'.A, rest) else actRoundsM round s' rest
termination_by rng.length
decreasing_by all_goals exact randFp_length rng _ _ hr

/-- csidh.go:121-195 `groupAction`: the new pub.a and the rest of the random source -/
def groupActionM (a : Fp) (prv : PrivateKey) (rng : List Byte) : Option (Fp × List Byte) :=
  let start : Half := ⟨fpw 4, List.replicate 74 0, false⟩
  actRoundsM actRoundM ⟨a, splitKey prv.e false primes 0 start, splitKey prv.e true primes 0 start⟩ rng

/-- csidh.go:271-276 `GeneratePublicKey` -/
def generatePublicKeyM (prv : PrivateKey) (rng : List Byte) : Option (PublicKey × List Byte) :=
  (groupActionM fp0 prv rng).map fun r => (⟨r.1⟩, r.2)

/-- csidh.go:295-313: the loop of `Validate`, `round` being its body -/
def validateLoopM (round : Fp → Bool × Bool) (rng : List Byte) : Option (Bool × List Byte) :=
  match hr : randFp rng with
  | none => none
  | some (x, rest) => if (round x).1 then some ((round x).2, rest) else validateLoopM round rest
termination_by rng.length
decreasing_by exact randFp_length rng _ _ hr

/-- csidh.go:283-314 `Validate`: the answer and the rest of the random source -/
def validateM (pub : PublicKey) (rng : List Byte) : Option (Bool × List Byte) :=
  if !isLess pub.a p then some (false, rng)
  else if equal pub.a two || equal pub.a twoNeg then some (false, rng)
  else validateLoopM (validateRoundM pub.a) rng

/-- csidh.go:321-332 `DeriveSecret`: the new content of `out`, the answer and the rest of the random source -/
def deriveSecretM (out : List Byte) (pub : PublicKey) (prv : PrivateKey) (rng : List Byte) : Option (List Byte × Bool × List Byte) :=
  match validateM pub rng with
  | none => none
  | some (false, rng) => some (out, false, rng)
  | some (true, rng) =>
    match groupActionM pub.a prv rng with
    | none => none
    | some (a, rng) => some ((PublicKey.exportKey ⟨a⟩ out).1, true, rng)

end Model.Csidh.Mem
