import Verif.Model.CsidhCurve
/-
Model of dh/csidh/csidh.go.

A random source is the list of bytes it yields; then it fails.  `none` is a panic, which includes the panic of randFp
on a failing source; loops that go on until a point or number is accepted are therefore total on these sources.
`fpRngGen.wbuf` is left out: it is unexported and always overwritten before it is read.
-/
namespace Model.Csidh
open Model Model.Limb

/-- `v[i/8] |= uint64(b[i]) << (8 * (i%8))` for i from the index given on (csidh.go:53-57, 250-254) -/
def orBytes : List Byte → Nat → Fp → Fp
  | [], _, v => v
  | b :: bs, i, v => orBytes bs (i + 1) (v.set (i / 8) (word v (i / 8) ||| (b.setWidth 64 <<< (8 * (i % 8)))))

/-- The zero element `fp{}` -/
def fp0 : Fp := List.replicate 8 0

/-- `fp{w}` -/
def fpw (w : W64) : Fp := w :: List.replicate 7 0

/-- csidh.go:47-62: the candidate made of 64 random bytes -/
def candidate (buf : List Byte) : Fp :=
  let v := orBytes buf 0 fp0
  v.set 7 (word v 7 &&& ((1 : W64) <<< (511 % 64) - 1))

/-- csidh.go:44-64 `randFp` -/
def randFp (rng : List Byte) : Option (Fp × List Byte) :=
  if h : rng.length < 64 then none
  else
    let v := candidate (rng.take 64)
    if isLess v p then some (v, rng.drop 64) else randFp (rng.drop 64)
termination_by rng.length
decreasing_by rw [List.length_drop]; omega

/-- The random source shrinks. -/
theorem randFp_length (rng : List Byte) : ∀ v rest, randFp rng = some (v, rest) → rest.length < rng.length := by
  induction rng using randFp.induct with
  | case1 rng h => intro v rest e; rw [randFp, dif_pos h] at e; cases e
  | case2 rng h w hw =>
    intro v rest e
    rw [randFp, dif_neg h] at e
    simp only at e
    rw [if_pos hw] at e
    cases e
    rw [List.length_drop]; omega
  | case3 rng h w hw ih =>
    intro v rest e
    rw [randFp, dif_neg h] at e
    simp only at e
    rw [if_neg hw] at e
    have := ih v rest e
    rw [List.length_drop] at this
    omega

/-- csidh.go:97-103: `for i := lo; i < lo + n; i++ { mul512(&m, &m, primes[i]) }` -/
def mulPrimes (lo n : Nat) (m : Fp) : Fp := ((primes.drop lo).take n).foldl mul512 m

/-- csidh.go:74-116 `cofactorMul(p, a, halfL, halfR, order)` with halfR = halfL + n: the two results and the new
`order`.  (The new *p is not used by any caller.)  For n = 0 the Go function would not return; it is never called so. -/
def cofactorMul (P : Pt Fp) (a : Coef Fp) (halfL n : Nat) (order : Fp) : Bool × Bool × Fp :=
  if n = 0 then (false, false, order)
  else if n = 1 then
    if !isZero P.z then
      let P := xMul limbOps P a (fpw (word primes halfL))
      if !isZero P.z then (true, false, order)
      else
        let order := mul512 order (word primes halfL)
        if isLess fourSqrtP order then (true, true, order) else (false, false, order)
    else (false, false, order)
  else
    let h := (n + 1) / 2
    let mid := halfL + h
    let mulR := mulPrimes halfL h (fpw 1)
    let mulL := mulPrimes mid (n - h) (fpw 1)
    let Q := xMul limbOps P a mulR
    let P := xMul limbOps P a mulL
    let (d1, r1, order) := cofactorMul Q a mid (n - h) order
    let (d2, r2, order) := cofactorMul P a halfL h order
    (d1 || d2, r1 || r2, order)
termination_by n
decreasing_by all_goals omega

/-- csidh.go:36-41 `PrivateKey`: 37 bytes, each two exponents -/
structure PrivateKey where
  e : List Byte

/-- `PrivateKey{}` -/
def PrivateKey.zero : PrivateKey := ⟨List.replicate 37 0⟩

/-- csidh.go:28-33 `PublicKey` -/
structure PublicKey where
  a : Fp

/-- `PublicKey{}` -/
def PublicKey.zero : PublicKey := ⟨fp0⟩

/-- csidh.go:131: `t := (prv.e[uint(i)>>1] << ((uint(i) % 2) * 4)) >> 4` on int8 -/
def expAt (e : List Byte) (i : Nat) : Byte := (e.getD (i / 2) 0 <<< (i % 2 * 4)).sshiftRight 4

/-- One of the two halves of the variables of `groupAction`, for points of one sign. -/
structure Half where
  k : Fp
  e : List Byte
  done : Bool

/-- csidh.go:122-147: the variables of the half `sign` after the loop over the private key, primes from index `i`. -/
def splitKey (prv : List Byte) (sign : Bool) : List W64 → Nat → Half → Half
  | [], _, h => h
  | v :: vs, i, h =>
    let t := expAt prv i
    let t := if sign then -t else t
    -- t > 0 for this half: it gets the exponent; otherwise the prime goes into the cofactor of this half
    if (0 : Int) < t.toInt then splitKey prv sign vs (i + 1) {h with e := h.e.set i t}
    else splitKey prv sign vs (i + 1) {h with e := h.e.set i 0, k := mul512 h.k v}

/-- An isogeny evaluated by `groupAction`.  Recorded by the model, not by the code: the degree, the half of the variables in
use, the curve coefficient and random number at the start of the round, and the arguments of `xIso`. -/
structure Event where
  degree : W64
  sign : Bool
  start : Fp
  x : Fp
  co : Coef Fp
  kern : Pt Fp

/-- The variables of the loop over the primes. -/
structure ActSt where
  P : Pt Fp
  A : Coef Fp
  half : Half
  log : List Event

/-- csidh.go:167-171: the product of the later primes whose exponent is not zero -/
def cofactor (e : List Byte) (i : Nat) : Fp :=
  (List.range' (i + 1) (74 - (i + 1))).foldl (fun cof j => if e.getD j 0 ≠ 0 then mul512 cof (word primes j) else cof) (fpw 1)

/-- csidh.go:162-184: one iteration of the loop over the primes, for prime number `i` -/
def actStep (sign : Bool) (start x : Fp) (v : W64) (i : Nat) (s : ActSt) : ActSt :=
  let s :=
    if s.half.e.getD i 0 ≠ 0 then
      let K := xMul limbOps s.P s.A (cofactor s.half.e i)
      if !isZero K.z then
        let (P, A) := xIso limbOps s.P s.A K v
        let e := s.half.e.set i (s.half.e.getD i 0 - 1)
        let k := if e.getD i 0 = 0 then mul512 s.half.k (word primes i) else s.half.k
        ⟨P, A, {s.half with e := e, k := k}, s.log ++ [⟨v, sign, start, x, s.A, K⟩]⟩
      else s
    else s
  {s with half := {s.half with done := s.half.done && decide (s.half.e.getD i 0 = 0)}}

/-- csidh.go:162-184: the loop over the primes from index `i` on -/
def actLoop (sign : Bool) (start x : Fp) : List W64 → Nat → ActSt → ActSt
  | [], _, s => s
  | v :: vs, i, s => actLoop sign start x vs (i + 1) (actStep sign start x v i s)

/-- The variables of the outer loop of `groupAction` (A.c is `one` at the top of it): the coefficient, the two halves
and the record. -/
structure RoundSt where
  A : Fp
  h0 : Half
  h1 : Half
  log : List Event

/-- csidh.go:160-184: what one round does with the half of the given sign -/
def roundHalf (sign : Bool) (A x : Fp) (h : Half) (log : List Event) : ActSt :=
  let P := xMul limbOps ⟨x, one⟩ ⟨A, one⟩ h.k
  actLoop sign A x primes 0 ⟨P, ⟨A, one⟩, {h with done := true}, log⟩

/-- csidh.go:153-189: one round of the outer loop with the random number x, up to the test whether all is done.
`none` is `continue`. -/
def actRound (s : RoundSt) (x : Fp) : Option RoundSt :=
  let rhs := montEval limbOps s.A x
  let sign := decide (isNonQuadRes rhs ≠ 0)
  let h := if sign then s.h1 else s.h0
  if h.done then none
  else
    let r := roundHalf sign s.A x h s.log
    let c := modExpRdc512 r.A.c pMin1
    let A := mulRdc r.A.a c
    some ⟨A, if sign then s.h0 else r.half, if sign then r.half else s.h1, r.log⟩

/-- csidh.go:148-193: the outer loop of `groupAction`, `round` being its body.  The variables at its end and the rest of
the random source. -/
def actRounds (round : RoundSt → Fp → Option RoundSt) (s : RoundSt) (rng : List Byte) : Option (RoundSt × List Byte) :=
  match hr : randFp rng with
  | none => none
  | some (x, rest) =>
    match round s x with
    | none => actRounds round s rest
    | some s' => if s'.h0.done && s'.h1.done then some (s', rest) else actRounds round s' rest
termination_by rng.length
decreasing_by all_goals exact randFp_length rng _ _ hr

/-- csidh.go:121-195 `groupAction`, with the record of what it did -/
def groupActionLog (a : Fp) (prv : PrivateKey) (rng : List Byte) : Option (RoundSt × List Byte) :=
  let start : Half := ⟨fpw 4, List.replicate 74 0, false⟩
  actRounds actRound ⟨a, splitKey prv.e false primes 0 start, splitKey prv.e true primes 0 start, []⟩ rng

/-- csidh.go:121-195 `groupAction`: the new pub.a and the rest of the random source -/
def groupAction (a : Fp) (prv : PrivateKey) (rng : List Byte) : Option (Fp × List Byte) :=
  (groupActionLog a prv rng).map fun r => (r.1.A, r.2)

/-- csidh.go:199-207 `PrivateKey.Import` -/
def PrivateKey.importKey (c : PrivateKey) (key : List Byte) : Option (PrivateKey × Bool) :=
  if key.length < c.e.length then some (c, false)
  else if c.e.length < key.length then none
  else some (⟨key⟩, true)

/-- csidh.go:209-217 `PrivateKey.Export`: the new content of `out` -/
def PrivateKey.exportKey (c : PrivateKey) (out : List Byte) : List Byte × Bool :=
  if out.length < c.e.length then (out, false)
  else (c.e ++ out.drop c.e.length, true)

/-- csidh.go:230-238: the loop over the bytes of one buffer; `i` exponents are set already -/
def fillKey : List Byte → Nat → List Byte → Nat × List Byte
  | [], i, e => (i, e)
  | b :: bs, i, e =>
    if b.toInt ≤ 5 ∧ -5 ≤ b.toInt then
      let e := e.set (i / 2) (e.getD (i / 2) 0 ||| ((b &&& (0xF : Byte)) <<< (i % 2 * 4)))
      if i + 1 = 74 then (i + 1, e) else fillKey bs (i + 1) e
    else fillKey bs i e

/-- csidh.go:224-239: the loop of `GeneratePrivateKey` -/
def genLoop (i : Nat) (e rng : List Byte) : PrivateKey × List Byte × Bool :=
  if i < 74 then
    if rng.length < 64 then (⟨e⟩, [], false)
    else
      let (i, e) := fillKey (rng.take 64) i e
      genLoop i e (rng.drop 64)
  else (⟨e⟩, rng, true)
termination_by rng.length
decreasing_by rw [List.length_drop]; omega

/-- csidh.go:219-241 `GeneratePrivateKey`: the key, the rest of the random source, and whether the error is nil -/
def generatePrivateKey (rng : List Byte) : PrivateKey × List Byte × Bool := genLoop 0 (List.replicate 37 0) rng

/-- csidh.go:246-256 `PublicKey.Import` -/
def PublicKey.importKey (c : PublicKey) (key : List Byte) : PublicKey × Bool :=
  if key.length ≠ 64 then (c, false) else (⟨orBytes key 0 c.a⟩, true)

/-- The bytes of an element, csidh.go:263-267 -/
def fpBytes (a : Fp) : List Byte := (List.range 64).map fun i => (word a (i / 8) >>> (8 * (i % 8))).setWidth 8

/-- csidh.go:259-269 `PublicKey.Export`: the new content of `out` -/
def PublicKey.exportKey (c : PublicKey) (out : List Byte) : List Byte × Bool :=
  if out.length ≠ 64 then (out, false) else (fpBytes c.a, true)

/-- csidh.go:271-276 `GeneratePublicKey`: the key and the rest of the random source.  The old key is not used. -/
def generatePublicKey (prv : PrivateKey) (rng : List Byte) : Option (PublicKey × List Byte) :=
  (groupAction fp0 prv rng).map fun r => (⟨r.1⟩, r.2)

/-- csidh.go:295-313: the loop of `Validate` -/
def validateLoop (a : Fp) (rng : List Byte) : Option (Bool × List Byte) :=
  match hr : randFp rng with
  | none => none
  | some (x, rest) =>
    let A : Pt Fp := ⟨a, one⟩
    let P := xDbl limbOps ⟨x, one⟩ A
    let P := xDbl limbOps P A
    let r := cofactorMul P ⟨a, one⟩ 0 74 (fpw 1)
    if r.1 then some (r.2.1, rest) else validateLoop a rest
termination_by rng.length
decreasing_by exact randFp_length rng _ _ hr

/-- csidh.go:283-314 `Validate`: the answer and the rest of the random source -/
def validate (pub : PublicKey) (rng : List Byte) : Option (Bool × List Byte) :=
  if !isLess pub.a p then some (false, rng)
  else if equal pub.a two || equal pub.a twoNeg then some (false, rng)
  else validateLoop pub.a rng

/-- csidh.go:321-332 `DeriveSecret`: the new content of `out`, the answer and the rest of the random source -/
def deriveSecret (out : List Byte) (pub : PublicKey) (prv : PrivateKey) (rng : List Byte) : Option (List Byte × Bool × List Byte) :=
  match validate pub rng with
  | none => none
  | some (false, rng) => some (out, false, rng)
  | some (true, rng) =>
    match groupAction pub.a prv rng with
    | none => none
    | some (a, rng) => some ((PublicKey.exportKey ⟨a⟩ out).1, true, rng)

end Model.Csidh
