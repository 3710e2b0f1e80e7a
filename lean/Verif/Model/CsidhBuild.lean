import Verif.Model.CsidhPke
import Verif.Model.AsmCsidh
import Verif.Model.SidhBuild
/-
CSIDH as built for a platform.  fp511.go, curve.go and csidh.go call the routines mul512, mul576, cswap512 and mulRdc of
fp511_generic.go, or, with the build tags at the top of fp511_amd64.go, the assembly routines of the first three names and a mulRdc that calls
the assembly routine mulBmiAsm if the CPU has the instructions for it.  Here the Go code is written once more, over a record `Prim` of
these routines; Model/CsidhArith.lean, Model/Csidh.lean and Model/CsidhPke.lean are the case of fp511_generic.go.  Line numbers are as
in these files.
-/
namespace Model.Csidh
open Model Model.Limb Model.Asm

/-- The routines of fp511_generic.go or fp511_amd64.go.  `bmi` is the `mulBmiAsm` of a build and CPU that call it. -/
structure Prim where
  mul512 : Fp → W64 → Fp
  mul576 : Fp → W64 → List W64
  cswap512 : Fp → Fp → Byte → Fp × Fp
  bmi : Option (Fp → Fp → Fp)

/-- fp511_generic.go -/
def portable : Prim := ⟨mul512, mul576, cswap512, none⟩

/-- fp511_amd64.go and fp511_amd64.s on a CPU; what registers, stack and destination hold at a call may depend on its operands in
any way.  (Calls in which pointers coincide give the same: C84.)  fp511.go:14-17: mulBmiAsm is called on a CPU with BMI2 and ADX. -/
def amd64 (c : Cpu) (e : List W64 → List W64 → Sidh.Env) : Prim where
  mul512 x m := (e x [m]).result (AsmCsidh.mul512On c) [(e x [m]).dest 8, x] [.arr 0, .arr 1, .num m] 0 8
  mul576 x m := (e x [m]).result AsmCsidh.mul576 [(e x [m]).dest 9, x] [.arr 0, .arr 1, .num m] 0 9
  cswap512 x y b :=
    -- only the low byte of the argument slot belongs to the argument
    let slot : W64 := ((e x y).rest 0 <<< 8) ||| b.zeroExtend 64
    ((e x y).result AsmCsidh.cswap512 [x, y] [.arr 0, .arr 1, .num slot] 0 8,
     (e x y).result AsmCsidh.cswap512 [x, y] [.arr 0, .arr 1, .num slot] 1 8)
  bmi := match c with
    | .adx => some fun x y => (e x y).result AsmCsidh.mulBmi [(e x y).dest 8, x, y] [.arr 0, .arr 1, .arr 2] 0 8
    | _ => none

namespace Prim
variable (M : Prim)

/-! ### fp511.go -/

/-- fp511.go:43-68: one round of `mulGeneric` -/
def mulRound (y s : Fp) (xi c0 : W64) : Fp × W64 :=
  let q := (xi * word y 0 + word s 0) * word pNegInv 0
  let t1 := M.mul576 p q
  let t2 := M.mul576 y xi
  let (t1, _) := addLoop t1 t2 c0
  let (_, c) := add64 (word t1 0) (word s 0) 0
  let (r, c) := addLoop ((t1.drop 1).take 7) ((s.drop 1).take 7) c
  let (r7, _) := add64 (word t1 8) 0 c
  (r ++ [r7], c)

/-- fp511.go:43-69: the loop of `mulGeneric` -/
def mulLoop (y : Fp) : List W64 → Fp × W64 → Fp × W64
  | [], s => s
  | xi :: xs, (s, _) => mulLoop y xs (M.mulRound y s xi 0)

/-- fp511.go:38-95 `mulGeneric` -/
def mulGeneric (x y : Fp) : Fp :=
  let (s, c) := M.mulLoop y (x.take 7) (List.replicate 8 0, 0)
  (M.mulRound y s (word x 7) c).1

/-- fp511_generic.go:98-123 and fp511_amd64.go:21-50 `mulRdc` -/
def mulRdc (x y : Fp) : Fp :=
  condSub (match M.bmi with
    | some f => f x y
    | none => M.mulGeneric x y)

/-- fp511.go:198-205: the table after `k` iterations -/
def precomp (b : Fp) : Nat → List Fp
  | 0 => [one, b]
  | k + 1 =>
    let t := precomp b k
    let i := 2 * (k + 1)
    let h := t.getD (i / 2) []
    let sq := M.mulRdc h h
    t ++ [sq, M.mulRdc sq b]

/-- fp511.go:209-211 -/
def sqrTimes : Nat → Fp → Fp
  | 0, r => r
  | k + 1, r => sqrTimes k (M.mulRdc r r)

/-- fp511.go:208-215 -/
def expLoop (tab : List Fp) (e : Fp) : Nat → Fp → Fp
  | 0, r => r
  | i + 1, r =>
    let r := M.sqrTimes 4 r
    let idx := (word e (i / 16) >>> (i % 16 * 4)) &&& 15
    expLoop tab e i (M.mulRdc r (tab.getD idx.toNat []))

/-- fp511.go:190-236 `modExpRdcCommon` -/
def modExpRdcCommon (b e : Fp) (fpBitLen : Nat) : Fp :=
  condSub (M.expLoop (M.precomp b 7) e (fpBitLen / 4) one)

/-- fp511.go:240-242 `modExpRdc512` -/
def modExpRdc512 (b e : Fp) : Fp := M.modExpRdcCommon b e 512

/-- fp511.go:246-248 `modExpRdc64` -/
def modExpRdc64 (b : Fp) (e : W64) : Fp := M.modExpRdcCommon b (e :: List.replicate 7 0) 64

/-- fp511.go:259-269 `isNonQuadRes` -/
def isNonQuadRes (v : Fp) : Nat :=
  let res := M.modExpRdc512 v pMin1By2
  ctIsNonZero64 ((List.zipWith (· ^^^ ·) res one).foldl (· ||| ·) 0)

/-- the operations of fp511.go that curve.go calls -/
def ops : Ops Fp where
  zero := List.replicate 8 0
  one := Csidh.one
  four := Csidh.four
  add := addRdc
  sub := subRdc
  mul := M.mulRdc
  exp64 := M.modExpRdc64
  cswap := M.cswap512

/-! ### csidh.go -/

/-- csidh.go:97-103 -/
def mulPrimes (lo n : Nat) (m : Fp) : Fp := ((primes.drop lo).take n).foldl M.mul512 m

/-- csidh.go:74-116 `cofactorMul` -/
def cofactorMul (P : Pt Fp) (a : Coef Fp) (halfL n : Nat) (order : Fp) : Bool × Bool × Fp :=
  if n = 0 then (false, false, order)
  else if n = 1 then
    if !isZero P.z then
      let P := xMul M.ops P a (fpw (word primes halfL))
      if !isZero P.z then (true, false, order)
      else
        let order := M.mul512 order (word primes halfL)
        if isLess fourSqrtP order then (true, true, order) else (false, false, order)
    else (false, false, order)
  else
    let h := (n + 1) / 2
    let mid := halfL + h
    let mulR := M.mulPrimes halfL h (fpw 1)
    let mulL := M.mulPrimes mid (n - h) (fpw 1)
    let Q := xMul M.ops P a mulR
    let P := xMul M.ops P a mulL
    let (d1, r1, order) := cofactorMul Q a mid (n - h) order
    let (d2, r2, order) := cofactorMul P a halfL h order
    (d1 || d2, r1 || r2, order)
termination_by n
decreasing_by all_goals omega

/-- csidh.go:122-147 -/
def splitKey (prv : List Byte) (sign : Bool) : List W64 → Nat → Half → Half
  | [], _, h => h
  | v :: vs, i, h =>
    let t := expAt prv i
    let t := if sign then -t else t
    if (0 : Int) < t.toInt then splitKey prv sign vs (i + 1) {h with e := h.e.set i t}
    else splitKey prv sign vs (i + 1) {h with e := h.e.set i 0, k := M.mul512 h.k v}

/-- csidh.go:167-171 -/
def cofactor (e : List Byte) (i : Nat) : Fp :=
  (List.range' (i + 1) (74 - (i + 1))).foldl (fun cof j => if e.getD j 0 ≠ 0 then M.mul512 cof (word primes j) else cof) (fpw 1)

/-- csidh.go:162-184: one iteration of the loop over the primes -/
def actStep (sign : Bool) (start x : Fp) (v : W64) (i : Nat) (s : ActSt) : ActSt :=
  let s :=
    if s.half.e.getD i 0 ≠ 0 then
      let K := xMul M.ops s.P s.A (M.cofactor s.half.e i)
      if !isZero K.z then
        let (P, A) := xIso M.ops s.P s.A K v
        let e := s.half.e.set i (s.half.e.getD i 0 - 1)
        let k := if e.getD i 0 = 0 then M.mul512 s.half.k (word primes i) else s.half.k
        ⟨P, A, {s.half with e := e, k := k}, s.log ++ [⟨v, sign, start, x, s.A, K⟩]⟩
      else s
    else s
  {s with half := {s.half with done := s.half.done && decide (s.half.e.getD i 0 = 0)}}

/-- csidh.go:162-184 -/
def actLoop (sign : Bool) (start x : Fp) : List W64 → Nat → ActSt → ActSt
  | [], _, s => s
  | v :: vs, i, s => actLoop sign start x vs (i + 1) (M.actStep sign start x v i s)

/-- csidh.go:160-184 -/
def roundHalf (sign : Bool) (A x : Fp) (h : Half) (log : List Event) : ActSt :=
  let P := xMul M.ops ⟨x, one⟩ ⟨A, one⟩ h.k
  M.actLoop sign A x primes 0 ⟨P, ⟨A, one⟩, {h with done := true}, log⟩

/-- csidh.go:153-189 -/
def actRound (s : RoundSt) (x : Fp) : Option RoundSt :=
  let rhs := montEval M.ops s.A x
  let sign := decide (M.isNonQuadRes rhs ≠ 0)
  let h := if sign then s.h1 else s.h0
  if h.done then none
  else
    let r := M.roundHalf sign s.A x h s.log
    let c := M.modExpRdc512 r.A.c pMin1
    let A := M.mulRdc r.A.a c
    some ⟨A, if sign then s.h0 else r.half, if sign then r.half else s.h1, r.log⟩

/-- csidh.go:121-195 `groupAction` -/
def groupAction (a : Fp) (prv : PrivateKey) (rng : List Byte) : Option (Fp × List Byte) :=
  let start : Half := ⟨fpw 4, List.replicate 74 0, false⟩
  (actRounds M.actRound ⟨a, M.splitKey prv.e false primes 0 start, M.splitKey prv.e true primes 0 start, []⟩ rng).map fun r => (r.1.A, r.2)

/-- csidh.go:271-276 `GeneratePublicKey` -/
def generatePublicKey (prv : PrivateKey) (rng : List Byte) : Option (PublicKey × List Byte) :=
  (M.groupAction fp0 prv rng).map fun r => (⟨r.1⟩, r.2)

/-- csidh.go:295-313: the loop of `Validate` -/
def validateLoop (a : Fp) (rng : List Byte) : Option (Bool × List Byte) :=
  match hr : randFp rng with
  | none => none
  | some (x, rest) =>
    let A : Pt Fp := ⟨a, one⟩
    let P := xDbl M.ops ⟨x, one⟩ A
    let P := xDbl M.ops P A
    let r := M.cofactorMul P ⟨a, one⟩ 0 74 (fpw 1)
    if r.1 then some (r.2.1, rest) else validateLoop a rest
termination_by rng.length
decreasing_by exact randFp_length rng _ _ hr

/-- csidh.go:283-314 `Validate` -/
def validate (pub : PublicKey) (rng : List Byte) : Option (Bool × List Byte) :=
  if !isLess pub.a p then some (false, rng)
  else if equal pub.a two || equal pub.a twoNeg then some (false, rng)
  else M.validateLoop pub.a rng

/-- csidh.go:321-332 `DeriveSecret` -/
def deriveSecret (out : List Byte) (pub : PublicKey) (prv : PrivateKey) (rng : List Byte) : Option (List Byte × Bool × List Byte) :=
  match M.validate pub rng with
  | none => none
  | some (false, rng) => some (out, false, rng)
  | some (true, rng) =>
    match M.groupAction pub.a prv rng with
    | none => none
    | some (a, rng) => some ((PublicKey.exportKey ⟨a⟩ out).1, true, rng)

/-! ### kem/mkem/csidh.go -/

open Model.CsidhPke Model.Sha3

/-- csidh.go:50-69 `PKE.Enc` -/
def enc (P : Plat) (c : PKE) (pk : PublicKey) (pt : List Byte) : Option (PKE × Ciphertext) := do
  let rng ← c.rng
  let (skA, rng, _) := generatePrivateKey rng
  let (ss, _, rng) ← M.deriveSecret (List.replicate 64 0) pk skA rng
  let h ← c.h
  let (h, ss) ← hash P (reset h) ss
  let V := mask (List.replicate 64 0) pt ss
  let (pkA, rng) ← M.generatePublicKey skA rng
  some (⟨some rng, some h⟩, ⟨(pkA.exportKey (List.replicate 64 0)).1, V⟩)

/-- csidh.go:72-87 `PKE.Dec` -/
def dec (P : Plat) (c : PKE) (sk : PrivateKey) (ct : Ciphertext) : Option (PKE × List Byte) := do
  let rng ← c.rng
  let (pk, _) := PublicKey.zero.importKey ct.U
  let (ss, _, rng) ← M.deriveSecret (List.replicate 64 0) pk sk rng
  let h ← c.h
  let (h, ss) ← hash P (reset h) ss
  some (⟨some rng, some h⟩, mask (List.replicate 16 0) ct.V ss)

/-- csidh.go:97-106: the loop of `Encrypt` -/
def encryptLoop (P : Plat) (skA : PrivateKey) (pt : List Byte) : List PublicKey → Nat → List Byte → List Byte → Option State → List (List Byte) →
    Option (List Byte × Option State × List (List Byte))
  | [], _, _, rng, h, cts => some (rng, h, cts)
  | pk :: pks, i, ss, rng, h, cts => do
    let (ss, _, rng) ← M.deriveSecret ss pk skA rng
    let h ← h
    let (h, ss) ← hash P h ss
    if cts.length ≤ i then none
    encryptLoop P skA pt pks (i + 1) ss rng (some (reset h)) (cts.set i (mask (cts.getD i []) pt ss))

/-- csidh.go:90-111 `MultiPKE.Encrypt` -/
def encrypt (P : Plat) (c : MultiPKE) (keys : List PublicKey) (pt : List Byte) : Option MultiPKE := do
  let rng ← c.pke.rng
  let (skA, rng, _) := generatePrivateKey rng
  let (rng, h, cts) ← M.encryptLoop P skA pt keys 0 (List.replicate 64 0) rng c.pke.h c.cts
  let (pkA, rng) ← M.generatePublicKey skA rng
  some ⟨⟨some rng, h⟩, (pkA.exportKey c.ct0).1, cts⟩

end Prim
end Model.Csidh
