import Verif.Model.Mkem
import Verif.Model.AsmAmd64
import Verif.Model.AsmArm
import Verif.Model.AsmCsidh
/-
SIDH and SIKE as built for a platform.  fp2.go, sidh.go and sike.go call the routines addP434, mulP434, … of arith_generic.go, or,
with the build tags at the top of arith_decl.go, the assembly routines of the same names.  Here the Go code is written once more, over a
record `Arith` of these routines; Model/SidhFp2.lean, Model/SidhKeys.lean and Model/Sike.lean are the case of arith_generic.go.  Line
numbers are as in these files.
-/
namespace Model.Sidh
open Model Model.Limb Model.Asm Spec.Sidh

/-- The routines of arith_decl.go. -/
structure Arith where
  add : List W64 → List W64 → List W64
  sub : List W64 → List W64 → List W64
  mul : List W64 → List W64 → List W64
  rdc : List W64 → List W64
  adl : List W64 → List W64 → List W64
  sul : List W64 → List W64 → List W64
  mod : List W64 → List W64
  cswap : List W64 → List W64 → Byte → List W64 × List W64

/-- arith_generic.go -/
def portable (P : Prime) : Arith where
  add := addP P
  sub := subP P
  mul := mulW P
  rdc := rdcP P
  adl := adlP
  sul := sulP P
  mod := modP P
  cswap := cswapP

/-! ### The assembly routines as functions -/

/-- What a call of an assembly routine finds: the registers, the words of its stack frame, the caller's BP and the address of the word
above the frame, the words of the operands above those of the field, and of the destination. -/
structure Env where
  junk : Nat → Val
  stack : Nat → Val
  bp : W64
  fp : W64
  rest : Nat → W64
  old : Nat → W64

/-- An array of m words that begins with x. -/
def Env.fill (e : Env) (m : Nat) (x : List W64) : List W64 := x ++ (List.range (m - x.length)).map e.rest

/-- A destination of m words. -/
def Env.dest (e : Env) (m : Nat) : List W64 := (List.range m).map e.old

/-- A word that is a number. -/
def numOf : Val → W64
  | .w x => x
  | .ptr _ => 0

/-- The first n words of array b after a call; [] if the routine has no result. -/
def Env.result (e : Env) (R : Routine) (data : List (List W64)) (args : List Arg) (b n : Nat) : List W64 :=
  match R.call e.junk ((List.range R.frame).map e.stack) e.bp e.fp data args with
  | some (d, _) => ((d.getD b []).take n).map numOf
  | none => []

/-- A routine `f(z, x, y)`: z and the operands are arrays of m and k words.  (Calls in which pointers coincide give the same:
C78, C79, C87, C88.) -/
def Env.op2 (e : Env) (R : Routine) (m k n : Nat) (x y : List W64) : List W64 :=
  e.result R [e.dest m, e.fill k x, e.fill k y] [.arr 0, .arr 1, .arr 2] 0 n

/-- The swap `f(x, y, choice)`. -/
def Env.swap (e : Env) (R : Routine) (n : Nat) (x y : List W64) (c : Byte) : List W64 × List W64 :=
  -- only the low byte of the argument slot belongs to the argument
  let slot : W64 := (e.rest 0 <<< 8) ||| c.zeroExtend 64
  (e.result R [e.fill 12 x, e.fill 12 y] [.arr 0, .arr 1, .num slot] 0 n,
   e.result R [e.fill 12 x, e.fill 12 y] [.arr 0, .arr 1, .num slot] 1 n)

/-- arith_amd64.s `cswapP434`, `cswapP503`, `cswapP751` -/
def amdSwap : Fld → Routine
  | .p434 => AsmCsidh.cswapP434
  | .p503 => AsmCsidh.cswapP503
  | .p751 => AsmCsidh.cswapP751

/-- The amd64 build on a CPU; what a call finds may depend on its operands in any way. -/
def amd64 (f : Fld) (c : Cpu) (e : List W64 → List W64 → Env) : Arith where
  add x y := (e x y).op2 (Amd64.add f c) 12 12 f.words x y
  sub x y := (e x y).op2 (Amd64.sub f c) 12 12 f.words x y
  mul x y := (e x y).op2 (Amd64.mul f c) 24 12 (2 * f.words) x y
  rdc x := (e x []).result (Amd64.rdc f c) [(e x []).dest 12, (e x []).fill 24 x] [.arr 0, .arr 1] 0 f.words
  adl x y := (e x y).op2 (Amd64.adl f c) 24 24 (2 * f.words) x y
  sul x y := (e x y).op2 (Amd64.sul f c) 24 24 (2 * f.words) x y
  mod x := (e x []).result (Amd64.mod f c) [(e x []).fill 12 x] [.arr 0] 0 f.words
  cswap x y b := (e x y).swap (amdSwap f) f.words x y b

/-- The arm64 build of p503 and p751. -/
def arm64 (f : Arm64.Field) (e : List W64 → List W64 → Env) : Arith where
  add x y := (e x y).op2 (Arm64.add f) 12 12 f.fld.words x y
  sub x y := (e x y).op2 (Arm64.sub f) 12 12 f.fld.words x y
  mul x y := (e x y).op2 (Arm64.mul f) 24 12 (2 * f.fld.words) x y
  rdc x := (e x []).result (Arm64.rdc f) [(e x []).dest 12, (e x []).fill 24 x] [.arr 0, .arr 1] 0 f.fld.words
  adl x y := (e x y).op2 (Arm64.adl f) 24 24 (2 * f.fld.words) x y
  sul x y := (e x y).op2 (Arm64.sul f) 24 24 (2 * f.fld.words) x y
  mod x := (e x []).result (Arm64.mod f) [(e x []).fill 12 x] [.arr 0] 0 f.fld.words
  cswap x y b := (e x y).swap (Arm64.cswap f) f.fld.words x y b

/-! ### fp2.go -/

namespace Arith
variable (M : Arith) (P : Prime)

/-- fp2.go:12-16 `mulP` -/
def mulP (lhs rhs : List W64) : List W64 := M.rdc (M.mul lhs rhs)

/-- fp2.go:37-42 -/
def p34Table (xx last : List W64) : Nat → List (List W64)
  | 0 => []
  | k + 1 =>
    let t := M.mulP last xx
    t :: p34Table xx t k

/-- fp2.go:48-51 -/
def sqrTimes (d : List W64) : Nat → List W64
  | 0 => d
  | k + 1 => sqrTimes (M.mulP d d) k

/-- fp2.go:47-54 -/
def p34Loop (lookup : List (List W64)) : List W64 → List Nat → List Nat → List W64
  | d, pw :: pows, m :: muls =>
    p34Loop lookup (M.mulP (M.sqrTimes (M.mulP d d) (pw - 1)) (lookup.getD m [])) pows muls
  | d, _, _ => d

/-- fp2.go:26-55 `p34` -/
def p34 (x : List W64) : List W64 :=
  let xx := M.mulP x x
  let lookup := x :: M.p34Table xx x 15
  M.p34Loop lookup (lookup.getD P.initialMul []) P.powStrategy P.mulStrategy

/-- fp2.go:57-60 `add` -/
def add2 (lhs rhs : Fp2) : Fp2 := ⟨M.add lhs.A rhs.A, M.add lhs.B rhs.B⟩

/-- fp2.go:62-65 `sub` -/
def sub2 (lhs rhs : Fp2) : Fp2 := ⟨M.sub lhs.A rhs.A, M.sub lhs.B rhs.B⟩

/-- fp2.go:67-93 `mul` -/
def mul2 (lhs rhs : Fp2) : Fp2 :=
  let ac := M.mul lhs.A rhs.A
  let bd := M.mul lhs.B rhs.B
  let bMinA := M.sub lhs.B lhs.A
  let cMinD := M.sub rhs.A rhs.B
  let adPlusBc := M.mul bMinA cMinD
  let adPlusBc := M.adl adPlusBc ac
  let adPlusBc := M.adl adPlusBc bd
  let acMinBd := M.sul ac bd
  ⟨M.rdc acMinBd, M.rdc adPlusBc⟩

/-- fp2.go:99-130 `inv` -/
def inv2 (x : Fp2) : Fp2 :=
  let e1 := M.mul x.A x.A
  let e2 := M.mul x.B x.B
  let e1 := M.adl e1 e2
  let f1 := M.rdc e1
  let f2 := M.mulP f1 f1
  let f2 := M.p34 P f2
  let f2 := M.mulP f2 f2
  let f2 := M.mulP f2 f1
  let e1 := M.mul x.A f2
  let destA := M.rdc e1
  let f1 := M.sub (List.replicate P.n 0) x.B
  let e1 := M.mul f1 f2
  ⟨destA, M.rdc e1⟩

/-- fp2.go:132-147 `sqr` -/
def sqr2 (x : Fp2) : Fp2 :=
  let a2 := M.add x.A x.A
  let aPlusB := M.add x.A x.B
  let aMinusB := M.sub x.A x.B
  let a2MinB2 := M.mul aPlusB aMinusB
  let ab2 := M.mul a2 x.B
  ⟨M.rdc a2MinB2, M.rdc ab2⟩

/-- fp2.go:153-158 `cswap`, one of its two pairs -/
def cswap2 (x y : Fp2) (choice : Byte) : Fp2 × Fp2 :=
  let (xa, ya) := M.cswap x.A y.A choice
  let (xb, yb) := M.cswap x.B y.B choice
  (⟨xa, xb⟩, ⟨ya, yb⟩)

/-- fp2.go as an instance of `Ops` -/
def ops : Ops Fp2 where
  add := M.add2
  sub := M.sub2
  mul := M.mul2
  sqr := M.sqr2
  inv := M.inv2 P
  cswap := M.cswap2

/-- fp2.go:165-174 `ToMontgomery` -/
def toMontgomery (x : Fp2) : Fp2 := ⟨M.rdc (M.mul x.A P.r2), M.rdc (M.mul x.B P.r2)⟩

/-- fp2.go:182-195 `FromMontgomery` -/
def fromMontgomery (x : Fp2) : Fp2 :=
  ⟨M.mod (M.rdc (x.A ++ List.replicate P.n 0)), M.mod (M.rdc (x.B ++ List.replicate P.n 0))⟩

end Arith

/-! ### sidh.go -/

/-- The routines the build uses for a package, by its parameters. -/
abbrev Build := SidhParams → Arith

/-- `!amd64,!arm64` or `noasm` -/
def genericBuild : Build := fun g => portable g.prime

/-- The field of a package. -/
def fldOf (g : SidhParams) : Fld := if g.id = 2 then .p434 else if g.id = 0 then .p503 else .p751

/-- amd64 (line 4 of the three arith_decl.go) -/
def amd64Build (c : Cpu) (e : List W64 → List W64 → Env) : Build := fun g => amd64 (fldOf g) c e

/-- arm64: p503 and p751 in assembly, p434 portable (line 4 of arith_decl.go and arith_generic.go). -/
def arm64Build (e : List W64 → List W64 → Env) : Build := fun g =>
  match fldOf g with
  | .p434 => portable g.prime
  | .p503 => arm64 .p503 e
  | .p751 => arm64 .p751 e

variable (B : Build)

/-- sidh.go:75-100 `PublicKey.Import` -/
def PublicKey.importKeyOn (k : PublicKey) (input : List Byte) : Option (PublicKey × Bool) :=
  if input.length ≠ k.size then some (k, false)
  else do
    let sz := k.params.sharedSecretSize
    let p ← bytesToFp2 k.pts.p (input.take sz) k.params.bytelen
    let q ← bytesToFp2 k.pts.q ((input.drop sz).take sz) k.params.bytelen
    let r ← bytesToFp2 k.pts.r ((input.drop (2 * sz)).take sz) k.params.bytelen
    let g ← pkg k.params.id
    let m := (B g).toMontgomery g.prime
    some ({k with pts := ⟨m p, m q, m r⟩}, true)

/-- sidh.go:104-126 `PublicKey.Export` -/
def PublicKey.exportKeyOn (k : PublicKey) (out : List Byte) : Option (List Byte) := do
  let sz := k.params.sharedSecretSize
  let g ← pkg k.params.id
  let m := (B g).fromMontgomery g.prime
  if out.length < 3 * sz then none
  else do
    let a ← fp2ToBytes (out.take sz) (m k.pts.p) k.params.bytelen
    let b ← fp2ToBytes ((out.drop sz).take sz) (m k.pts.q) k.params.bytelen
    let c ← fp2ToBytes ((out.drop (2 * sz)).take sz) (m k.pts.r) k.params.bytelen
    some (a ++ b ++ c ++ out.drop (3 * sz))

/-- sidh.go:224-253 `PrivateKey.GeneratePublicKey` -/
def PrivateKey.generatePublicKeyOn (k : PrivateKey) (pub : PublicKey) : Option PublicKey :=
  if pub.variant ≠ k.variant ∨ pub.params.id ≠ k.params.id then none
  else do
    let g ← pkg k.params.id
    let t ← if isA k.variant then publicKeyGenA ((B g).ops g.prime) g.curve k.scalar
            else publicKeyGenB ((B g).ops g.prime) g.curve k.scalar
    some {pub with pts := t}

/-- core.go:229-254 `DeriveSecretA`, 257-282 `DeriveSecretB` -/
def deriveSecretPkgOn (g : SidhParams) (a : Bool) (ss prv : List Byte) (pub : Tri Fp2) : Option (List Byte) := do
  let j ← if a then deriveA ((B g).ops g.prime) g.curve prv pub else deriveB ((B g).ops g.prime) g.curve prv pub
  fp2ToBytes ss ((B g).fromMontgomery g.prime j) g.bytelen

/-- sidh.go:260-289 `PrivateKey.DeriveSecret` -/
def PrivateKey.deriveSecretOn (k : PrivateKey) (ss : List Byte) (pub : PublicKey) : Option (List Byte) :=
  if pub.variant = k.variant ∨ pub.params.id ≠ k.params.id then none
  else do
    let g ← pkg k.params.id
    deriveSecretPkgOn B g (isA k.variant) ss k.scalar pub.pts

end Model.Sidh

/-! ### sike.go -/
namespace Model.Sike
open Model Model.Sidh Model.Sha3

variable (B : Build) (P : Plat)

/-- sike.go:201-216 `generateCiphertext` -/
def KEM.generateCiphertextOn (c : KEM) (ctext : List Byte) (skA : PrivateKey) (pkA pkB : PublicKey) (ptext : List Byte) :
    Option (KEM × List Byte) := do
  let n := List.replicate maxMsgBsz 0
  let j := List.replicate maxSharedSecretBsz 0
  let ptextLen := skA.params.msgLen
  let j ← skA.deriveSecretOn B j pkB
  let j ← sliceTo j skA.params.sharedSecretSize
  let n1 ← sliceTo n ptextLen
  let (c, n1) ← c.hash P [j] n1
  let n ← xorInto (n1 ++ n.drop ptextLen) ptext
  let ctext ← pkA.exportKeyOn B ctext
  let n1 ← sliceTo n ptextLen
  let ctext ← copyFrom ctext pkA.size n1
  some (c, ctext)

/-- sike.go:58-106 `Encapsulate` -/
def KEM.encapsulateOn (c : KEM) (ciphertext secret : List Byte) (pub : PublicKey) : Option (KEM × List Byte × List Byte × Bool) :=
  if c.allocated = false then none
  else if variantSike ≠ pub.variant then none
  else if secret.length < c.params.kemSize then none
  else if ciphertext.length < c.params.ciphertextSize then none
  else
  let (msg, rng, ok) := readFull c.rng c.msg
  let c := {c with msg := msg, rng := rng}
  if ok = false then some (c, ciphertext, secret, false)
  else do
    let buf := List.replicate (3 * maxSharedSecretBsz) 0
    let pkA ← newPublicKey (BitVec.ofNat 8 c.params.id) variantA
    let buf ← pub.exportKeyOn B buf
    let buf ← sliceTo buf (3 * c.params.sharedSecretSize)
    let (c, scalar) ← c.hash P [c.msg, buf] c.secretBytes
    let scalar ← maskLast c.params.A.secretBitLen scalar
    let c := {c with secretBytes := scalar}
    let skA : PrivateKey := ⟨c.params, variantA, scalar, []⟩
    let pkA ← skA.generatePublicKeyOn B pkA
    let (c, ciphertext) ← c.generateCiphertextOn B P ciphertext skA pkA pub c.msg
    let s ← sliceTo secret c.params.kemSize
    let (c, s) ← c.hash P [c.msg, ciphertext] s
    some (c, ciphertext, s ++ secret.drop c.params.kemSize, true)

/-- sike.go:243-262 `decrypt` -/
def KEM.decryptOn (c : KEM) (n : List Byte) (prv : PrivateKey) (ctext : List Byte) : Option (KEM × List Byte × Nat × Bool) := do
  let j := List.replicate maxSharedSecretBsz 0
  let pkLen := prv.params.publicKeySize
  let c1Len := ctext.length - pkLen
  let c0 ← newPublicKey (BitVec.ofNat 8 prv.params.id) variantA
  let hd ← sliceTo ctext pkLen
  let (c0, ok) ← c0.importKeyOn B hd
  let j ← prv.deriveSecretOn B j c0
  let j ← sliceTo j prv.params.sharedSecretSize
  let n1 ← sliceTo n c1Len
  let (c, n1) ← c.hash P [j] n1
  let n ← xorInto (n1 ++ n.drop c1Len) (ctext.drop pkLen)
  some (c, n, c1Len, ok)

/-- sike.go:112-176 `Decapsulate` -/
def KEM.decapsulateOn (c : KEM) (secret : List Byte) (prv : PrivateKey) (pub : PublicKey) (ciphertext : List Byte) : Option (KEM × List Byte × Bool) :=
  if c.allocated = false then none
  else if variantSike ≠ pub.variant then none
  else if pub.variant ≠ prv.variant then none
  else if secret.length < c.params.kemSize then none
  else if ciphertext.length ≠ c.params.ciphertextSize then none
  else do
  let m := List.replicate maxMsgBsz 0
  let r := List.replicate maxSidhPrivateKeyBsz 0
  let pkBytes := List.replicate (3 * maxSharedSecretBsz) 0
  let skA : PrivateKey := ⟨c.params, variantA, c.secretBytes, []⟩
  let pkA ← newPublicKey (BitVec.ofNat 8 c.params.id) variantA
  let (c, m, c1Len, ok) ← c.decryptOn B P m prv ciphertext
  if ok = false then some (c, secret, false)
  else do
    let pkBytes ← pub.exportKeyOn B pkBytes
    let m1 ← sliceTo m c1Len
    let pk1 ← sliceTo pkBytes (3 * c.params.sharedSecretSize)
    let r1 ← sliceTo r c.params.A.secretByteLen
    let (c, r1) ← c.hash P [m1, pk1] r1
    let r1 ← maskLast c.params.A.secretBitLen r1
    let (skA, ok) ← skA.importKey r1
    let c := {c with secretBytes := skA.scalar}
    if ok = false then some (c, secret, false)
    else do
      let pkA ← skA.generatePublicKeyOn B pkA
      let pkBytes ← pkA.exportKeyOn B pkBytes
      let x ← sliceTo pkBytes c.params.publicKeySize
      let y ← sliceTo ciphertext pub.params.publicKeySize
      let mask := constantTimeCompare x y
      let m1 ← cpick mask c1Len m1 prv.S
      let s ← sliceTo secret c.params.kemSize
      let (c, s) ← c.hash P [m1, ciphertext] s
      some (c, s ++ secret.drop c.params.kemSize, true)

end Model.Sike

/-! ### kem/mkem/sike.go -/
namespace Model.Mkem
open Model Model.Sidh Model.Sha3 Model.Sike

variable (B : Build) (P : Plat)

/-- mkem/sike.go:259-273: one ciphertext, for the recipient with number `i` -/
def MultiKEM.encryptOneOn (c : MultiKEM) (skA : PrivateKey) (i : Nat) (pkB : PublicKey) : Option MultiKEM :=
  if variantSike ≠ pkB.variant then none
  else do
    let j ← skA.deriveSecretOn B c.j pkB
    let j1 ← sliceTo j skA.params.sharedSecretSize
    let ct ← c.cts[i]?
    let ct1 ← sliceTo ct skA.params.msgLen
    let (k, ct1) ← c.kem.hash P [g2, j1] ct1
    let msg ← sliceTo k.msg skA.params.msgLen
    let ct ← xorInto (ct1 ++ ct.drop skA.params.msgLen) msg
    some ⟨k, c.ct0, c.cts.set i ct, j⟩

/-- mkem/sike.go:259-273: the loop over the recipients -/
def MultiKEM.encryptAllOn (c : MultiKEM) (skA : PrivateKey) : Nat → List PublicKey → Option MultiKEM
  | _, [] => some c
  | i, pkB :: rest => do
    let c ← c.encryptOneOn B P skA i pkB
    c.encryptAllOn skA (i + 1) rest

/-- mkem/sike.go:227-281 `MultiKEM.Encapsulate`: the object and the content of `secret` afterwards, and whether the
error is nil -/
def MultiKEM.encapsulateOn (c : MultiKEM) (secret : List Byte) (pub : List PublicKey) : Option (MultiKEM × List Byte × Bool) :=
  if c.kem.allocated = false then none
  else if secret.length < c.kem.params.kemSize then none
  else
  let (msg, rng, ok) := readFull c.kem.rng c.kem.msg
  let k := {c.kem with msg := msg, rng := rng}
  if ok = false then some ({c with kem := k}, secret, false)
  else do
    let pkA ← Model.Sidh.newPublicKey (BitVec.ofNat 8 k.params.id) variantA
    let m1 ← sliceTo k.msg k.params.msgLen
    let (k, scalar) ← k.hash P [g1, m1] k.secretBytes
    let scalar ← maskLast k.params.A.secretBitLen scalar
    -- skA.Scalar is the same slice as c.secretBytes
    let k := {k with secretBytes := scalar}
    let skA : PrivateKey := ⟨k.params, variantA, scalar, []⟩
    let pkA ← skA.generatePublicKeyOn B pkA
    let ct0 ← pkA.exportKeyOn B c.ct0
    let c ← MultiKEM.encryptAllOn B P ⟨k, ct0, c.cts, c.j⟩ skA 0 pub
    let s ← sliceTo secret c.kem.params.kemSize
    let (k, s) ← c.kem.hash P [g3, c.kem.msg] s
    some ({c with kem := k}, s ++ secret.drop c.kem.params.kemSize, true)

/-- mkem/sike.go:289-373 `MultiKEM.Decapsulate`: the object and the content of `secret` afterwards, and whether the
error is nil -/
def MultiKEM.decapsulateOn (c : MultiKEM) (secret : List Byte) (prv : PrivateKey) (pub : PublicKey) (ctext : List Byte) : Option (MultiKEM × List Byte × Bool) :=
  if c.kem.allocated = false then none
  else if variantSike ≠ pub.variant then none
  else if pub.variant ≠ prv.variant then none
  else if secret.length < c.kem.params.kemSize then none
  else if ctext.length ≠ c.kem.params.kemSize then none
  else do
  let m := List.replicate maxMsgBsz 0
  let r := List.replicate maxPublicKeySz 0
  let cti := List.replicate maxMsgBsz 0
  let pkA ← Model.Sidh.newPublicKey (BitVec.ofNat 8 c.kem.params.id) variantA
  let ct0 ← sliceTo c.ct0 c.kem.params.publicKeySize
  let (pkA, ok) ← pkA.importKeyOn B ct0
  if ok = false then some (c, secret, false)
  else do
    let j ← prv.deriveSecretOn B c.j pkA
    let j1 ← sliceTo j prv.params.sharedSecretSize
    let m1 ← sliceTo m prv.params.msgLen
    let (k, m1) ← c.kem.hash P [g2, j1] m1
    let ctext1 ← sliceTo ctext prv.params.msgLen
    let m ← xorInto (m1 ++ m.drop prv.params.msgLen) ctext1
    -- re-encryption
    let m1 ← sliceTo m k.params.msgLen
    let (k, scalar) ← k.hash P [g1, m1] k.secretBytes
    let scalar ← maskLast k.params.A.secretBitLen scalar
    let k := {k with secretBytes := scalar}
    let skA : PrivateKey := ⟨k.params, variantA, scalar, []⟩
    let pkA ← skA.generatePublicKeyOn B pkA
    let r1 ← sliceTo r k.params.publicKeySize
    let r1 ← pkA.exportKeyOn B r1
    let j ← skA.deriveSecretOn B j pub
    let j1 ← sliceTo j skA.params.sharedSecretSize
    let cti1 ← sliceTo cti skA.params.msgLen
    let (k, cti1) ← k.hash P [g2, j1] cti1
    let msg ← sliceTo k.msg skA.params.msgLen
    let cti ← xorInto (cti1 ++ cti.drop skA.params.msgLen) msg
    let ctext1 ← sliceTo ctext skA.params.msgLen
    let cti1 ← sliceTo cti skA.params.msgLen
    let mask := constantTimeCompare r1 ct0 &&& constantTimeCompare ctext1 cti1
    let m1 ← sliceTo m k.params.msgLen
    let m1 ← cpick mask k.params.msgLen m1 prv.S
    let s ← sliceTo secret k.params.kemSize
    let (k, s) ← k.hash P [g3, m1] s
    some (⟨k, c.ct0, c.cts, j⟩, s ++ secret.drop k.params.kemSize, true)

end Model.Mkem
