import Verif.Model.Mkem
import Verif.Model.Csidh
import Verif.Model.DRBG
/-
The functions that take random bytes once more, now from any `io.Reader` instead of a list of bytes: dh/sidh/sidh.go,
dh/sidh/sike.go (the same text in kem/mkem/sike.go:102-150), kem/mkem/sike.go, dh/csidh/csidh.go.  All of them read with
`io.ReadFull`; that function of the standard library is modelled as its text has it.

`none` is a call that does not return: it panics, or it runs for ever.
-/
namespace Model.Reader
open Model Model.Sidh Model.Sha3 Model.Sike Model.Mkem

/-- An `io.Reader`: `Read(p)` for a slice holding `p` gives the number of bytes delivered, whether the error is non-nil,
what the slice holds afterwards, and the reader afterwards.  `none` is a panic. -/
structure Reader (σ : Type) where
  read : σ → List Byte → Option (Nat × Bool × List Byte × σ)

variable {σ : Type} (R : Reader σ)

/-- io.ReadAtLeast: `for n < min && err == nil { nn, err = r.Read(buf[n:]); n += nn }` with `min = len(buf)`; the slice,
`n` and the reader afterwards -/
def gather (s : σ) (buf : List Byte) (n : Nat) : Option (List Byte × Nat × σ) :=
  if n < buf.length then do
    let r ← R.read s (buf.drop n)
    let buf := buf.take n ++ r.2.2.1
    let n := n + r.1
    if r.2.1 then some (buf, n, r.2.2.2) else gather r.2.2.2 buf n
  else some (buf, n, s)
partial_fixpoint

/-- `io.ReadFull(r, buf)`: the slice, whether the error is nil, and the reader afterwards -/
def readFull (s : σ) (buf : List Byte) : Option (List Byte × Bool × σ) := do
  let r ← gather R s buf 0
  some (r.1, decide (buf.length ≤ r.2.1), r.2.2)

/-- sidh.go:188-221 `PrivateKey.Generate`: the key afterwards, whether the error is nil, and the reader -/
def generate (s : σ) (k : Sidh.PrivateKey) : Option (Sidh.PrivateKey × Bool × σ) := do
  let dp := if isA k.variant then k.params.A else k.params.B
  let r ← if k.variant = variantSike then readFull R s k.S else some (k.S, true, s)
  let k := {k with S := r.1}
  if r.2.1 = false then some (k, false, r.2.2)
  else do
    let r ← readFull R r.2.2 k.scalar
    let sc := r.1
    if r.2.1 = false then some ({k with scalar := sc}, false, r.2.2)
    else if sc.length = 0 then none
    else some ({k with scalar := sc.set (sc.length - 1) (topByte dp.secretBitLen (sc.getD (sc.length - 1) 0))}, true, r.2.2)

variable (P : Plat)

/-- sike.go:81-105: `Encapsulate` after the message has been drawn.  `skA.Scalar` is the same slice as
`c.secretBytes`. -/
def encapsulateRest (c : KEM) (ciphertext secret : List Byte) (pub : Sidh.PublicKey) : Option (KEM × List Byte × List Byte) := do
  let buf := List.replicate (3 * maxSharedSecretBsz) 0
  let pkA ← newPublicKey (BitVec.ofNat 8 c.params.id) variantA
  let buf ← pub.exportKey buf
  let buf ← sliceTo buf (3 * c.params.sharedSecretSize)
  let (c, scalar) ← c.hash P [c.msg, buf] c.secretBytes
  let scalar ← maskLast c.params.A.secretBitLen scalar
  let c := {c with secretBytes := scalar}
  let skA : Sidh.PrivateKey := ⟨c.params, variantA, scalar, []⟩
  let pkA ← skA.generatePublicKey pkA
  let (c, ciphertext) ← c.generateCiphertext P ciphertext skA pkA pub c.msg
  let s ← sliceTo secret c.params.kemSize
  let (c, s) ← c.hash P [c.msg, ciphertext] s
  some (c, ciphertext, s ++ secret.drop c.params.kemSize)

/-- sike.go:58-106 `Encapsulate` of an object whose `rng` is the reader (the list `c.rng` is not used): the object, the
two slices, whether the error is nil, and the reader afterwards -/
def encapsulate (s : σ) (c : KEM) (ciphertext secret : List Byte) (pub : Sidh.PublicKey) :
    Option (KEM × List Byte × List Byte × Bool × σ) :=
  if c.allocated = false then none
  else if variantSike ≠ pub.variant then none
  else if secret.length < c.params.kemSize then none
  else if ciphertext.length < c.params.ciphertextSize then none
  else do
    let r ← readFull R s c.msg
    let c := {c with msg := r.1}
    if r.2.1 = false then some (c, ciphertext, secret, false, r.2.2)
    else do
      let x ← encapsulateRest P c ciphertext secret pub
      some (x.1, x.2.1, x.2.2, true, r.2.2)

/-- mkem/sike.go:243-281: `MultiKEM.Encapsulate` after the message has been drawn -/
def multiRest (c : MultiKEM) (secret : List Byte) (pub : List Sidh.PublicKey) : Option (MultiKEM × List Byte) := do
  let k := c.kem
  let pkA ← Model.Sidh.newPublicKey (BitVec.ofNat 8 k.params.id) variantA
  let m1 ← sliceTo k.msg k.params.msgLen
  let (k, scalar) ← k.hash P [g1, m1] k.secretBytes
  let scalar ← maskLast k.params.A.secretBitLen scalar
  let k := {k with secretBytes := scalar}
  let skA : Sidh.PrivateKey := ⟨k.params, variantA, scalar, []⟩
  let pkA ← skA.generatePublicKey pkA
  let ct0 ← pkA.exportKey c.ct0
  let c ← MultiKEM.encryptAll P ⟨k, ct0, c.cts, c.j⟩ skA 0 pub
  let s ← sliceTo secret c.kem.params.kemSize
  let (k, s) ← c.kem.hash P [g3, c.kem.msg] s
  some ({c with kem := k}, s ++ secret.drop c.kem.params.kemSize)

/-- mkem/sike.go:227-281 `MultiKEM.Encapsulate` of an object whose `rng` is the reader -/
def multiEncapsulate (s : σ) (c : MultiKEM) (secret : List Byte) (pub : List Sidh.PublicKey) : Option (MultiKEM × List Byte × Bool × σ) :=
  if c.kem.allocated = false then none
  else if secret.length < c.kem.params.kemSize then none
  else do
    let r ← readFull R s c.kem.msg
    let c := {c with kem := {c.kem with msg := r.1}}
    if r.2.1 = false then some (c, secret, false, r.2.2)
    else do
      let x ← multiRest P c secret pub
      some (x.1, x.2, true, r.2.2)

/-! ### dh/csidh/csidh.go -/

open Model.Csidh

/-- csidh.go:44-64 `randFp`; `wbuf` is what the buffer of 64 bytes holds -/
def randFp (s : σ) (wbuf : List Byte) : Option (Fp × List Byte × σ) := do
  let r ← readFull R s wbuf
  if r.2.1 = false then none
  else
    let v := candidate r.1
    if isLess v p then some (v, r.1, r.2.2) else randFp r.2.2 r.1
partial_fixpoint

/-- csidh.go:148-193: the outer loop of `groupAction`, `round` being its body -/
def actRounds (round : RoundSt → Fp → Option RoundSt) (st : RoundSt) (s : σ) (wbuf : List Byte) : Option (RoundSt × List Byte × σ) := do
  let x ← randFp R s wbuf
  match round st x.1 with
  | none => actRounds round st x.2.2 x.2.1
  | some st' => if st'.h0.done && st'.h1.done then some (st', x.2.1, x.2.2) else actRounds round st' x.2.2 x.2.1
partial_fixpoint

/-- csidh.go:121-195 `groupAction`: the new pub.a, the buffer of `prv` and the reader -/
def groupAction (a : Fp) (prv : Csidh.PrivateKey) (s : σ) (wbuf : List Byte) : Option (Fp × List Byte × σ) := do
  let start : Half := ⟨fpw 4, List.replicate 74 0, false⟩
  let r ← actRounds R actRound ⟨a, splitKey prv.e false primes 0 start, splitKey prv.e true primes 0 start, []⟩ s wbuf
  some (r.1.A, r.2.1, r.2.2)

/-- csidh.go:224-239: the loop of `GeneratePrivateKey`: the key, whether the error is nil, the buffer and the reader -/
def genLoop (i : Nat) (e : List Byte) (s : σ) (wbuf : List Byte) : Option (Csidh.PrivateKey × Bool × List Byte × σ) :=
  if i < 74 then do
    let r ← readFull R s wbuf
    if r.2.1 = false then some (⟨e⟩, false, r.1, r.2.2)
    else
      let x := fillKey r.1 i e
      genLoop x.1 x.2 r.2.2 r.1
  else some (⟨e⟩, true, wbuf, s)
partial_fixpoint

/-- csidh.go:219-241 `GeneratePrivateKey` -/
def generatePrivateKey (s : σ) (wbuf : List Byte) : Option (Csidh.PrivateKey × Bool × List Byte × σ) :=
  genLoop R 0 (List.replicate 37 0) s wbuf

/-- csidh.go:271-276 `GeneratePublicKey` -/
def generatePublicKey (prv : Csidh.PrivateKey) (s : σ) (wbuf : List Byte) : Option (Csidh.PublicKey × List Byte × σ) := do
  let r ← groupAction R fp0 prv s wbuf
  some (⟨r.1⟩, r.2.1, r.2.2)

/-- csidh.go:295-313: the loop of `Validate`, `check` being what it does with the point -/
def checkLoop {τ : Type} (check : Fp → Bool × Bool × τ) (s : σ) (wbuf : List Byte) : Option (Bool × List Byte × σ) := do
  let x ← randFp R s wbuf
  let r := check x.1
  if r.1 then some (r.2.1, x.2.1, x.2.2) else checkLoop check x.2.2 x.2.1
partial_fixpoint

/-- csidh.go:302-308: the point with x-coordinate `x` is doubled twice and multiplied by the cofactors -/
def checkPoint (a x : Fp) : Bool × Bool × Fp :=
  let A : Csidh.Pt Fp := ⟨a, one⟩
  let P := xDbl limbOps ⟨x, one⟩ A
  let P := xDbl limbOps P A
  cofactorMul P ⟨a, one⟩ 0 74 (fpw 1)

/-- csidh.go:295-313 -/
def validateLoop (a : Fp) (s : σ) (wbuf : List Byte) : Option (Bool × List Byte × σ) := checkLoop R (checkPoint a) s wbuf

/-- csidh.go:283-314 `Validate`: the answer, the buffer of `pub` and the reader -/
def validate (pub : Csidh.PublicKey) (s : σ) (wbuf : List Byte) : Option (Bool × List Byte × σ) :=
  if !isLess pub.a p then some (false, wbuf, s)
  else if equal pub.a two || equal pub.a twoNeg then some (false, wbuf, s)
  else validateLoop R pub.a s wbuf

/-- csidh.go:321-332 `DeriveSecret`: the new content of `out`, the answer and the reader; `wbuf` is the
buffer of `pub`, `wbuf'` that of `prv` -/
def deriveSecret (out : List Byte) (pub : Csidh.PublicKey) (prv : Csidh.PrivateKey) (s : σ) (wbuf wbuf' : List Byte) :
    Option (List Byte × Bool × σ) := do
  let v ← validate R pub s wbuf
  if v.1 = false then some (out, false, v.2.2)
  else do
    let r ← groupAction R pub.a prv v.2.2 wbuf'
    some ((Csidh.PublicKey.exportKey ⟨r.1⟩ out).1, true, r.2.2)

/-! ### readers of the library -/

/-- ctr_drbg.go:158-160 `Read` of a generator; the error is nil -/
def drbg : Reader DRBG.CtrDrbg := ⟨fun c p => do
  let r ← DRBG.read c p
  some (r.2.2, false, r.2.1, r.1)⟩

/-- sha3.go:155-191 `Read` of a hash object; the error is nil -/
def shake (P : Plat) : Reader State := ⟨fun c p => do
  let r ← Sha3.read P c p
  some (r.2.2, false, r.2.1, r.1)⟩

end Model.Reader
