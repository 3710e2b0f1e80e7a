import Verif.Model.Mkem
import Verif.Model.Slices
/-
The functions with an output slice and an input slice that may lie over each other, on one memory: `Encapsulate` and
`Decapsulate` of dh/sidh/sike.go (the same text in kem/mkem/sike.go:102-221), `Decapsulate` of kem/mkem/sike.go:289-373,
`ShakeSum128` and `ShakeSum256` of hash/sha3/shake.go.

A slice is a part of the memory, read where the code reads it and written where the code writes it.  The scalar and the
string S of a private key are slices too (the fields are exported).  Public keys are arrays of their own.  The slices of
the KEM object are not exported and lie elsewhere.  A slice never reaches beyond the memory.
-/
namespace Model.SikeOverlap
open Model Model.Sidh Model.Sha3 Model.Sike Model.Mkem

/-- A slice: where it begins and its length. -/
structure Part where
  off : Nat
  len : Nat

/-- What the slice holds now. -/
def rd (mem : List Byte) (w : Part) : List Byte := (mem.drop w.off).take w.len
/-- `copy(w, b)` for `b` not longer than the slice. -/
def wr (mem : List Byte) (w : Part) (b : List Byte) : List Byte := Slices.putAt mem w.off b

/-- A private key whose slices are parts of the memory. -/
structure Priv where
  params : SidhParams
  variant : W64
  scalar : Part
  S : Part

/-- The key now. -/
def Priv.at (k : Priv) (mem : List Byte) : PrivateKey := ⟨k.params, k.variant, rd mem k.scalar, rd mem k.S⟩

variable (P : Plat)

/-- sike.go:201-216 `generateCiphertext`: `pkA.Export(ctext)`, then `copy(ctext[pkA.Size():], n[:ptextLen])` -/
def generateCiphertext (c : KEM) (mem : List Byte) (ctext : Part) (skA : PrivateKey) (pkA pkB : PublicKey) (ptext : List Byte) :
    Option (KEM × List Byte) := do
  let n := List.replicate maxMsgBsz 0
  let j := List.replicate maxSharedSecretBsz 0
  let ptextLen := skA.params.msgLen
  let j ← skA.deriveSecret j pkB
  let j ← sliceTo j skA.params.sharedSecretSize
  let n1 ← sliceTo n ptextLen
  let (c, n1) ← c.hash P [j] n1
  let n ← xorInto (n1 ++ n.drop ptextLen) ptext
  let b ← pkA.exportKey (rd mem ctext)
  let mem := wr mem ctext b
  let n1 ← sliceTo n ptextLen
  let b ← copyFrom (rd mem ctext) pkA.size n1
  some (c, wr mem ctext b)

/-- sike.go:58-106 `Encapsulate`: the object and the memory afterwards, and whether the error is nil -/
def encapsulate (c : KEM) (mem : List Byte) (ciphertext secret : Part) (pub : PublicKey) : Option (KEM × List Byte × Bool) :=
  if c.allocated = false then none
  else if variantSike ≠ pub.variant then none
  else if secret.len < c.params.kemSize then none
  else if ciphertext.len < c.params.ciphertextSize then none
  else
  let (msg, rng, ok) := readFull c.rng c.msg
  let c := {c with msg := msg, rng := rng}
  if ok = false then some (c, mem, false)
  else do
    let buf := List.replicate (3 * maxSharedSecretBsz) 0
    let pkA ← newPublicKey (BitVec.ofNat 8 c.params.id) variantA
    let buf ← pub.exportKey buf
    let buf ← sliceTo buf (3 * c.params.sharedSecretSize)
    let (c, scalar) ← c.hash P [c.msg, buf] c.secretBytes
    let scalar ← maskLast c.params.A.secretBitLen scalar
    let c := {c with secretBytes := scalar}
    let skA : PrivateKey := ⟨c.params, variantA, scalar, []⟩
    let pkA ← skA.generatePublicKey pkA
    let (c, mem) ← generateCiphertext P c mem ciphertext skA pkA pub c.msg
    let s ← sliceTo (rd mem secret) c.params.kemSize
    let (c, s) ← c.hash P [c.msg, rd mem ciphertext] s
    some (c, wr mem secret s, true)

/-- sike.go:112-176 `Decapsulate` with `decrypt` (243-262): the object and the memory afterwards, and whether the error is
nil.  The memory is first written by the last call of `Read`. -/
def decapsulate (c : KEM) (mem : List Byte) (secret : Part) (prv : Priv) (pub : PublicKey) (ciphertext : Part) : Option (KEM × List Byte × Bool) :=
  if c.allocated = false then none
  else if variantSike ≠ pub.variant then none
  else if pub.variant ≠ prv.variant then none
  else if secret.len < c.params.kemSize then none
  else if ciphertext.len ≠ c.params.ciphertextSize then none
  else do
  let m := List.replicate maxMsgBsz 0
  let r := List.replicate maxSidhPrivateKeyBsz 0
  let pkBytes := List.replicate (3 * maxSharedSecretBsz) 0
  let skA : PrivateKey := ⟨c.params, variantA, c.secretBytes, []⟩
  let pkA ← newPublicKey (BitVec.ofNat 8 c.params.id) variantA
  let (c, m, c1Len, ok) ← c.decrypt P m (prv.at mem) (rd mem ciphertext)
  if ok = false then some (c, mem, false)
  else do
    let pkBytes ← pub.exportKey pkBytes
    let m1 ← sliceTo m c1Len
    let pk1 ← sliceTo pkBytes (3 * c.params.sharedSecretSize)
    let r1 ← sliceTo r c.params.A.secretByteLen
    let (c, r1) ← c.hash P [m1, pk1] r1
    let r1 ← maskLast c.params.A.secretBitLen r1
    let (skA, ok) ← skA.importKey r1
    let c := {c with secretBytes := skA.scalar}
    if ok = false then some (c, mem, false)
    else do
      let pkA ← skA.generatePublicKey pkA
      let pkBytes ← pkA.exportKey pkBytes
      let x ← sliceTo pkBytes c.params.publicKeySize
      let y ← sliceTo (rd mem ciphertext) pub.params.publicKeySize
      let mask := constantTimeCompare x y
      let m1 ← cpick mask c1Len m1 (rd mem prv.S)
      let s ← sliceTo (rd mem secret) c.params.kemSize
      let (c, s) ← c.hash P [m1, rd mem ciphertext] s
      some (c, wr mem secret s, true)

/-- kem/mkem/sike.go:289-373 `MultiKEM.Decapsulate`: the object and the memory afterwards, and whether the error is nil.
The memory is first written by the last call of `Read`. -/
def multiDecapsulate (c : MultiKEM) (mem : List Byte) (secret : Part) (prv : Priv) (pub : PublicKey) (ctext : Part) : Option (MultiKEM × List Byte × Bool) :=
  if c.kem.allocated = false then none
  else if variantSike ≠ pub.variant then none
  else if pub.variant ≠ prv.variant then none
  else if secret.len < c.kem.params.kemSize then none
  else if ctext.len ≠ c.kem.params.kemSize then none
  else do
  let m := List.replicate maxMsgBsz 0
  let r := List.replicate maxPublicKeySz 0
  let cti := List.replicate maxMsgBsz 0
  let pkA ← Model.Sidh.newPublicKey (BitVec.ofNat 8 c.kem.params.id) variantA
  let ct0 ← sliceTo c.ct0 c.kem.params.publicKeySize
  let (pkA, ok) ← pkA.importKey ct0
  if ok = false then some (c, mem, false)
  else do
    let j ← (prv.at mem).deriveSecret c.j pkA
    let j1 ← sliceTo j prv.params.sharedSecretSize
    let m1 ← sliceTo m prv.params.msgLen
    let (k, m1) ← c.kem.hash P [g2, j1] m1
    let ctext1 ← sliceTo (rd mem ctext) prv.params.msgLen
    let m ← xorInto (m1 ++ m.drop prv.params.msgLen) ctext1
    let m1 ← sliceTo m k.params.msgLen
    let (k, scalar) ← k.hash P [g1, m1] k.secretBytes
    let scalar ← maskLast k.params.A.secretBitLen scalar
    let k := {k with secretBytes := scalar}
    let skA : PrivateKey := ⟨k.params, variantA, scalar, []⟩
    let pkA ← skA.generatePublicKey pkA
    let r1 ← sliceTo r k.params.publicKeySize
    let r1 ← pkA.exportKey r1
    let j ← skA.deriveSecret j pub
    let j1 ← sliceTo j skA.params.sharedSecretSize
    let cti1 ← sliceTo cti skA.params.msgLen
    let (k, cti1) ← k.hash P [g2, j1] cti1
    let msg ← sliceTo k.msg skA.params.msgLen
    let cti ← xorInto (cti1 ++ cti.drop skA.params.msgLen) msg
    let ctext1 ← sliceTo (rd mem ctext) skA.params.msgLen
    let cti1 ← sliceTo cti skA.params.msgLen
    let mask := constantTimeCompare r1 ct0 &&& constantTimeCompare ctext1 cti1
    let m1 ← sliceTo m k.params.msgLen
    let m1 ← cpick mask k.params.msgLen m1 (rd mem prv.S)
    let s ← sliceTo (rd mem secret) k.params.kemSize
    let (k, s) ← k.hash P [g3, m1] s
    some (⟨k, c.ct0, c.cts, j⟩, wr mem secret s, true)

/-- hash/sha3/shake.go:148-152 `ShakeSum128`: the memory afterwards -/
def shakeSum128 (mem : List Byte) (hash data : Part) : Option (List Byte) := do
  let (h, _, _) ← write P newShake128 (rd mem data)
  let (_, out, _) ← read P h (rd mem hash)
  some (wr mem hash out)
/-- hash/sha3/shake.go:155-159 `ShakeSum256` -/
def shakeSum256 (mem : List Byte) (hash data : Part) : Option (List Byte) := do
  let (h, _, _) ← write P newShake256 (rd mem data)
  let (_, out, _) ← read P h (rd mem hash)
  some (wr mem hash out)

end Model.SikeOverlap
