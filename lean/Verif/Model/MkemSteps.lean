import Verif.Model.SikeSteps
import Verif.Model.Mkem
/-
What an observer could see of `MultiKEM` of kem/mkem/sike.go: the functions of Model/Mkem.lean once more, writing down their steps as in
Model/SikeSteps.lean.
-/
namespace Model.Mkem
open Model Model.Sidh Model.Sha3 Model.Sike Tr

variable (P : Plat)

/-- mkem/sike.go:259-273: one ciphertext, for the recipient with number `i` -/
def MultiKEM.encryptOneT (c : MultiKEM) (skA : PrivateKey) (i : Nat) (pkB : PublicKey) : Tr MultiKEM := do
  tell [.test (decide (variantSike ≠ pkB.variant))]
  if variantSike ≠ pkB.variant then panic
  else do
    let j ← skA.deriveSecretT c.j pkB
    let j1 ← lift (sliceTo j skA.params.sharedSecretSize)
    let ct ← lift c.cts[i]?
    let ct1 ← lift (sliceTo ct skA.params.msgLen)
    let h ← c.kem.hashT P [g2, j1] ct1
    let msg ← lift (sliceTo h.1.msg skA.params.msgLen)
    let ct ← lift (xorInto (h.2 ++ ct.drop skA.params.msgLen) msg) (loop skA.params.msgLen)
    pure ⟨h.1, c.ct0, c.cts.set i ct, j⟩

/-- mkem/sike.go:259-273: the loop over the recipients -/
def MultiKEM.encryptAllT (c : MultiKEM) (skA : PrivateKey) : Nat → List PublicKey → Tr MultiKEM
  | _, [] => do
    tell [.test false]
    pure c
  | i, pkB :: rest => do
    tell [.test true]
    let c ← c.encryptOneT P skA i pkB
    c.encryptAllT skA (i + 1) rest

/-- mkem/sike.go:227-281 `MultiKEM.Encapsulate` -/
def MultiKEM.encapsulateT (c : MultiKEM) (secret : List Byte) (pub : List PublicKey) : Tr (MultiKEM × List Byte × Bool) := do
  tell [.test (!c.kem.allocated)]
  if c.kem.allocated = false then panic
  else do
  tell [.test (decide (secret.length < c.kem.params.kemSize))]
  if secret.length < c.kem.params.kemSize then panic
  else do
  let r := readFull c.kem.rng c.kem.msg
  tell [.rng c.kem.msg.length, .test (!r.2.2)]
  let k := {c.kem with msg := r.1, rng := r.2.1}
  if r.2.2 = false then pure ({c with kem := k}, secret, false)
  else do
    let pkA ← lift (Model.Sidh.newPublicKey (BitVec.ofNat 8 k.params.id) variantA)
    let m1 ← lift (sliceTo k.msg k.params.msgLen)
    let h ← k.hashT P [g1, m1] k.secretBytes
    let k := h.1
    let scalar ← lift (maskLast k.params.A.secretBitLen h.2)
    let k := {k with secretBytes := scalar}
    let skA : PrivateKey := ⟨k.params, variantA, scalar, []⟩
    let pkA ← skA.generatePublicKeyT pkA
    let ct0 ← pkA.exportKeyT c.ct0
    let c ← MultiKEM.encryptAllT P ⟨k, ct0, c.cts, c.j⟩ skA 0 pub
    let s ← lift (sliceTo secret c.kem.params.kemSize)
    let h ← c.kem.hashT P [g3, c.kem.msg] s
    pure ({c with kem := h.1}, h.2 ++ secret.drop c.kem.params.kemSize, true)

/-- mkem/sike.go:289-373 `MultiKEM.Decapsulate` -/
def MultiKEM.decapsulateT (c : MultiKEM) (secret : List Byte) (prv : PrivateKey) (pub : PublicKey) (ctext : List Byte) : Tr (MultiKEM × List Byte × Bool) := do
  tell [.test (!c.kem.allocated)]
  if c.kem.allocated = false then panic
  else do
  tell [.test (decide (variantSike ≠ pub.variant))]
  if variantSike ≠ pub.variant then panic
  else do
  tell [.test (decide (pub.variant ≠ prv.variant))]
  if pub.variant ≠ prv.variant then panic
  else do
  tell [.test (decide (secret.length < c.kem.params.kemSize))]
  if secret.length < c.kem.params.kemSize then panic
  else do
  tell [.test (decide (ctext.length ≠ c.kem.params.kemSize))]
  if ctext.length ≠ c.kem.params.kemSize then panic
  else do
  let m := List.replicate maxMsgBsz 0
  let r := List.replicate maxPublicKeySz 0
  let cti := List.replicate maxMsgBsz 0
  let pkA ← lift (Model.Sidh.newPublicKey (BitVec.ofNat 8 c.kem.params.id) variantA)
  let ct0 ← lift (sliceTo c.ct0 c.kem.params.publicKeySize)
  let i ← pkA.importKeyT ct0
  tell [.test (!i.2)]
  if i.2 = false then pure (c, secret, false)
  else do
    let j ← prv.deriveSecretT c.j i.1
    let j1 ← lift (sliceTo j prv.params.sharedSecretSize)
    let m1 ← lift (sliceTo m prv.params.msgLen)
    let h ← c.kem.hashT P [g2, j1] m1
    let k := h.1
    let ctext1 ← lift (sliceTo ctext prv.params.msgLen)
    let m ← lift (xorInto (h.2 ++ m.drop prv.params.msgLen) ctext1) (loop prv.params.msgLen)
    -- re-encryption
    let m1 ← lift (sliceTo m k.params.msgLen)
    let h ← k.hashT P [g1, m1] k.secretBytes
    let k := h.1
    let scalar ← lift (maskLast k.params.A.secretBitLen h.2)
    let k := {k with secretBytes := scalar}
    let skA : PrivateKey := ⟨k.params, variantA, scalar, []⟩
    let pkA ← skA.generatePublicKeyT i.1
    let r1 ← lift (sliceTo r k.params.publicKeySize)
    let r1 ← pkA.exportKeyT r1
    let j ← skA.deriveSecretT j pub
    let j1 ← lift (sliceTo j skA.params.sharedSecretSize)
    let cti1 ← lift (sliceTo cti skA.params.msgLen)
    let h ← k.hashT P [g2, j1] cti1
    let k := h.1
    let msg ← lift (sliceTo k.msg skA.params.msgLen)
    let cti ← lift (xorInto (h.2 ++ cti.drop skA.params.msgLen) msg) (loop skA.params.msgLen)
    let ctext1 ← lift (sliceTo ctext skA.params.msgLen)
    let cti1 ← lift (sliceTo cti skA.params.msgLen)
    -- crypto/subtle: the lengths are compared first
    tell [.test (decide (r1.length ≠ ct0.length)), .bytes (min r1.length ct0.length),
      .test (decide (ctext1.length ≠ cti1.length)), .bytes (min ctext1.length cti1.length)]
    let mask := constantTimeCompare r1 ct0 &&& constantTimeCompare ctext1 cti1
    let m1 ← lift (sliceTo m k.params.msgLen)
    let m1 ← lift (cpick mask k.params.msgLen m1 prv.S) (loop k.params.msgLen)
    let s ← lift (sliceTo secret k.params.kemSize)
    let h ← k.hashT P [g3, m1] s
    pure (⟨h.1, c.ct0, c.cts, j⟩, h.2 ++ secret.drop h.1.params.kemSize, true)

end Model.Mkem
