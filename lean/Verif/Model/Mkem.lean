import Verif.Model.Sike
/-
Model of `MultiKEM` of kem/mkem/sike.go.  The embedded `KEM` is the model of Verif/Model/Sike.lean.  A panic is `none`.
Buffers given by the caller are taken not to overlap those of the object.
-/
namespace Model.Mkem
open Model Model.Sidh Model.Sha3 Model.Sike

/-- mkem/sike.go:25-33 `MultiKEM` -/
structure MultiKEM where
  kem : KEM
  ct0 : List Byte
  cts : List (List Byte)
  j : List Byte

/-- `var c MultiKEM` -/
def MultiKEM.zero : MultiKEM := ⟨KEM.zero, List.replicate maxPublicKeySz 0, [], List.replicate maxSharedSecretBsz 0⟩

/-- mkem/sike.go:36-40 `G1`, `G2`, `G3` -/
def g1 : List Byte := [1]
def g2 : List Byte := [2]
def g3 : List Byte := [3]

/-- mkem/sike.go:76-84 `MultiKEM.Allocate`: `ct0` and `j` are kept -/
def MultiKEM.allocate (c : MultiKEM) (id : Byte) (n : Nat) (rng : List Byte) : Option MultiKEM := do
  let k ← Model.Sike.allocate id rng
  some {c with kem := k, cts := List.replicate n (List.replicate maxMsgBsz 0)}

/-- mkem/sike.go:86-92 `NewPrivateKey`, `NewPublicKey` (nil pointer panic before `Allocate`) -/
def MultiKEM.newPrivateKey (c : MultiKEM) : Option PrivateKey :=
  if c.kem.allocated = false then none else Model.Sidh.newPrivateKey (BitVec.ofNat 8 c.kem.params.id) variantSike
def MultiKEM.newPublicKey (c : MultiKEM) : Option PublicKey :=
  if c.kem.allocated = false then none else Model.Sidh.newPublicKey (BitVec.ofNat 8 c.kem.params.id) variantSike

variable (P : Plat)

/-- mkem/sike.go:259-273: one ciphertext, for the recipient with number `i` -/
def MultiKEM.encryptOne (c : MultiKEM) (skA : PrivateKey) (i : Nat) (pkB : PublicKey) : Option MultiKEM :=
  if variantSike ≠ pkB.variant then none
  else do
    let j ← skA.deriveSecret c.j pkB
    let j1 ← sliceTo j skA.params.sharedSecretSize
    let ct ← c.cts[i]?
    let ct1 ← sliceTo ct skA.params.msgLen
    let (k, ct1) ← c.kem.hash P [g2, j1] ct1
    let msg ← sliceTo k.msg skA.params.msgLen
    let ct ← xorInto (ct1 ++ ct.drop skA.params.msgLen) msg
    some ⟨k, c.ct0, c.cts.set i ct, j⟩

/-- mkem/sike.go:259-273: the loop over the recipients -/
def MultiKEM.encryptAll (c : MultiKEM) (skA : PrivateKey) : Nat → List PublicKey → Option MultiKEM
  | _, [] => some c
  | i, pkB :: rest => do
    let c ← c.encryptOne P skA i pkB
    c.encryptAll skA (i + 1) rest

/-- mkem/sike.go:227-281 `MultiKEM.Encapsulate`: the object and the content of `secret` afterwards, and whether the
error is nil -/
def MultiKEM.encapsulate (c : MultiKEM) (secret : List Byte) (pub : List PublicKey) : Option (MultiKEM × List Byte × Bool) :=
  if c.kem.allocated = false then none
  else if secret.length < c.kem.params.kemSize then none
  else
  let (msg, rng, ok) := readFull c.kem.rng c.kem.msg
  let k := {c.kem with msg := msg, rng := rng}
  if ok = false then some ({c with kem := k}, secret, false)
  else do
    let pkA ← Model.Sidh.newPublicKey (BitVec.ofNat 8 k.params.id) variantA
    let m1 ← sliceTo k.msg k.params.msgLen
    let (k, scalar) ← k.hash P [g1, m1] k.secretBytes
    let scalar ← maskLast k.params.A.secretBitLen scalar
    -- skA.Scalar is the same slice as c.secretBytes
    let k := {k with secretBytes := scalar}
    let skA : PrivateKey := ⟨k.params, variantA, scalar, []⟩
    let pkA ← skA.generatePublicKey pkA
    let ct0 ← pkA.exportKey c.ct0
    let c ← MultiKEM.encryptAll P ⟨k, ct0, c.cts, c.j⟩ skA 0 pub
    let s ← sliceTo secret c.kem.params.kemSize
    let (k, s) ← c.kem.hash P [g3, c.kem.msg] s
    some ({c with kem := k}, s ++ secret.drop c.kem.params.kemSize, true)

/-- mkem/sike.go:289-373 `MultiKEM.Decapsulate`: the object and the content of `secret` afterwards, and whether the
error is nil -/
def MultiKEM.decapsulate (c : MultiKEM) (secret : List Byte) (prv : PrivateKey) (pub : PublicKey) (ctext : List Byte) : Option (MultiKEM × List Byte × Bool) :=
  if c.kem.allocated = false then none
  else if variantSike ≠ pub.variant then none
  else if pub.variant ≠ prv.variant then none
  else if secret.length < c.kem.params.kemSize then none
  else if ctext.length ≠ c.kem.params.kemSize then none
  else do
  let m := List.replicate maxMsgBsz 0
  let r := List.replicate maxPublicKeySz 0
  let cti := List.replicate maxMsgBsz 0
  let pkA ← Model.Sidh.newPublicKey (BitVec.ofNat 8 c.kem.params.id) variantA
  let ct0 ← sliceTo c.ct0 c.kem.params.publicKeySize
  let (pkA, ok) ← pkA.importKey ct0
  if ok = false then some (c, secret, false)
  else do
    let j ← prv.deriveSecret c.j pkA
    let j1 ← sliceTo j prv.params.sharedSecretSize
    let m1 ← sliceTo m prv.params.msgLen
    let (k, m1) ← c.kem.hash P [g2, j1] m1
    let ctext1 ← sliceTo ctext prv.params.msgLen
    let m ← xorInto (m1 ++ m.drop prv.params.msgLen) ctext1
    -- re-encryption
    let m1 ← sliceTo m k.params.msgLen
    let (k, scalar) ← k.hash P [g1, m1] k.secretBytes
    let scalar ← maskLast k.params.A.secretBitLen scalar
    let k := {k with secretBytes := scalar}
    let skA : PrivateKey := ⟨k.params, variantA, scalar, []⟩
    let pkA ← skA.generatePublicKey pkA
    let r1 ← sliceTo r k.params.publicKeySize
    let r1 ← pkA.exportKey r1
    let j ← skA.deriveSecret j pub
    let j1 ← sliceTo j skA.params.sharedSecretSize
    let cti1 ← sliceTo cti skA.params.msgLen
    let (k, cti1) ← k.hash P [g2, j1] cti1
    let msg ← sliceTo k.msg skA.params.msgLen
    let cti ← xorInto (cti1 ++ cti.drop skA.params.msgLen) msg
    let ctext1 ← sliceTo ctext skA.params.msgLen
    let cti1 ← sliceTo cti skA.params.msgLen
    let mask := constantTimeCompare r1 ct0 &&& constantTimeCompare ctext1 cti1
    let m1 ← sliceTo m k.params.msgLen
    let m1 ← cpick mask k.params.msgLen m1 prv.S
    let s ← sliceTo secret k.params.kemSize
    let (k, s) ← k.hash P [g3, m1] s
    some (⟨k, c.ct0, c.cts, j⟩, s ++ secret.drop k.params.kemSize, true)

/-- mkem/sike.go:375-387 `Reset` of the embedded KEM -/
def MultiKEM.resetObj (c : MultiKEM) : MultiKEM := {c with kem := c.kem.resetObj}

end Model.Mkem
