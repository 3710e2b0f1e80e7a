import Verif.Model.Mkem
/-
`MultiKEM` of kem/mkem/sike.go once more, now with what a call that panics leaves in the object: a program that recovers
from the panic goes on with that object.

A call is a function from the object to the object afterwards and its result, `none` being a panic.  Everything the
methods do apart from changing the object is taken from `Verif/Model/Mkem.lean` and the models it imports.

Simplified: a panic inside SHAKE, `DeriveSecret` or `Export` would leave the slice they write to as it was (for objects
that have been allocated they panic only before writing); a slice of a field that is written to SHAKE is taken before the
`Reset` in front of it; what is in the caller's buffers after a panic isn't recorded.
-/
namespace Model.MkemPanic
open Model Model.Sidh Model.Sha3 Model.Sike Model.Mkem

/-- A computation on an object: the object afterwards in every case, and the result unless it panics. -/
def M (α : Type) : Type := MultiKEM → MultiKEM × Option α

namespace M
variable {α β : Type}

/-- sequencing; after a panic nothing more happens -/
def bind (m : M α) (g : α → M β) : M β := fun c =>
  match m c with
  | (c', none) => (c', none)
  | (c', some a) => g a c'

def pure (a : α) : M α := fun c => (c, some a)

instance : Monad M where
  pure := pure
  bind := bind

end M

/-- something that doesn't touch the object -/
def lift {α : Type} (v : Option α) : M α := fun c => (c, v)
/-- panic(…) -/
def panic {α : Type} : M α := fun c => (c, none)
/-- the object now -/
def get : M MultiKEM := fun c => (c, some c)
/-- an assignment to fields of the object -/
def set (c : MultiKEM) : M Unit := fun _ => (c, some ())

variable (P : Plat)

/-- `c.shake.Reset()`, `_, _ = c.shake.Write(x)` for each `x` -/
def absorb (ins : List (List Byte)) : M Unit := fun c =>
  match writes P (reset c.kem.shake) ins with
  | none => (c, none)
  | some st => ({c with kem := {c.kem with shake := st}}, some ())

/-- `_, _ = c.shake.Read(out)` -/
def squeeze (out : List Byte) : M (List Byte) := fun c =>
  match Model.Sha3.read P c.kem.shake out with
  | none => (c, none)
  | some (st, o, _) => ({c with kem := {c.kem with shake := st}}, some o)

/-- mkem/sike.go:259-273: one ciphertext, for the recipient with number `i` -/
def encryptOne (skA : PrivateKey) (i : Nat) (pkB : PublicKey) : M Unit :=
  if variantSike ≠ pkB.variant then panic
  else do
    let c ← get
    let j ← lift (skA.deriveSecret c.j pkB)
    set {c with j := j}
    let j1 ← lift (sliceTo j skA.params.sharedSecretSize)
    absorb P [g2, j1]
    let ct ← lift c.cts[i]?
    let ct1 ← lift (sliceTo ct skA.params.msgLen)
    let ct1 ← squeeze P ct1
    let c ← get
    set {c with cts := c.cts.set i (ct1 ++ ct.drop skA.params.msgLen)}
    let msg ← lift (sliceTo c.kem.msg skA.params.msgLen)
    let ct ← lift (xorInto (ct1 ++ ct.drop skA.params.msgLen) msg)
    set {c with cts := c.cts.set i ct}

/-- mkem/sike.go:259-273: the loop over the recipients -/
def encryptAll (skA : PrivateKey) : Nat → List PublicKey → M Unit
  | _, [] => M.pure ()
  | i, pkB :: rest => do
    encryptOne P skA i pkB
    encryptAll skA (i + 1) rest

/-- mkem/sike.go:236-240: `io.ReadFull(c.rng, c.msg[:])`; whether the error is nil -/
def draw : M Bool := do
  let c ← get
  let (msg, rng, ok) := readFull c.kem.rng c.kem.msg
  set {c with kem := {c.kem with msg := msg, rng := rng}}
  M.pure ok

/-- `c.shake` gives `skA.Scalar`, which is the same slice as `c.secretBytes`, and its last byte is masked
(mkem/sike.go:250-256, 335-341) -/
def ephemeral (m1 : List Byte) : M PrivateKey := do
  absorb P [g1, m1]
  let c ← get
  let scalar ← squeeze P c.kem.secretBytes
  let c ← get
  set {c with kem := {c.kem with secretBytes := scalar}}
  let scalar ← lift (maskLast c.kem.params.A.secretBitLen scalar)
  set {c with kem := {c.kem with secretBytes := scalar}}
  M.pure ⟨c.kem.params, variantA, scalar, []⟩

/-- mkem/sike.go:242-260: the ephemeral key and the common part of the ciphertext -/
def prepare : M PrivateKey := do
  let c ← get
  let pkA ← lift (Model.Sidh.newPublicKey (BitVec.ofNat 8 c.kem.params.id) variantA)
  let m1 ← lift (sliceTo c.kem.msg c.kem.params.msgLen)
  let skA ← ephemeral P m1
  let pkA ← lift (skA.generatePublicKey pkA)
  let c ← get
  let ct0 ← lift (pkA.exportKey c.ct0)
  set {c with ct0 := ct0}
  M.pure skA

/-- the secret from `x` (mkem/sike.go:275-280, 367-372) -/
def finish (x secret : List Byte) : M (List Byte × Bool) := do
  let c ← get
  let s ← lift (sliceTo secret c.kem.params.kemSize)
  absorb P [g3, x]
  let s ← squeeze P s
  M.pure (s ++ secret.drop c.kem.params.kemSize, true)

/-- mkem/sike.go:227-281 `MultiKEM.Encapsulate` -/
def encapsulate (secret : List Byte) (pub : List PublicKey) : M (List Byte × Bool) := fun c =>
  if c.kem.allocated = false then panic c
  else if secret.length < c.kem.params.kemSize then panic c
  else (do
    let ok ← draw
    if ok = false then M.pure (secret, false)
    else do
      let skA ← prepare P
      encryptAll P skA 0 pub
      let c ← get
      finish P c.kem.msg secret : M _) c

/-- mkem/sike.go:326-372: `Decapsulate` after the common part has been imported into `pkA` -/
def decapsulateRest (secret : List Byte) (prv : PrivateKey) (pub : PublicKey) (ctext ct0 : List Byte) (pkA : PublicKey) : M (List Byte × Bool) := do
  let m := List.replicate maxMsgBsz 0
  let r := List.replicate maxPublicKeySz 0
  let cti := List.replicate maxMsgBsz 0
  let c ← get
  let j ← lift (prv.deriveSecret c.j pkA)
  set {c with j := j}
  let j1 ← lift (sliceTo j prv.params.sharedSecretSize)
  let m1 ← lift (sliceTo m prv.params.msgLen)
  absorb P [g2, j1]
  let m1 ← squeeze P m1
  let ctext1 ← lift (sliceTo ctext prv.params.msgLen)
  let m ← lift (xorInto (m1 ++ m.drop prv.params.msgLen) ctext1)
  let m1 ← lift (sliceTo m c.kem.params.msgLen)
  let skA ← ephemeral P m1
  let pkA ← lift (skA.generatePublicKey pkA)
  let r1 ← lift (sliceTo r skA.params.publicKeySize)
  let r1 ← lift (pkA.exportKey r1)
  let c ← get
  let j ← lift (skA.deriveSecret c.j pub)
  set {c with j := j}
  let j1 ← lift (sliceTo j skA.params.sharedSecretSize)
  let cti1 ← lift (sliceTo cti skA.params.msgLen)
  absorb P [g2, j1]
  let cti1 ← squeeze P cti1
  let msg ← lift (sliceTo c.kem.msg skA.params.msgLen)
  let cti ← lift (xorInto (cti1 ++ cti.drop skA.params.msgLen) msg)
  let ctext1 ← lift (sliceTo ctext skA.params.msgLen)
  let cti1 ← lift (sliceTo cti skA.params.msgLen)
  let mask := constantTimeCompare r1 ct0 &&& constantTimeCompare ctext1 cti1
  let m1 ← lift (sliceTo m skA.params.msgLen)
  let m1 ← lift (cpick mask skA.params.msgLen m1 prv.S)
  finish P m1 secret

/-- mkem/sike.go:289-373 `MultiKEM.Decapsulate` -/
def decapsulate (secret : List Byte) (prv : PrivateKey) (pub : PublicKey) (ctext : List Byte) : M (List Byte × Bool) := fun c =>
  if c.kem.allocated = false then panic c
  else if variantSike ≠ pub.variant then panic c
  else if pub.variant ≠ prv.variant then panic c
  else if secret.length < c.kem.params.kemSize then panic c
  else if ctext.length ≠ c.kem.params.kemSize then panic c
  else (do
    let pkA ← lift (Model.Sidh.newPublicKey (BitVec.ofNat 8 c.kem.params.id) variantA)
    let ct0 ← lift (sliceTo c.ct0 c.kem.params.publicKeySize)
    let (pkA, ok) ← lift (pkA.importKey ct0)
    if ok = false then M.pure (secret, false)
    else decapsulateRest P secret prv pub ctext ct0 pkA : M _) c

/-- mkem/sike.go:76-84 `MultiKEM.Allocate`: `rng` is assigned before `Params` can panic -/
def allocate (id : Byte) (n : Nat) (rng : List Byte) : M Unit := do
  let c ← get
  set {c with kem := {c.kem with rng := rng}}
  let p ← lift (stdParams id)
  set ⟨⟨true, rng, List.replicate p.msgLen 0, List.replicate p.A.secretByteLen 0, p, newShake256⟩, c.ct0, List.replicate n (List.replicate maxMsgBsz 0), c.j⟩

/-- mkem/sike.go:375-387 `Reset` of the embedded KEM -/
def resetObj : M Unit := fun c => (c.resetObj, some ())

/-- mkem/sike.go:86-92 `NewPrivateKey`, `NewPublicKey` -/
def newPrivateKey : M PrivateKey := fun c => (c, c.newPrivateKey)
def newPublicKey : M PublicKey := fun c => (c, c.newPublicKey)

end Model.MkemPanic
