import Verif.Model.Sike
/-
dh/sidh/sike.go once more, now with what a call that panics leaves in the KEM object: a program that recovers from the
panic goes on with that object.  (The same text is in kem/mkem/sike.go.)

A call is a function from the object to the object afterwards and its result, `none` being a panic.  Everything the
methods do apart from changing the object is taken from `Verif/Model/Sike.lean` and the models it imports.

Simplified: a panic inside SHAKE would leave the object as it was before the three calls on it (for the hash functions of
the supported platforms there is none); what is in the caller's buffers after a panic isn't recorded.
-/
namespace Model.SikePanic
open Model Model.Sidh Model.Sha3 Model.Sike

/-- A computation on a KEM object: the object afterwards in every case, and the result unless it panics. -/
def M (α : Type) : Type := KEM → KEM × Option α

namespace M
variable {α β : Type}

/-- sequencing; after a panic nothing more happens -/
def bind (m : M α) (g : α → M β) : M β := fun c =>
  match m c with
  | (c', none) => (c', none)
  | (c', some a) => g a c'

def pure (a : α) : M α := fun c => (c, some a)

instance : Monad M where
  pure := pure
  bind := bind

end M

/-- something that doesn't touch the object -/
def lift {α : Type} (v : Option α) : M α := fun c => (c, v)
/-- panic(…) -/
def panic {α : Type} : M α := fun c => (c, none)
/-- the object now -/
def get : M KEM := fun c => (c, some c)
/-- an assignment to fields of the object -/
def set (c : KEM) : M Unit := fun _ => (c, some ())

variable (P : Plat)

/-- `c.shake.Reset()`, `_, _ = c.shake.Write(x)` for each `x`, `_, _ = c.shake.Read(out)` -/
def hash (ins : List (List Byte)) (out : List Byte) : M (List Byte) := fun c =>
  match c.hash P ins out with
  | none => (c, none)
  | some (c', o) => (c', some o)

/-- sike.go:201-216 `generateCiphertext` -/
def generateCiphertext (ctext : List Byte) (skA : PrivateKey) (pkA pkB : PublicKey) (ptext : List Byte) : M (List Byte) := do
  let n := List.replicate maxMsgBsz 0
  let j := List.replicate maxSharedSecretBsz 0
  let ptextLen := skA.params.msgLen
  let j ← lift (skA.deriveSecret j pkB)
  let j ← lift (sliceTo j skA.params.sharedSecretSize)
  let n1 ← lift (sliceTo n ptextLen)
  let n1 ← hash P [j] n1
  let n ← lift (xorInto (n1 ++ n.drop ptextLen) ptext)
  let ctext ← lift (pkA.exportKey ctext)
  let n1 ← lift (sliceTo n ptextLen)
  lift (copyFrom ctext pkA.size n1)

/-- sike.go:75-79: `io.ReadFull(c.rng, c.msg[:])`; whether the error is nil -/
def draw : M Bool := do
  let c ← get
  let (msg, rng, ok) := readFull c.rng c.msg
  set {c with msg := msg, rng := rng}
  pure ok

/-- sike.go:81-105: `Encapsulate` after the message has been drawn.  `skA.Scalar` is the same slice as
`c.secretBytes`. -/
def encapsulateRest (ciphertext secret : List Byte) (pub : PublicKey) : M (List Byte × List Byte × Bool) := do
  let c ← get
  let buf := List.replicate (3 * maxSharedSecretBsz) 0
  let pkA ← lift (newPublicKey (BitVec.ofNat 8 c.params.id) variantA)
  let buf ← lift (pub.exportKey buf)
  let buf ← lift (sliceTo buf (3 * c.params.sharedSecretSize))
  let scalar ← hash P [c.msg, buf] c.secretBytes
  let c ← get
  set {c with secretBytes := scalar}
  let scalar ← lift (maskLast c.params.A.secretBitLen scalar)
  set {c with secretBytes := scalar}
  let skA : PrivateKey := ⟨c.params, variantA, scalar, []⟩
  let pkA ← lift (skA.generatePublicKey pkA)
  let ciphertext ← generateCiphertext P ciphertext skA pkA pub c.msg
  let c ← get
  let s ← lift (sliceTo secret c.params.kemSize)
  let s ← hash P [c.msg, ciphertext] s
  let c ← get
  pure (ciphertext, s ++ secret.drop c.params.kemSize, true)

/-- sike.go:58-106 `Encapsulate` -/
def encapsulate (ciphertext secret : List Byte) (pub : PublicKey) : M (List Byte × List Byte × Bool) := fun c =>
  if c.allocated = false then panic c
  else if variantSike ≠ pub.variant then panic c
  else if secret.length < c.params.kemSize then panic c
  else if ciphertext.length < c.params.ciphertextSize then panic c
  else M.bind draw (fun ok => if ok = false then M.pure (ciphertext, secret, false) else encapsulateRest P ciphertext secret pub) c

/-- sike.go:243-262 `decrypt` -/
def decrypt (n : List Byte) (prv : PrivateKey) (ctext : List Byte) : M (List Byte × Nat × Bool) := do
  let j := List.replicate maxSharedSecretBsz 0
  let pkLen := prv.params.publicKeySize
  let c1Len := ctext.length - pkLen
  let c0 ← lift (newPublicKey (BitVec.ofNat 8 prv.params.id) variantA)
  let hd ← lift (sliceTo ctext pkLen)
  let (c0, ok) ← lift (c0.importKey hd)
  let j ← lift (prv.deriveSecret j c0)
  let j ← lift (sliceTo j prv.params.sharedSecretSize)
  let n1 ← lift (sliceTo n c1Len)
  let n1 ← hash P [j] n1
  let n ← lift (xorInto (n1 ++ n.drop c1Len) (ctext.drop pkLen))
  pure (n, c1Len, ok)

/-- sike.go:156-175: `Decapsulate` after the import of the scalar -/
def decapsulateLast (secret : List Byte) (prv : PrivateKey) (pub : PublicKey) (ciphertext pkBytes m1 : List Byte) (c1Len : Nat)
    (skA : PrivateKey) (pkA : PublicKey) : M (List Byte × Bool) := do
  let c ← get
  let pkA ← lift (skA.generatePublicKey pkA)
  let pkBytes ← lift (pkA.exportKey pkBytes)
  let x ← lift (sliceTo pkBytes c.params.publicKeySize)
  let y ← lift (sliceTo ciphertext pub.params.publicKeySize)
  let mask := constantTimeCompare x y
  let m1 ← lift (cpick mask c1Len m1 prv.S)
  let s ← lift (sliceTo secret c.params.kemSize)
  let s ← hash P [m1, ciphertext] s
  let c ← get
  pure (s ++ secret.drop c.params.kemSize, true)

/-- sike.go:140-155: `Decapsulate` after `decrypt` -/
def decapsulateRest (secret : List Byte) (prv : PrivateKey) (pub : PublicKey) (ciphertext m : List Byte) (c1Len : Nat)
    (skA : PrivateKey) (pkA : PublicKey) : M (List Byte × Bool) := do
  let c ← get
  let r := List.replicate maxSidhPrivateKeyBsz 0
  let pkBytes ← lift (pub.exportKey (List.replicate (3 * maxSharedSecretBsz) 0))
  let m1 ← lift (sliceTo m c1Len)
  let pk1 ← lift (sliceTo pkBytes (3 * c.params.sharedSecretSize))
  let r1 ← lift (sliceTo r c.params.A.secretByteLen)
  let r1 ← hash P [m1, pk1] r1
  let c ← get
  let r1 ← lift (maskLast c.params.A.secretBitLen r1)
  let (skA, ok) ← lift (skA.importKey r1)
  -- skA.Scalar is the same slice as c.secretBytes
  set {c with secretBytes := skA.scalar}
  if ok = false then M.pure (secret, false)
  else decapsulateLast P secret prv pub ciphertext pkBytes m1 c1Len skA pkA

/-- sike.go:112-176 `Decapsulate` -/
def decapsulate (secret : List Byte) (prv : PrivateKey) (pub : PublicKey) (ciphertext : List Byte) : M (List Byte × Bool) := fun c =>
  if c.allocated = false then panic c
  else if variantSike ≠ pub.variant then panic c
  else if pub.variant ≠ prv.variant then panic c
  else if secret.length < c.params.kemSize then panic c
  else if ciphertext.length ≠ c.params.ciphertextSize then panic c
  else M.bind (lift (newPublicKey (BitVec.ofNat 8 c.params.id) variantA)) (fun pkA =>
    M.bind (decrypt P (List.replicate maxMsgBsz 0) prv ciphertext) fun (m, c1Len, ok) =>
      if ok = false then M.pure (secret, false)
      else decapsulateRest P secret prv pub ciphertext m c1Len ⟨c.params, variantA, c.secretBytes, []⟩ pkA) c

/-- sike.go:181-189 `Reset` -/
def reset : M Unit := fun c => (c.resetObj, some ())

/-- sike.go:45-52 `Allocate` on the object: the source is stored before the parameters are looked up -/
def allocate (id : Byte) (rng : List Byte) : M Unit := do
  let c ← get
  set {c with rng := rng}
  let p ← lift (stdParams id)
  set ⟨true, rng, List.replicate p.msgLen 0, List.replicate p.A.secretByteLen 0, p, newShake256⟩

/-- sike.go:192-199 `CiphertextSize` and `SharedSecretSize`; `c.params` is nil before `Allocate` -/
def sizes : M (Nat × Nat) := fun c =>
  if c.allocated = false then panic c else (c, some (c.ciphertextSize, c.sharedSecretSize))

end Model.SikePanic
