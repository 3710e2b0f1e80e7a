import Verif.Model.Sike
/-
One KEM object (dh/sidh/sike.go; the same text is in kem/mkem/sike.go) on which several goroutines call `Decapsulate` at the
same time.  The scalar with which a call repeats the encryption is kept in the object: `skA.Scalar` is the slice
`c.secretBytes` (sike.go:136-140), so the calls share it, besides the hash object.

Simplified: a call is two steps, up to the import of the scalar (sike.go:112-159) and from the use of it on (sike.go:160-175), and
other goroutines run only between them.  The program has more interleavings than this.  A panic ends the program (`none`).
-/
namespace Model.SikeSharedDec
open Model Model.Sidh Model.Sha3 Model.Sike

/-- The arguments of a call of `Decapsulate`, sike.go:112 -/
structure Args where
  secret : List Byte
  prv : PrivateKey
  pub : PublicKey
  ciphertext : List Byte

/-- The local variables of a call that are used after the import, sike.go:133-142: `pkBytes`, `m[:c1Len]`, `c1Len`, `pkA`, and
`skA`, whose scalar is looked up in the object. -/
structure Locals where
  pkBytes : List Byte
  m1 : List Byte
  c1Len : Nat
  skA : PrivateKey
  pkA : PublicKey

/-- A goroutine: about to call `Decapsulate`, having imported the scalar, or having returned the content of `secret` and whether the
error is nil. -/
inductive Gor
  | called (a : Args)
  | imported (a : Args) (l : Locals)
  | done (r : List Byte × Bool)

variable (P : Plat)

/-- sike.go:112-159: the checks, `decrypt`, the scalar made from the message, and its import into the object -/
def enter (c : KEM) (a : Args) : Option (KEM × Gor) :=
  if c.allocated = false then none
  else if variantSike ≠ a.pub.variant then none
  else if a.pub.variant ≠ a.prv.variant then none
  else if a.secret.length < c.params.kemSize then none
  else if a.ciphertext.length ≠ c.params.ciphertextSize then none
  else do
  let m := List.replicate maxMsgBsz 0
  let r := List.replicate maxSidhPrivateKeyBsz 0
  let pkBytes := List.replicate (3 * maxSharedSecretBsz) 0
  let skA : PrivateKey := ⟨c.params, variantA, c.secretBytes, []⟩
  let pkA ← newPublicKey (BitVec.ofNat 8 c.params.id) variantA
  let (c, m, c1Len, ok) ← c.decrypt P m a.prv a.ciphertext
  if ok = false then some (c, .done (a.secret, false))
  else do
    let pkBytes ← a.pub.exportKey pkBytes
    let m1 ← sliceTo m c1Len
    let pk1 ← sliceTo pkBytes (3 * c.params.sharedSecretSize)
    let r1 ← sliceTo r c.params.A.secretByteLen
    let (c, r1) ← c.hash P [m1, pk1] r1
    let r1 ← maskLast c.params.A.secretBitLen r1
    let (skA, ok) ← skA.importKey r1
    let c := {c with secretBytes := skA.scalar}
    if ok = false then some (c, .done (a.secret, false))
    else some (c, .imported a ⟨pkBytes, m1, c1Len, skA, pkA⟩)

/-- sike.go:160-175: the public key of the scalar that is in the object now, the comparison, and the secret -/
def finish (c : KEM) (a : Args) (l : Locals) : Option (KEM × Gor) := do
  let skA := {l.skA with scalar := c.secretBytes}
  let pkA ← skA.generatePublicKey l.pkA
  let pkBytes ← pkA.exportKey l.pkBytes
  let x ← sliceTo pkBytes c.params.publicKeySize
  let y ← sliceTo a.ciphertext a.pub.params.publicKeySize
  let mask := constantTimeCompare x y
  let m1 ← cpick mask l.c1Len l.m1 a.prv.S
  let s ← sliceTo a.secret c.params.kemSize
  let (c, s) ← c.hash P [m1, a.ciphertext] s
  some (c, .done (s ++ a.secret.drop c.params.kemSize, true))

/-- The next step of a goroutine: sike.go:112-159, then sike.go:160-175, then nothing. -/
def act (c : KEM) : Gor → Option (KEM × Gor)
  | .called a => enter P c a
  | .imported a l => finish P c a l
  | .done r => some (c, .done r)

/-- Goroutine j makes a step; there may be none with this number. -/
def step (c : KEM) (gs : List Gor) (j : Nat) : Option (KEM × List Gor) :=
  match gs[j]? with
  | none => some (c, gs)
  | some g => (act P c g).map fun (c, g) => (c, gs.set j g)

/-- The goroutines make steps in the order of the schedule. -/
def run (c : KEM) (gs : List Gor) : List Nat → Option (KEM × List Gor)
  | [] => some (c, gs)
  | j :: js => (step P c gs j).bind fun (c, gs) => run c gs js

end Model.SikeSharedDec
