import Verif.Model.Sha3
import Verif.Model.SidhKeys
/-
Model of dh/sidh/sike.go.  The KEM of kem/mkem/sike.go (lines 14-21, 42-72, 98-221, 375-463) is the same text with
`sidh.` put before the names of that package, and is covered by the same model.  A panic is `none`.

Buffers given by the caller are taken not to overlap.  The random source yields the bytes of a list and then fails.
-/
namespace Model.Sike
open Model Model.Sidh Model.Sha3

/-- common/types.go:11 `MaxMsgBsz` -/
def maxMsgBsz : Nat := 40
/-- common/types.go:13 `MaxSharedSecretBsz` -/
def maxSharedSecretBsz : Nat := 188
/-- common/types.go:7 `MaxSidhPrivateKeyBsz` -/
def maxSidhPrivateKeyBsz : Nat := 48
/-- common/types.go:15 `MaxPublicKeySz` -/
def maxPublicKeySz : Nat := 3 * 12 * 64

/-- sike.go:13-20 `KEM`.  In an object that isn't allocated `params` and `shake` are nil; here they hold some value
that is never used, as every method that uses them panics first. -/
structure KEM where
  allocated : Bool
  rng : List Byte
  msg : List Byte
  secretBytes : List Byte
  params : SidhParams
  shake : State

/-- `var c KEM` -/
def KEM.zero : KEM := ⟨false, [], [], [], params434, newShake256⟩

/-- sike.go:45-52 `Allocate` (on any object: all fields are set) -/
def allocate (id : Byte) (rng : List Byte) : Option KEM := do
  let p ← stdParams id
  some ⟨true, rng, List.replicate p.msgLen 0, List.replicate p.A.secretByteLen 0, p, newShake256⟩

/-- sike.go:23-41 `NewSike434`, `NewSike503`, `NewSike751` -/
def newSike434 (rng : List Byte) : Option KEM := allocate fp434 rng
def newSike503 (rng : List Byte) : Option KEM := allocate fp503 rng
def newSike751 (rng : List Byte) : Option KEM := allocate fp751 rng

variable (P : Plat)

/-- `_, _ = h.Write(x)` for each `x` of a list -/
def writes (st : State) : List (List Byte) → Option State
  | [] => some st
  | x :: xs => do
    let (st, _, _) ← write P st x
    writes st xs

/-- `c.shake.Reset()`, `_, _ = c.shake.Write(x)` for each `x`, `_, _ = c.shake.Read(out)`: the object afterwards and
the new content of `out` -/
def KEM.hash (c : KEM) (ins : List (List Byte)) (out : List Byte) : Option (KEM × List Byte) := do
  let st ← writes P (reset c.shake) ins
  let (st, out, _) ← Model.Sha3.read P st out
  some ({c with shake := st}, out)

/-- sike.go:96, 154: `s[len(s)-1] &= (1 << (bits % 8)) - 1` -/
def maskLast (bits : Nat) (s : List Byte) : Option (List Byte) :=
  if s.length = 0 then none
  else setAt s (s.length - 1) (s.getD (s.length - 1) 0 &&& ((1 : Byte) <<< (bits % 8) - 1))

/-- `for i := range y { x[i] ^= y[i] }`; panics if `y` is longer than `x` -/
def xorInto (x y : List Byte) : Option (List Byte) :=
  if x.length < y.length then none else some (List.zipWith (· ^^^ ·) x y ++ x.drop y.length)

/-- crypto/subtle `ConstantTimeCompare` -/
def constantTimeCompare (x y : List Byte) : W64 := if x = y then 1 else 0

/-- sike.go:201-216 `generateCiphertext`: the object afterwards and the new content of `ctext` -/
def KEM.generateCiphertext (c : KEM) (ctext : List Byte) (skA : PrivateKey) (pkA pkB : PublicKey) (ptext : List Byte) :
    Option (KEM × List Byte) := do
  let n := List.replicate maxMsgBsz 0
  let j := List.replicate maxSharedSecretBsz 0
  let ptextLen := skA.params.msgLen
  let j ← skA.deriveSecret j pkB
  let j ← sliceTo j skA.params.sharedSecretSize
  let n1 ← sliceTo n ptextLen
  let (c, n1) ← c.hash P [j] n1
  let n ← xorInto (n1 ++ n.drop ptextLen) ptext
  let ctext ← pkA.exportKey ctext
  let n1 ← sliceTo n ptextLen
  let ctext ← copyFrom ctext pkA.size n1
  some (c, ctext)

/-- sike.go:58-106 `Encapsulate`: the object, the contents of `ciphertext` and `secret` afterwards, and whether the
error is nil -/
def KEM.encapsulate (c : KEM) (ciphertext secret : List Byte) (pub : PublicKey) : Option (KEM × List Byte × List Byte × Bool) :=
  if c.allocated = false then none
  else if variantSike ≠ pub.variant then none
  else if secret.length < c.params.kemSize then none
  else if ciphertext.length < c.params.ciphertextSize then none
  else
  let (msg, rng, ok) := readFull c.rng c.msg
  let c := {c with msg := msg, rng := rng}
  if ok = false then some (c, ciphertext, secret, false)
  else do
    let buf := List.replicate (3 * maxSharedSecretBsz) 0
    let pkA ← newPublicKey (BitVec.ofNat 8 c.params.id) variantA
    let buf ← pub.exportKey buf
    let buf ← sliceTo buf (3 * c.params.sharedSecretSize)
    let (c, scalar) ← c.hash P [c.msg, buf] c.secretBytes
    let scalar ← maskLast c.params.A.secretBitLen scalar
    -- skA.Scalar is the same slice as c.secretBytes
    let c := {c with secretBytes := scalar}
    let skA : PrivateKey := ⟨c.params, variantA, scalar, []⟩
    let pkA ← skA.generatePublicKey pkA
    let (c, ciphertext) ← c.generateCiphertext P ciphertext skA pkA pub c.msg
    let s ← sliceTo secret c.params.kemSize
    let (c, s) ← c.hash P [c.msg, ciphertext] s
    some (c, ciphertext, s ++ secret.drop c.params.kemSize, true)

/-- sike.go:243-262 `decrypt`: the object afterwards, the new content of `n`, the length, and whether the error is
nil -/
def KEM.decrypt (c : KEM) (n : List Byte) (prv : PrivateKey) (ctext : List Byte) : Option (KEM × List Byte × Nat × Bool) := do
  let j := List.replicate maxSharedSecretBsz 0
  let pkLen := prv.params.publicKeySize
  let c1Len := ctext.length - pkLen
  let c0 ← newPublicKey (BitVec.ofNat 8 prv.params.id) variantA
  -- a negative c1Len panics here
  let hd ← sliceTo ctext pkLen
  let (c0, ok) ← c0.importKey hd
  let j ← prv.deriveSecret j c0
  let j ← sliceTo j prv.params.sharedSecretSize
  let n1 ← sliceTo n c1Len
  let (c, n1) ← c.hash P [j] n1
  let n ← xorInto (n1 ++ n.drop c1Len) (ctext.drop pkLen)
  some (c, n, c1Len, ok)

/-- sike.go:112-176 `Decapsulate`: the object and the content of `secret` afterwards, and whether the error is nil -/
def KEM.decapsulate (c : KEM) (secret : List Byte) (prv : PrivateKey) (pub : PublicKey) (ciphertext : List Byte) : Option (KEM × List Byte × Bool) :=
  if c.allocated = false then none
  else if variantSike ≠ pub.variant then none
  else if pub.variant ≠ prv.variant then none
  else if secret.length < c.params.kemSize then none
  else if ciphertext.length ≠ c.params.ciphertextSize then none
  else do
  let m := List.replicate maxMsgBsz 0
  let r := List.replicate maxSidhPrivateKeyBsz 0
  let pkBytes := List.replicate (3 * maxSharedSecretBsz) 0
  let skA : PrivateKey := ⟨c.params, variantA, c.secretBytes, []⟩
  let pkA ← newPublicKey (BitVec.ofNat 8 c.params.id) variantA
  let (c, m, c1Len, ok) ← c.decrypt P m prv ciphertext
  if ok = false then some (c, secret, false)
  else do
    let pkBytes ← pub.exportKey pkBytes
    let m1 ← sliceTo m c1Len
    let pk1 ← sliceTo pkBytes (3 * c.params.sharedSecretSize)
    let r1 ← sliceTo r c.params.A.secretByteLen
    let (c, r1) ← c.hash P [m1, pk1] r1
    let r1 ← maskLast c.params.A.secretBitLen r1
    let (skA, ok) ← skA.importKey r1
    let c := {c with secretBytes := skA.scalar}
    if ok = false then some (c, secret, false)
    else do
      let pkA ← skA.generatePublicKey pkA
      let pkBytes ← pkA.exportKey pkBytes
      let x ← sliceTo pkBytes c.params.publicKeySize
      let y ← sliceTo ciphertext pub.params.publicKeySize
      let mask := constantTimeCompare x y
      let m1 ← cpick mask c1Len m1 prv.S
      let s ← sliceTo secret c.params.kemSize
      let (c, s) ← c.hash P [m1, ciphertext] s
      some (c, s ++ secret.drop c.params.kemSize, true)

/-- sike.go:181-189 `Reset` -/
def KEM.resetObj (c : KEM) : KEM :=
  {c with msg := List.replicate c.msg.length 0, secretBytes := List.replicate c.secretBytes.length 0}

/-- sike.go:192-199 `CiphertextSize`, `SharedSecretSize` -/
def KEM.ciphertextSize (c : KEM) : Nat := c.params.ciphertextSize
def KEM.sharedSecretSize (c : KEM) : Nat := c.params.kemSize

/-- sike.go:221-238 `encrypt`: the object, the content of `ctext`, the rest of the random source, and whether the
error is nil -/
def KEM.encrypt (c : KEM) (ctext rng : List Byte) (pub : PublicKey) (ptext : List Byte) : Option (KEM × List Byte × List Byte × Bool) := do
  if ptext.length ≠ pub.params.kemSize then some (c, ctext, rng, false)
  else do
    let skA ← newPrivateKey (BitVec.ofNat 8 pub.params.id) variantA
    let pkA ← newPublicKey (BitVec.ofNat 8 pub.params.id) variantA
    let (skA, rng, ok) ← skA.generate rng
    if ok = false then some (c, ctext, rng, false)
    else do
      let pkA ← skA.generatePublicKey pkA
      let (c, ctext) ← c.generateCiphertext P ctext skA pkA pub ptext
      some (c, ctext, rng, true)

end Model.Sike
