import Verif.Model.SidhSteps
import Verif.Model.Sike
/-
What an observer could see of dh/sidh/sidh.go and dh/sidh/sike.go: the functions of Model/SidhKeys.lean and
Model/Sike.lean once more, writing down their steps as in Model/SidhSteps.lean.  Of SHAKE256 only the calls and the
lengths of their arguments are recorded; of the random source only how much is asked.
-/
namespace Model.Sidh
open Model Model.Limb Tr

/-- A loop `for i := 0; i < n; i++` over the bytes of something. -/
def loop (n : Nat) : List Ev := List.replicate n (.test true) ++ [.test false]

/-- common/utils.go:17-28 `BytesToFp2` -/
def bytesToFp2T (x : Fp2) (input : List Byte) (bytelen : Nat) : Tr Fp2 := do
  tell [.test (decide (input.length < 2 * bytelen))]
  lift (bytesToFp2 x input bytelen) (loop bytelen)

/-- common/utils.go:33-46 `Fp2ToBytes` -/
def fp2ToBytesT (output : List Byte) (x : Fp2) (bytelen : Nat) : Tr (List Byte) := do
  tell [.test (decide (output.length < 2 * bytelen))]
  lift (fp2ToBytes output x bytelen) (loop bytelen)

/-- sidh.go:75-100 `PublicKey.Import` -/
def PublicKey.importKeyT (k : PublicKey) (input : List Byte) : Tr (PublicKey × Bool) := do
  tell [.test (decide (input.length ≠ k.size))]
  if input.length ≠ k.size then pure (k, false)
  else do
    let sz := k.params.sharedSecretSize
    let p ← bytesToFp2T k.pts.p (input.take sz) k.params.bytelen
    let q ← bytesToFp2T k.pts.q ((input.drop sz).take sz) k.params.bytelen
    let r ← bytesToFp2T k.pts.r ((input.drop (2 * sz)).take sz) k.params.bytelen
    let g ← lift (pkg k.params.id)
    let p ← toMontgomeryT g.prime p
    let q ← toMontgomeryT g.prime q
    let r ← toMontgomeryT g.prime r
    pure ({k with pts := ⟨p, q, r⟩}, true)

/-- sidh.go:104-126 `PublicKey.Export` -/
def PublicKey.exportKeyT (k : PublicKey) (out : List Byte) : Tr (List Byte) := do
  let sz := k.params.sharedSecretSize
  let g ← lift (pkg k.params.id)
  let p ← fromMontgomeryT g.prime k.pts.p
  let q ← fromMontgomeryT g.prime k.pts.q
  let r ← fromMontgomeryT g.prime k.pts.r
  if out.length < 3 * sz then panic
  else do
    let a ← fp2ToBytesT (out.take sz) p k.params.bytelen
    let b ← fp2ToBytesT ((out.drop sz).take sz) q k.params.bytelen
    let c ← fp2ToBytesT ((out.drop (2 * sz)).take sz) r k.params.bytelen
    pure (a ++ b ++ c ++ out.drop (3 * sz))

/-- sidh.go:173-180 `PrivateKey.Import` -/
def PrivateKey.importKeyT (k : PrivateKey) (input : List Byte) : Tr (PrivateKey × Bool) := do
  tell [.test (decide (input.length ≠ k.size))]
  if input.length ≠ k.size then pure (k, false)
  else do
    let hd ← lift (sliceTo input k.S.length)
    tell [.bytes (min k.S.length hd.length)]
    let tl ← lift (sliceFrom input k.S.length)
    tell [.bytes (min k.scalar.length tl.length)]
    pure ({k with S := goCopy k.S hd, scalar := goCopy k.scalar tl}, true)

/-- sidh.go:224-253 `PrivateKey.GeneratePublicKey` -/
def PrivateKey.generatePublicKeyT (k : PrivateKey) (pub : PublicKey) : Tr PublicKey := do
  tell [.test (decide (pub.variant ≠ k.variant ∨ pub.params.id ≠ k.params.id))]
  if pub.variant ≠ k.variant ∨ pub.params.id ≠ k.params.id then panic
  else do
    let g ← lift (pkg k.params.id)
    tell [.test (isA k.variant)]
    let t ← if isA k.variant then publicKeyGenAT (limbOpsT g.prime) g.curve k.scalar
            else publicKeyGenBT (limbOpsT g.prime) g.curve k.scalar
    pure {pub with pts := t}

/-- core.go:229-254 `DeriveSecretA`, 257-282 `DeriveSecretB` -/
def deriveSecretPkgT (g : SidhParams) (a : Bool) (ss prv : List Byte) (pub : Tri Fp2) : Tr (List Byte) := do
  let j ← if a then deriveAT (limbOpsT g.prime) g.curve prv pub else deriveBT (limbOpsT g.prime) g.curve prv pub
  let j ← fromMontgomeryT g.prime j
  fp2ToBytesT ss j g.bytelen

/-- sidh.go:260-289 `PrivateKey.DeriveSecret` -/
def PrivateKey.deriveSecretT (k : PrivateKey) (ss : List Byte) (pub : PublicKey) : Tr (List Byte) := do
  tell [.test (decide (pub.variant = k.variant ∨ pub.params.id ≠ k.params.id))]
  if pub.variant = k.variant ∨ pub.params.id ≠ k.params.id then panic
  else do
    let g ← lift (pkg k.params.id)
    tell [.test (isA k.variant)]
    deriveSecretPkgT g (isA k.variant) ss k.scalar pub.pts

end Model.Sidh

namespace Model.Sike
open Model Model.Sidh Model.Sha3 Tr

variable (P : Plat)

/-- `c.shake.Reset()`, `_, _ = c.shake.Write(x)` for each `x`, `_, _ = c.shake.Read(out)` -/
def KEM.hashT (c : KEM) (ins : List (List Byte)) (out : List Byte) : Tr (KEM × List Byte) :=
  lift (c.hash P ins out) (.reset :: ins.map (fun x => .write x.length) ++ [.read out.length])

/-- sike.go:201-216 `generateCiphertext` -/
def KEM.generateCiphertextT (c : KEM) (ctext : List Byte) (skA : PrivateKey) (pkA pkB : PublicKey) (ptext : List Byte) :
    Tr (KEM × List Byte) := do
  let n := List.replicate maxMsgBsz 0
  let j := List.replicate maxSharedSecretBsz 0
  let ptextLen := skA.params.msgLen
  let j ← skA.deriveSecretT j pkB
  let j ← lift (sliceTo j skA.params.sharedSecretSize)
  let n1 ← lift (sliceTo n ptextLen)
  let h ← c.hashT P [j] n1
  let n ← lift (xorInto (h.2 ++ n.drop ptextLen) ptext) (loop ptext.length)
  let ctext ← pkA.exportKeyT ctext
  let n1 ← lift (sliceTo n ptextLen)
  let ctext ← lift (copyFrom ctext pkA.size n1) [.bytes n1.length]
  pure (h.1, ctext)

/-- sike.go:58-106 `Encapsulate` -/
def KEM.encapsulateT (c : KEM) (ciphertext secret : List Byte) (pub : PublicKey) : Tr (KEM × List Byte × List Byte × Bool) := do
  tell [.test (!c.allocated)]
  if c.allocated = false then panic
  else do
  tell [.test (decide (variantSike ≠ pub.variant))]
  if variantSike ≠ pub.variant then panic
  else do
  tell [.test (decide (secret.length < c.params.kemSize))]
  if secret.length < c.params.kemSize then panic
  else do
  tell [.test (decide (ciphertext.length < c.params.ciphertextSize))]
  if ciphertext.length < c.params.ciphertextSize then panic
  else do
  let r := readFull c.rng c.msg
  tell [.rng c.msg.length, .test (!r.2.2)]
  let c := {c with msg := r.1, rng := r.2.1}
  if r.2.2 = false then pure (c, ciphertext, secret, false)
  else do
    let buf := List.replicate (3 * maxSharedSecretBsz) 0
    let pkA ← lift (newPublicKey (BitVec.ofNat 8 c.params.id) variantA)
    let buf ← pub.exportKeyT buf
    let buf ← lift (sliceTo buf (3 * c.params.sharedSecretSize))
    let h ← c.hashT P [c.msg, buf] c.secretBytes
    let c := h.1
    let scalar ← lift (maskLast c.params.A.secretBitLen h.2)
    let c := {c with secretBytes := scalar}
    let skA : PrivateKey := ⟨c.params, variantA, scalar, []⟩
    let pkA ← skA.generatePublicKeyT pkA
    let e ← c.generateCiphertextT P ciphertext skA pkA pub c.msg
    let c := e.1
    let s ← lift (sliceTo secret c.params.kemSize)
    let h ← c.hashT P [c.msg, e.2] s
    pure (h.1, e.2, h.2 ++ secret.drop h.1.params.kemSize, true)

/-- sike.go:243-262 `decrypt` -/
def KEM.decryptT (c : KEM) (n : List Byte) (prv : PrivateKey) (ctext : List Byte) : Tr (KEM × List Byte × Nat × Bool) := do
  let j := List.replicate maxSharedSecretBsz 0
  let pkLen := prv.params.publicKeySize
  let c1Len := ctext.length - pkLen
  let c0 ← lift (newPublicKey (BitVec.ofNat 8 prv.params.id) variantA)
  let hd ← lift (sliceTo ctext pkLen)
  let i ← c0.importKeyT hd
  let j ← prv.deriveSecretT j i.1
  let j ← lift (sliceTo j prv.params.sharedSecretSize)
  let n1 ← lift (sliceTo n c1Len)
  let h ← c.hashT P [j] n1
  let n ← lift (xorInto (h.2 ++ n.drop c1Len) (ctext.drop pkLen)) (loop c1Len)
  pure (h.1, n, c1Len, i.2)

/-- sike.go:112-176 `Decapsulate` -/
def KEM.decapsulateT (c : KEM) (secret : List Byte) (prv : PrivateKey) (pub : PublicKey) (ciphertext : List Byte) : Tr (KEM × List Byte × Bool) := do
  tell [.test (!c.allocated)]
  if c.allocated = false then panic
  else do
  tell [.test (decide (variantSike ≠ pub.variant))]
  if variantSike ≠ pub.variant then panic
  else do
  tell [.test (decide (pub.variant ≠ prv.variant))]
  if pub.variant ≠ prv.variant then panic
  else do
  tell [.test (decide (secret.length < c.params.kemSize))]
  if secret.length < c.params.kemSize then panic
  else do
  tell [.test (decide (ciphertext.length ≠ c.params.ciphertextSize))]
  if ciphertext.length ≠ c.params.ciphertextSize then panic
  else do
  let m := List.replicate maxMsgBsz 0
  let r := List.replicate maxSidhPrivateKeyBsz 0
  let pkBytes := List.replicate (3 * maxSharedSecretBsz) 0
  let skA : PrivateKey := ⟨c.params, variantA, c.secretBytes, []⟩
  let pkA ← lift (newPublicKey (BitVec.ofNat 8 c.params.id) variantA)
  let d ← c.decryptT P m prv ciphertext
  let c := d.1
  let m := d.2.1
  let c1Len := d.2.2.1
  tell [.test (!d.2.2.2)]
  if d.2.2.2 = false then pure (c, secret, false)
  else do
    let pkBytes ← pub.exportKeyT pkBytes
    let m1 ← lift (sliceTo m c1Len)
    let pk1 ← lift (sliceTo pkBytes (3 * c.params.sharedSecretSize))
    let r1 ← lift (sliceTo r c.params.A.secretByteLen)
    let h ← c.hashT P [m1, pk1] r1
    let c := h.1
    let r1 ← lift (maskLast c.params.A.secretBitLen h.2)
    let i ← skA.importKeyT r1
    let skA := i.1
    let c := {c with secretBytes := skA.scalar}
    tell [.test (!i.2)]
    if i.2 = false then pure (c, secret, false)
    else do
      let pkA ← skA.generatePublicKeyT pkA
      let pkBytes ← pkA.exportKeyT pkBytes
      let x ← lift (sliceTo pkBytes c.params.publicKeySize)
      let y ← lift (sliceTo ciphertext pub.params.publicKeySize)
      -- crypto/subtle: the length is compared first
      tell [.test (decide (x.length ≠ y.length)), .bytes (min x.length y.length)]
      let mask := constantTimeCompare x y
      let m1 ← lift (cpick mask c1Len m1 prv.S) (loop c1Len)
      let s ← lift (sliceTo secret c.params.kemSize)
      let h ← c.hashT P [m1, ciphertext] s
      pure (h.1, h.2 ++ secret.drop h.1.params.kemSize, true)

end Model.Sike
