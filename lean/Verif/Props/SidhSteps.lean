import Verif.Lemmas.SikeSteps
/-!
C95, C96: what can be seen of the SIDH and SIKE operations does not depend on secrets.

`Model/SidhSteps.lean` and `Model/SikeSteps.lean` run the code and write down (`log`) every call of a routine of the
field arithmetic, every outcome of a condition, every index used to read the private key, a table or the stack of
points, every length given to SHAKE256 and to the random source; `val` is the result, `none` for a panic.
-/
namespace Props.SidhSteps
open Model Model.Sidh Model.Sidh.Tr Model.Sha3 Model.Sike Spec Spec.Sidh Lemmas.SidhSteps Lemmas.SikeSteps Lemmas.Sike Lemmas.Sha3
open Props.SidhFp2 Props.SidhKeys Props.SidhCurve Props.Sike

/-- A public key object of field f and variant v, with any content. -/
def KeyOf (f : Fld) (v : W64) (k : PublicKey) : Prop := k.params = paramsOf f ∧ k.variant = v

/-! ### C95 -/

/-- C95. `GeneratePublicKey` returns, and its steps are the same for all private keys of a field and variant. -/
theorem c95_generate (f : Fld) (v : W64) (k k' : PrivateKey) (hk : PrivOf f v k) (hk' : PrivOf f v k') (pub pub' : PublicKey)
    (hp : KeyOf f v pub) (hp' : KeyOf f v pub') :
    (∃ r, (k.generatePublicKeyT pub).val = some r ∧ k.generatePublicKey pub = some r) ∧
    (k.generatePublicKeyT pub).log = (k'.generatePublicKeyT pub').log := by
  obtain ⟨r, e, _⟩ := gen_spec hk pub hp.1 hp.2
  exact ⟨⟨r, (generatePublicKeyT_val k pub).trans e, e⟩, (generatePublicKeyT_rel hk hk' ⟨hp, hp'⟩).log⟩

/-- C95. `DeriveSecret` computes what it did, and its steps are the same for all private keys of a field and variant, all
public keys of the other one (also ones that are no curve at all) and all buffers of the same length. -/
theorem c95_derive (f : Fld) (v w : W64) (hvw : w ≠ v) (k k' : PrivateKey) (hk : PrivOf f v k) (hk' : PrivOf f v k') (pub pub' : PublicKey)
    (hp : KeyOf f w pub) (hp' : KeyOf f w pub') (ss ss' : List Byte) (hs : 2 * fieldBytes f ≤ ss.length) (hs' : ss'.length = ss.length) :
    (∃ r, (k.deriveSecretT ss pub).val = some r ∧ k.deriveSecret ss pub = some r) ∧
    (k.deriveSecretT ss pub).log = (k'.deriveSecretT ss' pub').log := by
  have h := deriveSecretT_rel hvw hk hk' ⟨hp, hp'⟩ (N := ss.length) ⟨rfl, hs'⟩ hs
  obtain ⟨r, e, _⟩ := (c52_derive f f v w k hk pub hp.1 hp.2 ss).2.2 hvw rfl hs
  exact ⟨⟨r, (deriveSecretT_val k ss pub).trans e, e⟩, h.log⟩

/-- Two different private keys of each field and variant A, B or SIKE, and a public key object. -/
example (f : Fld) (v : W64) : ∃ k k' : PrivateKey, PrivOf f v k ∧ PrivOf f v k' ∧ k.scalar ≠ k'.scalar ∧ ∃ pub, KeyOf f v pub := by
  refine ⟨⟨paramsOf f, v, List.replicate (if v.getLsbD 0 then (paramsOf f).A.secretByteLen else (paramsOf f).B.secretByteLen) 0,
    List.replicate (if v = 6 then (paramsOf f).msgLen else 0) 0⟩, ⟨paramsOf f, v,
    List.replicate (if v.getLsbD 0 then (paramsOf f).A.secretByteLen else (paramsOf f).B.secretByteLen) 1,
    List.replicate (if v = 6 then (paramsOf f).msgLen else 0) 0⟩, ⟨rfl, rfl, by simp, by simp⟩, ⟨rfl, rfl, by simp, by simp⟩, ?_,
    ⟨paramsOf f, v, ⟨zeroFp2 f.words, zeroFp2 f.words, zeroFp2 f.words⟩⟩, rfl, rfl⟩
  intro h
  have h := congrArg (fun l : List Byte => l.head?) h
  dsimp only at h
  cases hv : v.getLsbD 0 <;> rw [hv] at h <;> cases f <;> exact absurd h (by decide)

/-- Field operations on nothing at all that only write down what they are. -/
def silent : TOps Unit where
  add _ _ := call .add ()
  sub _ _ := call .sub ()
  mul _ _ := call .mul ()
  sqr _ := call .mul ()
  inv _ := call .mul ()
  cswap _ _ _ := call .cswap ((), ())

/-- The steps are recorded finely enough: a ladder that swaps only when it has to would be told from another by its steps. -/
def leakyLadder (scalar : List Byte) (i : Nat) : Nat → Byte → Tr Byte
  | 0, prev => do
    tell [.test false]
    pure prev
  | k + 1, prev => do
    tell [.test true, .load .key (i / 8)]
    let bit ← lift (scalarBit scalar i)
    let swap := prev ^^^ bit
    tell [.test (swap == 1)]
    if swap = 1 then do
      let _ ← cswapPtT silent ⟨(), ()⟩ ⟨(), ()⟩ swap
      let _ ← xDbladdT silent ⟨(), ()⟩ ⟨(), ()⟩ ⟨(), ()⟩ ()
      leakyLadder scalar (i + 1) k bit
    else do
      let _ ← xDbladdT silent ⟨(), ()⟩ ⟨(), ()⟩ ⟨(), ()⟩ ()
      leakyLadder scalar (i + 1) k bit

example : (leakyLadder [5] 0 3 0).log ≠ (leakyLadder [4] 0 3 0).log ∧
    (ladderLoopT silent () [5] 0 3 ⟨(), ()⟩ ⟨(), ()⟩ ⟨(), ()⟩ 0).log = (ladderLoopT silent () [4] 0 3 ⟨(), ()⟩ ⟨(), ()⟩ ⟨(), ()⟩ 0).log := by
  decide +kernel

/-! ### C96 -/

theorem same_end {α : Type} {R : α → α → Prop} {m m' : Tr α} (h : Rel R m m') : m.val.isSome = m'.val.isSome := by
  rcases m with ⟨_ | a, l⟩ <;> rcases m' with ⟨_ | b, l'⟩
  · rfl
  · exact h.2.elim
  · exact h.2.elim
  · rfl

/-- C96. The steps of `Encapsulate` are the same for all public keys, all random bytes, all contents of the buffers and all earlier uses of the
object; the only thing that counts is how many random bytes there are. -/
theorem c96_encapsulate {P : Plat} (hP : Supported P) (f : Fld) (c c' : KEM) (hc : KemOf f c) (hc' : KemOf f c') (hr : c'.rng.length = c.rng.length)
    (pub pub' : PublicKey) (hp : KeyOf f variantSike pub) (hp' : KeyOf f variantSike pub') (ct ct' ss ss' : List Byte)
    (hl : ctLen f ≤ ct.length) (hl' : ct'.length = ct.length) (hs : msgLen f ≤ ss.length) (hs' : ss'.length = ss.length) :
    (c.encapsulateT P ct ss pub).val = c.encapsulate P ct ss pub ∧
    (c.encapsulateT P ct ss pub).log = (c'.encapsulateT P ct' ss' pub').log ∧
    (c.encapsulateT P ct ss pub).val.isSome = (c'.encapsulateT P ct' ss' pub').val.isSome := by
  have h := encapsulateT_rel hP ⟨hc, hc'⟩ hr.symm (ct := ct) (ct' := ct') (ss := ss) (ss' := ss') ⟨rfl, hl'⟩ ⟨rfl, hs'⟩ ⟨hp, hp'⟩ hl hs
  exact ⟨encapsulateT_val P c ct ss pub, h.log, same_end h⟩

/-- C96. The steps of `Decapsulate` are the same for all private keys, all public keys and all ciphertexts of the right length: in particular
they do not tell a ciphertext that was made by `Encapsulate` from one that was not. -/
theorem c96_decapsulate {P : Plat} (hP : Supported P) (f : Fld) (c c' : KEM) (hc : KemOf f c) (hc' : KemOf f c')
    (prv prv' : PrivateKey) (hk : PrivOf f variantSike prv) (hk' : PrivOf f variantSike prv')
    (pub pub' : PublicKey) (hp : KeyOf f variantSike pub) (hp' : KeyOf f variantSike pub') (ct ct' ss ss' : List Byte)
    (hl : ct.length = ctLen f) (hl' : ct'.length = ctLen f) (hs : msgLen f ≤ ss.length) (hs' : ss'.length = ss.length) :
    (c.decapsulateT P ss prv pub ct).val = c.decapsulate P ss prv pub ct ∧
    (c.decapsulateT P ss prv pub ct).log = (c'.decapsulateT P ss' prv' pub' ct').log ∧
    (c.decapsulateT P ss prv pub ct).val.isSome = (c'.decapsulateT P ss' prv' pub' ct').val.isSome := by
  have h := decapsulateT_rel hP ⟨hc, hc'⟩ (ct := ct) (ct' := ct') (ss := ss) (ss' := ss') ⟨hl, hl'⟩ ⟨rfl, hs'⟩ ⟨hp, hp'⟩ hk hk' hs
  exact ⟨decapsulateT_val P c ss prv pub ct, h.log, same_end h⟩

/-- Objects and keys to which C96 applies. -/
example (f : Fld) (rng : List Byte) : ∃ c prv pub, allocate (idOf f) rng = some c ∧ KemOf f c ∧ newPrivateKey (idOf f) variantSike = some prv ∧
    PrivOf f variantSike prv ∧ newPublicKey (idOf f) variantSike = some pub ∧ KeyOf f variantSike pub := by
  obtain ⟨c, e, hc, _⟩ := kem_new f rng
  obtain ⟨k, e', hk⟩ := c34_new f variantSike
  exact ⟨c, k, _, e, hc, e', hk, newPublicKey_eq f variantSike, rfl, rfl⟩

end Props.SidhSteps
