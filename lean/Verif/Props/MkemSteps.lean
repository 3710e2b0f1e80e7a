import Verif.Lemmas.MkemSteps
import Verif.Props.SidhSteps
/-!
C110: what can be seen of the operations of the multi-recipient KEM does not depend on secrets.  What is recorded is said in Props/SidhSteps.lean; the
functions that write down their steps are in Model/MkemSteps.lean.
-/
namespace Props.MkemSteps
open Model Model.Sidh Model.Sidh.Tr Model.Sha3 Model.Sike Model.Mkem Spec Spec.Sidh Lemmas.SidhSteps Lemmas.SikeSteps Lemmas.MkemSteps Lemmas.Sike Lemmas.Sha3
open Props.SidhFp2 Props.SidhKeys Props.SidhCurve Props.Sike Props.Mkem Props.SidhSteps

/-- C110. The steps of `Encapsulate` are the same for all random bytes, all public keys, all contents of the buffers and all earlier uses of the object; what
counts is the number of recipients and how many random bytes there are. The function that writes down its steps computes what `Encapsulate` does. -/
theorem c110_encapsulate {P : Plat} (hP : Supported P) (f : Fld) (c c' : MultiKEM) (hc : MkemOf f c) (hc' : MkemOf f c') (hn : c'.cts.length = c.cts.length)
    (hr : c'.kem.rng.length = c.kem.rng.length) (pubs pubs' : List PublicKey) (hp : ∀ p ∈ pubs, KeyOf f variantSike p) (hp' : ∀ p ∈ pubs', KeyOf f variantSike p)
    (hl : pubs'.length = pubs.length) (hl' : pubs.length ≤ c.cts.length) (ss ss' : List Byte) (hs : msgLen f ≤ ss.length) (hs' : ss'.length = ss.length) :
    (c.encapsulateT P ss pubs).val = c.encapsulate P ss pubs ∧
    (c.encapsulateT P ss pubs).log = (c'.encapsulateT P ss' pubs').log ∧
    (c.encapsulateT P ss pubs).val.isSome = (c'.encapsulateT P ss' pubs').val.isSome := by
  have h := encapsulateT_rel hP (n := c.cts.length) ⟨⟨hc, rfl⟩, hc', hn⟩ hr.symm (ss := ss) (ss' := ss') ⟨rfl, hs'⟩ hs hl hp hp' hl'
  exact ⟨encapsulateT_val P c ss pubs, h.log, same_end h⟩

/-- C110. The steps of `Decapsulate` are the same for all private keys, all public keys, all ciphertexts of the right length and all contents of the object: in
particular they do not tell the ciphertext made for the recipient from another, nor which message the object holds. -/
theorem c110_decapsulate {P : Plat} (hP : Supported P) (f : Fld) (c c' : MultiKEM) (hc : MkemOf f c) (hc' : MkemOf f c')
    (prv prv' : PrivateKey) (hk : PrivOf f variantSike prv) (hk' : PrivOf f variantSike prv')
    (pub pub' : PublicKey) (hp : KeyOf f variantSike pub) (hp' : KeyOf f variantSike pub') (ct ct' ss ss' : List Byte)
    (hl : ct.length = msgLen f) (hl' : ct'.length = msgLen f) (hs : msgLen f ≤ ss.length) (hs' : ss'.length = ss.length) :
    (c.decapsulateT P ss prv pub ct).val = c.decapsulate P ss prv pub ct ∧
    (c.decapsulateT P ss prv pub ct).log = (c'.decapsulateT P ss' prv' pub' ct').log ∧
    (c.decapsulateT P ss prv pub ct).val.isSome = (c'.decapsulateT P ss' prv' pub' ct').val.isSome := by
  have h := decapsulateT_rel hP hc hc' (ct := ct) (ct' := ct') (ss := ss) (ss' := ss') ⟨hl, hl'⟩ ⟨rfl, hs'⟩ ⟨hp, hp'⟩ hk hk' hs
  exact ⟨decapsulateT_val P c ss prv pub ct, h.log, same_end h⟩

/-- Objects and keys to which C110 applies: two objects for n recipients, with different random bytes. -/
example (f : Fld) (n : Nat) (rng rng' : List Byte) (h : rng'.length = rng.length) : ∃ c c' prv pub, MultiKEM.zero.allocate (idOf f) n rng = some c ∧
    MultiKEM.zero.allocate (idOf f) n rng' = some c' ∧ MkemOf f c ∧ MkemOf f c' ∧ c'.cts.length = c.cts.length ∧ c'.kem.rng.length = c.kem.rng.length ∧
    newPrivateKey (idOf f) variantSike = some prv ∧ PrivOf f variantSike prv ∧ newPublicKey (idOf f) variantSike = some pub ∧ KeyOf f variantSike pub := by
  obtain ⟨c, e, hc, r, l⟩ := c60_allocate f n rng MultiKEM.zero (by simp [MultiKEM.zero]) (by simp [MultiKEM.zero])
  obtain ⟨c', e', hc', r', l'⟩ := c60_allocate f n rng' MultiKEM.zero (by simp [MultiKEM.zero]) (by simp [MultiKEM.zero])
  obtain ⟨k, ek, hk⟩ := c34_new f variantSike
  exact ⟨c, c', k, _, e, e', hc, hc', l'.trans l.symm, by rw [r, r', h], ek, hk, newPublicKey_eq f variantSike, rfl, rfl⟩

end Props.MkemSteps
