import Verif.Lemmas.CsidhMade
import Verif.Props.CsidhPke
import Verif.Lemmas.CsidhRunKeys
/-
C75, C76, C77 and C61: agreement of the CSIDH key exchange, independence of the random source, and the round trip of the
public-key encryption built on it.
-/
namespace Props.CsidhAgree
open Model Model.Limb Model.Csidh Model.Sha3 Model.CsidhPke Spec Spec.Csidh Lemmas.CsidhField Lemmas.CsidhNat Lemmas.CsidhKeys Lemmas.CsidhMade
  Lemmas.CsidhPke Lemmas.Sha3 Lemmas.CsidhRun

/-- The public keys that can be made from the private keys `l`, the last one first: a generated public key, or the result
of `DeriveSecret` on such a key, imported as a public key. -/
inductive Made : List PrivateKey → PublicKey → Prop
  | gen {sk : PrivateKey} {rng rest : List Byte} {pk : PublicKey} (h : generatePublicKey sk rng = some (pk, rest)) : Made [sk] pk
  | derive {l : List PrivateKey} {pk : PublicKey} {sk : PrivateKey} {out out' rng rest : List Byte} {ok : Bool} (m : Made l pk) (ho : out.length = 64)
      (h : deriveSecret out pk sk rng = some (out', ok, rest)) : Made (sk :: l) (PublicKey.zero.importKey out').1

/-- how often isogenies of the i-th degree are applied in the positive direction -/
def forward (l : List PrivateKey) (i : Nat) : Nat := (l.map fun sk => (exponent sk.e i).toNat).sum

/-- and in the negative direction -/
def backward (l : List PrivateKey) (i : Nat) : Nat := (l.map fun sk => (-exponent sk.e i).toNat).sum

theorem made_orbit {l : List PrivateKey} {pk : PublicKey} (m : Made l pk) : Orbit l pk := by
  induction m with
  | gen h => exact orbit_gen h
  | derive _ ho h ih => exact orbit_derive ih ho h

/-- C77. A public key made by any number of parties depends only on the sums of the positive and of the negative exponents
of each prime: not on the order of the parties, on how the exponents are split between them, or on the random source. -/
theorem c77_exponents {l l' : List PrivateKey} {pk pk' : PublicKey} (m : Made l pk) (m' : Made l' pk')
    (hf : ∀ i < 74, forward l i = forward l' i) (hb : ∀ i < 74, backward l i = backward l' i) : pk = pk' := by
  refine orbit_unique (made_orbit m) (made_orbit m') ?_
  intro i hi sg
  cases sg
  · exact hf i hi
  · exact hb i hi

/-- C77. In particular the parties may come in any order. -/
theorem c77_order {l l' : List PrivateKey} {pk pk' : PublicKey} (m : Made l pk) (m' : Made l' pk') (h : l.Perm l') : pk = pk' :=
  c77_exponents m m' (fun _ _ => (h.map _).sum_eq) fun _ _ => (h.map _).sum_eq

/-- C76. No key made in this way is ever refused by `Validate`. -/
theorem c76_valid {l : List PrivateKey} {pk : PublicKey} (m : Made l pk) (rng rest : List Byte) (ok : Bool) (h : validate pk rng = some (ok, rest)) : ok = true :=
  orbit_valid (made_orbit m) h

/-- C76. Nor does `DeriveSecret` fail on it. -/
theorem c76_derive {l : List PrivateKey} {pk : PublicKey} (m : Made l pk) (sk : PrivateKey) (out out' rng rest : List Byte) (ok : Bool)
    (h : deriveSecret out pk sk rng = some (out', ok, rest)) : ok = true := by
  rw [deriveSecret] at h
  match hv : validate pk rng with
  | none => rw [hv] at h; cases h
  | some (b, r) =>
    obtain rfl := c76_valid m _ _ _ hv
    rw [hv] at h
    simp only at h
    match hg : groupAction pk.a sk r with
    | none => rw [hg] at h; cases h
    | some (a, r') => rw [hg] at h; cases h; rfl

/-- C76. The public key is a function of the private key: the random source does not matter. -/
theorem c76_public (sk : PrivateKey) (rng rng' rest rest' : List Byte) (pk pk' : PublicKey) (h : generatePublicKey sk rng = some (pk, rest))
    (h' : generatePublicKey sk rng' = some (pk', rest')) : pk = pk' :=
  c77_order (.gen h) (.gen h') (List.Perm.refl _)

/-- C76. So is the shared secret, of the private key and the public key. -/
theorem c76_secret {l : List PrivateKey} {pk : PublicKey} (m : Made l pk) (sk : PrivateKey) (out out1 out' out1' rng rng' rest rest' : List Byte) (ok ok' : Bool)
    (ho : out.length = 64) (ho' : out'.length = 64) (h : deriveSecret out pk sk rng = some (out1, ok, rest)) (h' : deriveSecret out' pk sk rng' = some (out1', ok', rest')) :
    out1 = out1' :=
  import_inj (derive_len ho h) (derive_len ho' h') (c77_order (.derive m ho h) (.derive m ho' h') (List.Perm.refl _))

/-- C75. Agreement: for all private keys of both parties, whatever the random source delivers in the four calls, both calls
of `DeriveSecret` succeed and both parties end with the same secret. -/
theorem c75_agree (skA skB : PrivateKey) (rA rB r1 r2 rA' rB' r1' r2' : List Byte) (pkA pkB : PublicKey) (outA outB ssA ssB : List Byte) (okA okB : Bool)
    (hA : generatePublicKey skA rA = some (pkA, rA')) (hB : generatePublicKey skB rB = some (pkB, rB')) (hoA : outA.length = 64) (hoB : outB.length = 64)
    (hdA : deriveSecret outA pkB skA r1 = some (ssA, okA, r1')) (hdB : deriveSecret outB pkA skB r2 = some (ssB, okB, r2')) :
    okA = true ∧ okB = true ∧ ssA = ssB :=
  ⟨c76_derive (.gen hB) _ _ _ _ _ _ hdA, c76_derive (.gen hA) _ _ _ _ _ _ hdB,
    import_inj (derive_len hoA hdA) (derive_len hoB hdB) (c77_order (.derive (.gen hB) hoA hdA) (.derive (.gen hA) hoB hdB) (List.Perm.swap _ _ _))⟩

/-- C75. The same over the wire: the public keys are exported, sent and imported. -/
theorem c75_wire (skA skB : PrivateKey) (rA rB r1 r2 rA' rB' r1' r2' : List Byte) (pkA pkB : PublicKey) (bufA bufB outA outB ssA ssB : List Byte) (okA okB : Bool)
    (hA : generatePublicKey skA rA = some (pkA, rA')) (hB : generatePublicKey skB rB = some (pkB, rB')) (hbA : bufA.length = 64) (hbB : bufB.length = 64)
    (hoA : outA.length = 64) (hoB : outB.length = 64)
    (hdA : deriveSecret outA (PublicKey.zero.importKey (pkB.exportKey bufB).1).1 skA r1 = some (ssA, okA, r1'))
    (hdB : deriveSecret outB (PublicKey.zero.importKey (pkA.exportKey bufA).1).1 skB r2 = some (ssB, okB, r2')) :
    okA = true ∧ okB = true ∧ ssA = ssB := by
  rw [import_export (orbit_len (orbit_gen hB)) hbB] at hdA
  rw [import_export (orbit_len (orbit_gen hA)) hbA] at hdB
  exact c75_agree _ _ _ _ _ _ _ _ _ _ _ _ _ _ _ _ _ _ hA hB hoA hoB hdA hdB

/-- C61. Round trip of the public-key encryption: whatever `Enc` makes from a 16-byte message and the public key of `sk`,
`Dec` with `sk` gives the message back, on any two objects that have been allocated, used or not, and whatever their random
sources deliver. -/
theorem c61_roundtrip {P : Plat} (hP : Supported P) (sk : PrivateKey) (r r' : List Byte) (pk : PublicKey) (hpk : generatePublicKey sk r = some (pk, r'))
    (rngE rngD : List Byte) (hE hD : State) (hhE : SameParams newShake128 hE) (hhD : SameParams newShake128 hD) (pt : List Byte) (hpt : pt.length = 16)
    (cE cD : PKE) (ct : Ciphertext) (pt' : List Byte) (he : PKE.enc P ⟨some rngE, some hE⟩ pk pt = some (cE, ct))
    (hd : PKE.dec P ⟨some rngD, some hD⟩ sk ct = some (cD, pt')) : pt' = pt := by
  obtain ⟨skA, r0, b, ss, b', r1, pkA, r2, h', e1, e2, e3, e4, -, rfl⟩ := (enc_iff hP hhE pk hpt cE ct).mp he
  have hz : (List.zipWith (· ^^^ ·) pt (H ss 0)).length = 16 := by rw [List.length_zipWith, H_length, hpt]; rfl
  obtain ⟨ss', b'', r3, h'', f1, f2, -, rfl⟩ := (dec_iff hP hhD sk (pk := pkA) (orbit_len (orbit_gen e3)) rfl (by simp [hz]) cD pt').mp hd
  have := (c75_agree _ _ _ _ _ _ _ _ _ _ _ _ _ _ _ _ _ _ e3 hpk (by simp) (by simp) e2 f1).2.2
  subst this
  simp only
  rw [List.take_left' hz]
  exact xor_cancel pt _ (by rw [H_length, hpt])

/-! ### A case -/

open Lemmas.CsidhRunAct Lemmas.CsidhRunKeys

/-- The hypotheses of c75_agree are met by two different private keys, whose public keys and secret are different curves:
exponent 1 for the prime 3, and exponent -1 for the prime 5. -/
theorem case_agree (out : List Byte) (ho : out.length = 64) (rest : List Byte) :
    (exponent keyA.e 0 = 1 ∧ exponent keyB.e 1 = -1) ∧
    generatePublicKey keyA (fpBytes (lit 12) ++ (fpBytes (lit 2) ++ rest)) = some (⟨lit eA⟩, rest) ∧
    generatePublicKey keyB (fpBytes (lit 2) ++ (fpBytes (lit 2) ++ rest)) = some (⟨lit eB⟩, rest) ∧
    deriveSecret out ⟨lit eB⟩ keyA (fpBytes (lit 4) ++ (fpBytes (lit 2) ++ (fpBytes (lit 3) ++ rest))) = some (fpBytes (lit eAB), true, rest) ∧
    deriveSecret out ⟨lit eA⟩ keyB (fpBytes (lit 4) ++ (fpBytes (lit 2) ++ (fpBytes (lit 2) ++ rest))) = some (fpBytes (lit eAB), true, rest) ∧
    (lit 0 ≠ lit eA ∧ lit 0 ≠ lit eB ∧ lit eA ≠ lit eB ∧ lit eA ≠ lit eAB ∧ lit eB ≠ lit eAB) :=
  ⟨by decide +kernel, publicA rest, publicB rest, deriveA out ho rest, deriveB out ho rest, by decide +kernel⟩

example : Made [keyA, keyB] (PublicKey.zero.importKey (fpBytes (lit eAB))).1 :=
  .derive (.gen (case_agree (List.replicate 64 0) (by simp) []).2.2.1) (by simp) (case_agree (List.replicate 64 0) (by simp) []).2.2.2.1

example : Made [keyB, keyA] (PublicKey.zero.importKey (fpBytes (lit eAB))).1 :=
  .derive (.gen (case_agree (List.replicate 64 0) (by simp) []).2.1) (by simp) (case_agree (List.replicate 64 0) (by simp) []).2.2.2.2.1

/-- The hypotheses of c61_roundtrip are met: the message is encrypted for the second key, with the first as ephemeral key. -/
theorem case_pke {P : Plat} (hP : Supported P) (pt : List Byte) (hpt : pt.length = 16) (rest : List Byte) : ∃ cE ct cD pt',
    PKE.enc P (PKE.allocate (drawA ++ (List.replicate 64 0 ++ (fpBytes (lit 4) ++ (fpBytes (lit 2) ++ (fpBytes (lit 3) ++ (fpBytes (lit 12) ++ (fpBytes (lit 2) ++ rest)))))))) ⟨lit eB⟩ pt = some (cE, ct) ∧
    PKE.dec P (PKE.allocate (fpBytes (lit 4) ++ (fpBytes (lit 2) ++ (fpBytes (lit 2) ++ rest)))) keyB ct = some (cD, pt') ∧ pt' = pt := by
  obtain ⟨h', e1, -⟩ := hash_new hP secret (by simp [secret, fpBytes])
  have hz : (List.zipWith (· ^^^ ·) pt (H secret 0)).length = 16 := by rw [List.length_zipWith, H_length, hpt]; rfl
  have he := (enc_iff hP (rng := drawA ++ (List.replicate 64 0 ++ (fpBytes (lit 4) ++ (fpBytes (lit 2) ++ (fpBytes (lit 3) ++ (fpBytes (lit 12) ++ (fpBytes (lit 2) ++ rest))))))) (h := newShake128)
    ⟨rfl, rfl, rfl⟩ ⟨lit eB⟩ hpt _ _).mpr ⟨_, _, _, _, _, _, _, _, _, genA _, deriveA _ (by simp) _, publicA _, e1, rfl, rfl⟩
  have hd := (dec_iff hP (rng := fpBytes (lit 4) ++ (fpBytes (lit 2) ++ (fpBytes (lit 2) ++ rest))) (h := newShake128) ⟨rfl, rfl, rfl⟩ keyB
    (ct := ⟨leBytes 64 (val (PublicKey.mk (lit eA)).a), List.zipWith (· ^^^ ·) pt (H secret 0) ++ List.replicate 48 0⟩) (pk := ⟨lit eA⟩) (orbit_len (orbit_gen (publicA []))) rfl (by simp [hz]) _ _).mpr
    ⟨_, _, _, _, deriveB _ (by simp) _, e1, rfl, rfl⟩
  exact ⟨_, _, _, _, he, hd, c61_roundtrip hP keyB _ _ _ (publicB rest) _ _ _ _ ⟨rfl, rfl, rfl⟩ ⟨rfl, rfl, rfl⟩ pt hpt _ _ _ _ he hd⟩

end Props.CsidhAgree
