import Verif.Lemmas.CsidhBuild
import Verif.Props.CsidhAgree
/-!
C101: the amd64 build of CSIDH and of the encryption built on it gives the results of the portable build.

The functions of `Prim` are those of fp511.go, csidh.go and mkem/csidh.go with the routines of a build; `generatePublicKey`, `validate`,
`deriveSecret`, `PKE.enc`, `PKE.dec` and `MultiPKE.encrypt` are the portable build, the model of the other properties.  `amd64 c e` calls the assembly of
fp511_amd64.s on CPU c; e is what each call finds in registers, stack and unused words, any function of its operands.
-/
namespace Props.CsidhBuild
open Model Model.Asm Model.Csidh Model.CsidhPke Model.Sha3 Lemmas.CsidhBuild Lemmas.CsidhNat Lemmas.CsidhRunAct Lemmas.CsidhRunKeys

/-- The build does what the portable one does with all private keys and all public keys (a public key is 8 words, reduced or not, on a curve
or not): the same results and errors, the same bytes drawn from the random source, and `none`, a source that has run dry, in the same cases. -/
structure SameResults (M : Prim) : Prop where
  generatePublicKey : ∀ (prv : PrivateKey) (rng : List Byte), M.generatePublicKey prv rng = generatePublicKey prv rng
  validate : ∀ (pub : PublicKey), pub.a.length = 8 → ∀ rng : List Byte, M.validate pub rng = validate pub rng
  deriveSecret : ∀ (pub : PublicKey), pub.a.length = 8 → ∀ (out : List Byte) (prv : PrivateKey) (rng : List Byte),
    M.deriveSecret out pub prv rng = deriveSecret out pub prv rng
  enc : ∀ (pub : PublicKey), pub.a.length = 8 → ∀ (P : Plat) (c : PKE) (pt : List Byte), M.enc P c pub pt = c.enc P pub pt
  dec : ∀ (P : Plat) (c : PKE) (sk : PrivateKey) (ct : Ciphertext), M.dec P c sk ct = c.dec P sk ct
  encrypt : ∀ keys : List PublicKey, (∀ k ∈ keys, k.a.length = 8) → ∀ (P : Plat) (c : MultiPKE) (pt : List Byte),
    M.encrypt P c keys pt = c.encrypt P keys pt

theorem same_of {M : Prim} (h : Agrees M) : SameResults M where
  generatePublicKey := generatePublicKey_eq h
  validate _ hp rng := validate_eq h hp rng
  deriveSecret _ hp out prv rng := deriveSecret_eq h hp out prv rng
  enc _ hp P c pt := enc_eq h P c hp pt
  dec := dec_eq h
  encrypt _ hk P c pt := encrypt_eq h P c hk pt

/-- The amd64 build gives the results of the portable one on every CPU. -/
theorem c101_amd64 (c : Cpu) (e : List W64 → List W64 → Sidh.Env) : SameResults (amd64 c e) := same_of (agrees_amd64 c e)

/-- The functions over the routines of fp511_generic.go are the model of the other properties. -/
theorem c101_generic : SameResults portable := same_of agrees_portable

/-- So two parties with different builds agree as well: a key exchange in which one party's machine is an amd64 one of any kind and the other's
runs the portable code, whatever happens in the registers and buffers of the first. -/
theorem c101_agree (c : Cpu) (e : List W64 → List W64 → Sidh.Env) (skA skB : PrivateKey) (rA rB r1 r2 rA' rB' r1' r2' : List Byte) (pkA pkB : PublicKey)
    (outA outB ssA ssB : List Byte) (okA okB : Bool) (hA : (amd64 c e).generatePublicKey skA rA = some (pkA, rA')) (hB : generatePublicKey skB rB = some (pkB, rB'))
    (lA : outA.length = 64) (lB : outB.length = 64) (dA : (amd64 c e).deriveSecret outA pkB skA r1 = some (ssA, okA, r1'))
    (dB : deriveSecret outB pkA skB r2 = some (ssB, okB, r2')) : okA = true ∧ okB = true ∧ ssA = ssB := by
  rw [(c101_amd64 c e).generatePublicKey] at hA
  have hp : pkB.a.length = 8 := Lemmas.CsidhMade.orbit_len (Lemmas.CsidhMade.orbit_gen hB)
  rw [(c101_amd64 c e).deriveSecret pkB hp] at dA
  exact Props.CsidhAgree.c75_agree skA skB rA rB r1 r2 rA' rB' r1' r2' pkA pkB outA outB ssA ssB okA okB hA hB lA lB dA dB

/-- Non-vacuity: a key exchange on an amd64 machine, with keys and a secret that are three different curves. -/
theorem c101_case (c : Cpu) (e : List W64 → List W64 → Sidh.Env) (out : List Byte) (ho : out.length = 64) (rest : List Byte) :
    (amd64 c e).generatePublicKey keyA (fpBytes (lit 12) ++ (fpBytes (lit 2) ++ rest)) = some (⟨lit eA⟩, rest) ∧
    (amd64 c e).generatePublicKey keyB (fpBytes (lit 2) ++ (fpBytes (lit 2) ++ rest)) = some (⟨lit eB⟩, rest) ∧
    (amd64 c e).deriveSecret out ⟨lit eB⟩ keyA (fpBytes (lit 4) ++ (fpBytes (lit 2) ++ (fpBytes (lit 3) ++ rest))) = some (fpBytes (lit eAB), true, rest) ∧
    (amd64 c e).deriveSecret out ⟨lit eA⟩ keyB (fpBytes (lit 4) ++ (fpBytes (lit 2) ++ (fpBytes (lit 2) ++ rest))) = some (fpBytes (lit eAB), true, rest) ∧
    (lit eA ≠ lit eB ∧ lit eA ≠ lit eAB ∧ lit eB ≠ lit eAB) := by
  obtain ⟨_, h1, h2, h3, h4, _, _, h5⟩ := Props.CsidhAgree.case_agree out ho rest
  have s := c101_amd64 c e
  refine ⟨?_, ?_, ?_, ?_, h5⟩
  · rw [s.generatePublicKey, h1]
  · rw [s.generatePublicKey, h2]
  · rw [s.deriveSecret _ (Lemmas.CsidhMade.orbit_len (Lemmas.CsidhMade.orbit_gen h2)), h3]
  · rw [s.deriveSecret _ (Lemmas.CsidhMade.orbit_len (Lemmas.CsidhMade.orbit_gen h1)), h4]

/-- The three kinds of CPU run different code: only one with BMI2 and ADX calls `mulBmiAsm`. -/
example (e : List W64 → List W64 → Sidh.Env) : (amd64 .base e).bmi = none ∧ (amd64 .bmi2 e).bmi = none ∧ ∃ f, (amd64 .adx e).bmi = some f :=
  ⟨rfl, rfl, _, rfl⟩

end Props.CsidhBuild
