import Verif.Lemmas.SidhBuildApi
import Verif.Lemmas.SidhArm503Run
/-!
C98, C99: the amd64 and arm64 builds of SIDH, SIKE and the multi-recipient KEM give the results of the portable build.

The functions with suffix `On` are those of sidh.go, sike.go and mkem/sike.go with the routines of a build; those without are the
portable build.  `amd64Build c e` calls the assembly of arith_amd64.s on CPU c; e is what each call finds in registers, stack and
unused words, any function of its operands.
-/
namespace Props.SidhBuild
open Model Model.Asm Model.Sidh Model.Sike Model.Mkem Model.Sha3 Spec Spec.Sidh Lemmas.SidhBuild Props.SidhKeys

/-- The public key objects a program can make (in the portable build): `NewPublicKey`, then any sequence of `Import` and
`GeneratePublicKey`. -/
inductive Made (f : Fld) : PublicKey → Prop
  | new {v : W64} {k : PublicKey} : newPublicKey (idOf f) v = some k → Made f k
  | imported {k k' : PublicKey} {bytes : List Byte} {ok : Bool} : Made f k → k.importKey bytes = some (k', ok) → Made f k'
  | generated {k k' : PublicKey} {prv : PrivateKey} : Made f k → prv.generatePublicKey k = some k' → Made f k'

/-- The same in a build. -/
inductive MadeOn (B : Build) (f : Fld) : PublicKey → Prop
  | new {v : W64} {k : PublicKey} : newPublicKey (idOf f) v = some k → MadeOn B f k
  | imported {k k' : PublicKey} {bytes : List Byte} {ok : Bool} : MadeOn B f k → k.importKeyOn B bytes = some (k', ok) → MadeOn B f k'
  | generated {k k' : PublicKey} {prv : PrivateKey} : MadeOn B f k → prv.generatePublicKeyOn B k = some k' → MadeOn B f k'

/-- The build does what the portable one does with the keys of the fields in `S`: the same key objects can be made, and all functions
return, panic, and write the same. -/
structure SameResults (B : Build) (S : Fld → Prop) : Prop where
  made : ∀ f, S f → ∀ k, MadeOn B f k ↔ Made f k
  importKey : ∀ f, S f → ∀ k, Made f k → ∀ bytes, k.importKeyOn B bytes = k.importKey bytes
  exportKey : ∀ f, S f → ∀ k, Made f k → ∀ out, k.exportKeyOn B out = k.exportKey out
  generatePublicKey : ∀ f, S f → ∀ k, Made f k → ∀ prv : PrivateKey, prv.generatePublicKeyOn B k = prv.generatePublicKey k
  deriveSecret : ∀ f, S f → ∀ k, Made f k → ∀ (prv : PrivateKey) (ss : List Byte), prv.deriveSecretOn B ss k = prv.deriveSecret ss k
  encapsulate : ∀ f, S f → ∀ k, Made f k → ∀ (P : Plat) (c : KEM), (∃ g, S g ∧ c.params = paramsOf g) → ∀ ciphertext secret,
    c.encapsulateOn B P ciphertext secret k = c.encapsulate P ciphertext secret k
  decapsulate : ∀ f, S f → ∀ k, Made f k → ∀ (P : Plat) (c : KEM), (∃ g, S g ∧ c.params = paramsOf g) →
    ∀ prv : PrivateKey, (∃ g, S g ∧ prv.params = paramsOf g) → ∀ ciphertext secret,
    c.decapsulateOn B P secret prv k ciphertext = c.decapsulate P secret prv k ciphertext
  encapsulateMany : ∀ ks : List PublicKey, (∀ k ∈ ks, ∃ f, S f ∧ Made f k) → ∀ (P : Plat) (c : MultiKEM), (∃ g, S g ∧ c.kem.params = paramsOf g) →
    ∀ secret, c.encapsulateOn B P secret ks = c.encapsulate P secret ks
  decapsulateMany : ∀ f, S f → ∀ k, Made f k → ∀ (P : Plat) (c : MultiKEM), (∃ g, S g ∧ c.kem.params = paramsOf g) →
    ∀ (prv : PrivateKey) ciphertext secret, c.decapsulateOn B P secret prv k ciphertext = c.decapsulate P secret prv k ciphertext

theorem pub_of_made {f : Fld} {k : PublicKey} (h : Made f k) : Pub f k := by
  have hg : Agrees (genericBuild (paramsOf f)) f := by
    rw [genericBuild, prime_of]; exact agrees_portable f
  induction h with
  | new h =>
    rw [newPublicKey_eq, Option.some.injEq] at h
    subst h
    exact ⟨rfl, zero_V2 f, zero_V2 f, zero_V2 f⟩
  | imported _ h ih => exact import_pub hg ih h
  | generated _ h ih => exact gen_pub hg ih h

theorem parIn {S : Fld → Prop} {g : SidhParams} (h : ∃ f, S f ∧ g = paramsOf f) : ParIn S g := by
  obtain ⟨f, hf, rfl⟩ := h
  intro f' h'
  have : f' = f := by revert h'; cases f <;> cases f' <;> decide
  rw [this]; exact hf

theorem same_of {B : Build} {S : Fld → Prop} (h : AgreesOn B S) : SameResults B S where
  made f hf k := by
    constructor
    · intro hk
      induction hk with
      | new h => exact .new h
      | imported _ hi ih => rw [import_eq (h f hf) (pub_of_made ih)] at hi; exact .imported ih hi
      | generated _ hi ih => rw [gen_eq (h f hf) (pub_of_made ih)] at hi; exact .generated ih hi
    · intro hk
      induction hk with
      | new h => exact .new h
      | imported hk hi ih => rw [← import_eq (h f hf) (pub_of_made hk)] at hi; exact .imported ih hi
      | generated hk hi ih => rw [← gen_eq (h f hf) (pub_of_made hk)] at hi; exact .generated ih hi
  importKey f hf k hk bytes := import_eq (h f hf) (pub_of_made hk) bytes
  exportKey f hf k hk out := export_eq (h f hf) (pub_of_made hk) out
  generatePublicKey f hf k hk prv := gen_eq (h f hf) (pub_of_made hk) prv
  deriveSecret f hf k hk prv ss := derive_eq (h f hf) (pub_of_made hk) prv ss
  encapsulate f hf k hk P c hc ct s := encapsulate_eq h P c (parIn hc) ct s ⟨f, hf, pub_of_made hk⟩
  decapsulate f hf k hk P c hc prv hv ct s := decapsulate_eq h P c (parIn hc) s prv (parIn hv) ⟨f, hf, pub_of_made hk⟩ ct
  encapsulateMany ks hk P c hc s := mkem_encapsulate_eq h P c (parIn hc) s fun k hk' => by
    obtain ⟨f, hf, hm⟩ := hk k hk'
    exact ⟨f, hf, pub_of_made hm⟩
  decapsulateMany f hf k hk P c hc prv ct s := mkem_decapsulate_eq h P c (parIn hc) s prv ⟨f, hf, pub_of_made hk⟩ ct

theorem fldOf_params (f : Fld) : fldOf (paramsOf f) = f := by cases f <;> decide

/-! ### C98: amd64 -/

/-- The amd64 build gives the results of the portable one, with all three fields, on every CPU. -/
theorem c98_amd64 (c : Cpu) (e : List W64 → List W64 → Env) : SameResults (amd64Build c e) (fun _ => True) :=
  same_of fun f _ => by rw [amd64Build, fldOf_params]; exact agrees_amd64 f c e

/-- Non-vacuity: every string of the right size can be imported into a new key by the amd64 build, which then exports its canonical encoding. -/
theorem c98_import (c : Cpu) (e : List W64 → List W64 → Env) (f : Fld) (v : W64) (input : List Byte) (h : input.length = 6 * fieldBytes f) :
    ∃ k k', newPublicKey (idOf f) v = some k ∧ k.importKeyOn (amd64Build c e) input = some (k', true) ∧ MadeOn (amd64Build c e) f k' ∧
      ∀ out : List Byte, out.length = 6 * fieldBytes f → k'.exportKeyOn (amd64Build c e) out = some (encode f (coords f input)) := by
  obtain ⟨k, h1, _, _, h2⟩ := c35_import f v input
  obtain ⟨k', h3, _, h4⟩ := h2 h
  have s := c98_amd64 c e
  have m : Made f k' := .imported (.new h1) h3
  refine ⟨k, k', h1, by rw [s.importKey f trivial k (.new h1), h3], (s.made f trivial k').2 m, fun out ho => ?_⟩
  rw [s.exportKey f trivial k' m, h4 out ho]

example : ∃ k, Made .p434 k ∧ k.exportKey (List.replicate 330 0) = some (List.replicate 330 1) := by
  obtain ⟨k, h1, _, _, h2⟩ := c35_import .p434 0 (List.replicate 330 1)
  obtain ⟨k', h3, _, h4⟩ := h2 List.length_replicate
  refine ⟨k', .imported (.new h1) h3, ?_⟩
  rw [h4 (List.replicate 330 0) List.length_replicate]
  decide +kernel

/-- The portable build is the model of the other properties. -/
theorem c98_generic : SameResults genericBuild (fun _ => True) :=
  same_of fun f _ => by rw [genericBuild, prime_of]; exact agrees_portable f

/-! ### C99: arm64 -/

/-- The arm64 build gives the results of the portable one with p434 and p751. -/
theorem c99_arm64_partial (e : List W64 → List W64 → Env) : SameResults (arm64Build e) (fun f => f ≠ .p503) :=
  same_of fun f hf => by
    rw [arm64Build, fldOf_params]
    cases f
    · exact agrees_portable .p434
    · exact absurd rfl hf
    · exact agrees_arm64 e

/-- With p503 it does not: there are 378 bytes of a public key that both builds import alike, and a private key of 32 bytes, for which the
two builds derive different secrets.  (The arm64 multiplication of p503 loses a carry, C89.) -/
theorem c99_false (e : List W64 → List W64 → Env) : ∃ (k0 k : PublicKey) (prv0 prv : PrivateKey) (bytes scalar s₁ s₂ : List Byte),
    newPublicKey (idOf .p503) 0 = some k0 ∧ k0.importKey bytes = some (k, true) ∧ k0.importKeyOn (arm64Build e) bytes = some (k, true) ∧
    newPrivateKey (idOf .p503) 1 = some prv0 ∧ prv0.importKey scalar = some (prv, true) ∧
    prv.deriveSecretOn (arm64Build e) (List.replicate 126 0) k = some s₁ ∧ prv.deriveSecret (List.replicate 126 0) k = some s₂ ∧ s₁ ≠ s₂ :=
  Lemmas.SidhArm503.wrong e

theorem c99_not_same (e : List W64 → List W64 → Env) : ¬ SameResults (arm64Build e) (fun _ => True) := by
  intro h
  obtain ⟨k0, k, prv0, prv, bytes, sc, s₁, s₂, h1, h2, _, _, _, h3, h4, h5⟩ := c99_false e
  have := h.deriveSecret .p503 trivial k (.imported (.new h1) h2) prv (List.replicate 126 0)
  rw [h3, h4, Option.some.injEq] at this
  exact h5 this

end Props.SidhBuild
