import Verif.Lemmas.SikeKat
import Verif.Props.Sike
/-!
One run of SIKEp434, calculated by the kernel: the first test vector of dh/sidh/testdata.  Used for the part of C55 the
code does not satisfy.
-/
namespace Props.SikeRun
open Model Model.Sidh Model.Sha3 Model.Sike Spec Spec.Sidh Spec.Sike Spec.Sha3 Lemmas.Sha3 Lemmas.Sike Lemmas.SidhBytes Lemmas.SidhGood Lemmas.SidhNat
open Props.SidhFp2 Props.SidhKeys Props.SidhCurve Props.Sike Lemmas.SidhRun Lemmas.SidhBase Lemmas.SikeKat

/-! ### from numbers to bytes -/

/-- the field elements of three pairs -/
def elT (f : Fld) (t : Tri N2) : Tri (Fq f) := ⟨el f t.p, el f t.q, el f t.r⟩

theorem genA_of {f : Fld} {s : List Byte} {t : Tri N2} (h : keyAS (rOps f.p) (nparams f) s = some t) : genF f true s = elT f t := by
  rw [keyAS_eq] at h
  obtain ⟨u, h1, h2⟩ := ropt_some' (publicKeyGenA_rel (rel f) (rparams f) s) h
  rw [genF, if_pos rfl, h1]
  have e : elT f t = ⟨u.p, u.q, u.r⟩ := by
    rw [elT, show el f t.p = u.p from h2.hp, show el f t.q = u.q from h2.hq, show el f t.r = u.r from h2.hr]
  exact e.symm

theorem genB_of {f : Fld} {s : List Byte} {t : Tri N2} (h : keyBS (rOps f.p) (nparams f) s = some t) : genF f false s = elT f t := by
  rw [keyBS_eq] at h
  obtain ⟨u, h1, h2⟩ := ropt_some' (publicKeyGenB_rel (rel f) (rparams f) s) h
  rw [genF, if_neg (by decide), h1]
  have e : elT f t = ⟨u.p, u.q, u.r⟩ := by
    rw [elT, show el f t.p = u.p from h2.hp, show el f t.q = u.q from h2.hq, show el f t.r = u.r from h2.hr]
  exact e.symm

theorem exA_of {f : Fld} {s : List Byte} {t : Tri N2} {j : N2} (h : secAS (rOps f.p) (nparams f) s t = some j) : exF f true s (elT f t) = el f j := by
  rw [secAS_eq] at h
  obtain ⟨u, h1, h2⟩ := ropt_some' (deriveA_rel (rel f) (rparams f) s (t' := elT f t) ⟨rfl, rfl, rfl⟩) h
  rw [exF, if_pos rfl, h1]
  exact h2.symm

/-- bytes of a pair -/
def bytes1 (f : Fld) (x : N2) : List Byte := leBytes (fieldBytes f) (x.1 % f.p) ++ leBytes (fieldBytes f) (x.2 % f.p)

theorem enc1_el (f : Fld) (x : N2) : enc1 (el f x) = bytes1 f x := by
  rw [enc1, bytes1]
  simp only [el, ZMod.val_natCast]

theorem enc3_el (f : Fld) (t : Tri N2) : enc3 (elT f t) = bytes1 f t.p ++ bytes1 f t.q ++ bytes1 f t.r := by
  rw [enc3, elT]
  simp only [enc1_el]

/-! ### the run -/

theorem p_eq : Lemmas.SikeKat.p = Fld.p434.p := by decide +kernel

/-- the numbers of three pairs -/
def same3 (o : Option (Tri N2)) (t : Tri N2) : Bool := triList o == triList (some t)

theorem same3_eq {o : Option (Tri N2)} {t : Tri N2} (h : same3 o t = true) : o = some t := by
  have h := eq_of_beq h
  cases o with
  | none => cases h
  | some u =>
    obtain ⟨⟨a, b⟩, ⟨c, d⟩, ⟨e, g⟩⟩ := u
    obtain ⟨⟨a', b'⟩, ⟨c', d'⟩, ⟨e', g'⟩⟩ := t
    simp only [triList, List.cons.injEq] at h
    obtain ⟨rfl, rfl, rfl, rfl, rfl, rfl, _⟩ := h
    rfl

theorem run_pk : same3 (keyBS (rOps Lemmas.SikeKat.p) (nparams .p434) sk) pkN = true := by decide +kernel
theorem run_ct : same3 (keyAS (rOps Lemmas.SikeKat.p) (nparams .p434) r) ctN = true := by decide +kernel
theorem run_j : secAS (rOps Lemmas.SikeKat.p) (nparams .p434) r pkN = some jN := by decide +kernel

theorem pk_eq : enc3 (genF .p434 false sk) = pk := by
  have h := same3_eq run_pk
  rw [p_eq] at h
  rw [genB_of h, enc3_el]
  decide +kernel

theorem shake_eval (x : List Byte) (n : Nat) (h : n ≤ 136) : Keccak.shake256 x n =
    (laneBytes (absorbL 136 (Spec.Keccak.pad 136 0x1f x) ((Spec.Keccak.pad 136 0x1f x).length / 136))).take n := by
  have e : Keccak.shake256 x n = Spec.Keccak.spongeBytes Spec.Keccak.keccakF 136 0x1f x 0 n := rfl
  rw [e, sponge_eval (by simp [IsRate]) _ _ _ h]

set_option maxRecDepth 20000

theorem coins_eq : (sike .p434).coins m pk = r := by
  have e : ∀ x y, (sike .p434).coins x y = leBytes 28 (bval (Keccak.shake256 (x ++ y) 28) % 2 ^ 216) := fun _ _ => rfl
  rw [e, shake_eval _ _ (by decide)]
  decide +kernel

theorem gen_r : (sike .p434).gen r = ct.take 330 := by
  have h := same3_eq run_ct
  rw [p_eq] at h
  change publicBytes .p434 r = _
  rw [gen_eq .p434 r (by decide), genA_of h, enc3_el]
  decide +kernel

theorem mask_eq : Keccak.shake256 (bytes1 .p434 jN) 16 = Spec.Sike.xor m (ct.drop 330) := by
  rw [shake_eval _ _ (by decide)]
  decide +kernel

/-- the ciphertext of the test vector -/
theorem ct_eq : ((sike .p434).encaps m pk).1 = ct := by
  rw [Scheme.encaps, coins_eq, Scheme.enc, gen_r]
  have h := run_j
  rw [p_eq] at h
  have e : (sike .p434).exA r pk = bytes1 .p434 jN := by
    have hp := same3_eq run_pk
    rw [p_eq] at hp
    rw [← pk_eq, genB_of hp, exA_eq (by decide), exA_of h, enc1_el]
  rw [e]
  change ct.take 330 ++ Spec.Sike.xor m (Keccak.shake256 (bytes1 .p434 jN) 16) = ct
  rw [mask_eq]
  decide +kernel

/-- the secret of the test vector -/
theorem ss_eq : Keccak.shake256 (m ++ ct) 16 = ss := by
  rw [shake_eval _ _ (by decide)]
  decide +kernel

theorem ss_ne : Keccak.shake256 (m ++ (ct ++ [0])) 16 ≠ ss := by
  rw [shake_eval _ _ (by decide)]
  decide +kernel

/-- a key of the test vector -/
def prv : PrivateKey := ⟨params434, variantSike, sk, S⟩

theorem prv_ok : PrivOf .p434 variantSike prv := ⟨rfl, rfl, rfl, rfl⟩

/-- C55 is false of the code: with the key and the random bytes of the first test vector, `Encapsulate` returns its
ciphertext and its secret when the buffer has `CiphertextSize` bytes, and `Decapsulate` the same secret.  When the buffer has
one byte more, the ciphertext is the same and the secret is another one. -/
theorem c55_oversize_false : ∃ (k0 : PrivateKey) (pub0 pub : PublicKey) (c : KEM),
    newPrivateKey fp434 variantSike = some k0 ∧ k0.importKey (S ++ sk) = some (prv, true) ∧
    newPublicKey fp434 variantSike = some pub0 ∧ prv.generatePublicKey pub0 = some pub ∧ pub.exportKey (List.replicate 330 0) = some pk ∧
    allocate fp434 m = some c ∧ c.ciphertextSize = 346 ∧
    (∃ c', c.encapsulate platGeneric (List.replicate 346 0) (List.replicate 16 0) pub = some (c', ct, ss, true)) ∧
    (∃ c', c.decapsulate platGeneric (List.replicate 16 0) prv pub ct = some (c', ss, true)) ∧
    ∃ c' s, c.encapsulate platGeneric (List.replicate 347 0) (List.replicate 16 0) pub = some (c', ct ++ [0], s, true) ∧ s ≠ ss := by
  obtain ⟨c, h1, h2, h3⟩ := kem_new .p434 m
  obtain ⟨pub, g1, g2⟩ := gen_spec prv_ok ⟨paramsOf .p434, variantSike, ⟨zeroFp2 Fld.p434.words, zeroFp2 Fld.p434.words, zeroFp2 Fld.p434.words⟩⟩ rfl rfl
  have g2 : Pub .p434 variantSike pub (genF .p434 false sk) := g2
  have hm : c.rng.take (msgLen .p434) = m := by rw [h3]; rfl
  obtain ⟨c1, _, _, a1⟩ := (encaps_spec .generic h2 g2 (List.replicate 346 0) (List.replicate 16 0) (by decide) (by decide)).1 (by rw [h3]; decide)
  obtain ⟨c2, _, _, a2⟩ := (encaps_spec .generic h2 g2 (List.replicate 347 0) (List.replicate 16 0) (by decide) (by decide)).1 (by rw [h3]; decide)
  simp only at a1 a2
  rw [hm, pk_eq, ct_eq] at a1 a2
  have d1 : (List.replicate 346 (0 : Byte)).drop (ctLen .p434) = [] := by decide
  have d2 : (List.replicate 347 (0 : Byte)).drop (ctLen .p434) = [0] := by decide
  have d3 : (List.replicate 16 (0 : Byte)).drop (msgLen .p434) = [] := by decide
  rw [d1, List.append_nil, d3, List.append_nil, show msgLen .p434 = 16 from rfl, ss_eq] at a1
  rw [d2, d3, List.append_nil, show msgLen .p434 = 16 from rfl] at a2
  obtain ⟨pub', X, Y, Z, b1, b2, b3⟩ := c53_correct .generic .p434 prv prv_ok
    ⟨paramsOf .p434, variantSike, ⟨zeroFp2 Fld.p434.words, zeroFp2 Fld.p434.words, zeroFp2 Fld.p434.words⟩⟩ rfl rfl
  rw [g1, Option.some.injEq] at b1
  subst b1
  obtain ⟨c1', c2', ct', s', s2, e1, _, e2, e3, _⟩ := b3 pub pub b2 b2 c c h2 h2 (by rw [h3]; decide) (List.replicate 346 0) (List.replicate 16 0)
    (List.replicate 16 0) (by decide) (by decide) (by decide)
  rw [a1, Option.some.injEq] at e1
  obtain ⟨rfl, rfl, rfl, _⟩ := Prod.mk.injEq .. ▸ e1
  refine ⟨_, _, pub, c, rfl, rfl, newPublicKey_eq .p434 _, g1, ?_, h1, ?_, ⟨c1, a1⟩, ⟨c2', ?_⟩, c2, _, a2, ss_ne⟩
  · rw [export_long g2 _ (by decide), pk_eq]; rfl
  · rw [KEM.ciphertextSize, h2.params]; rfl
  · obtain ⟨c3, _, _, f1⟩ := decaps_spec .generic h2 prv_ok g2 ct (List.replicate 16 0) (by decide) (by decide)
    have hl : s2.length = 16 := by
      rw [e2, Option.some.injEq, Prod.mk.injEq, Prod.mk.injEq] at f1
      rw [f1.2.1, d3, List.append_nil, decaps_eq]
      exact H_length _ _
    have e3 : s2.take 16 = ss.take 16 := e3
    rw [List.take_of_length_le (by omega), List.take_of_length_le (by decide)] at e3
    rw [← e3]; exact e2

end Props.SikeRun
