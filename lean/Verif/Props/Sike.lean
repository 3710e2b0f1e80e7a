import Verif.Lemmas.Sike
/-!
C53–C57: SIKE.  The model is `Verif/Model/Sike.lean`, the specification `Verif/Spec/Sike.lean` instantiated by `sike`
below with SHAKE256 of FIPS 202 and the SIDH key operations.
-/
namespace Props.Sike
open Model Model.Sidh Model.Sha3 Model.Sike Spec Spec.Sidh Spec.Sike Spec.Sha3 Lemmas.Sha3 Lemmas.Sike Lemmas.SidhBytes Lemmas.SidhGood Lemmas.SidhNat
open Props.SidhFp2 Props.SidhKeys Props.SidhCurve

/-! ### the scheme -/

/-- An ephemeral key with scalar r, and a static key with scalar sk. -/
def ephemeral (f : Fld) (r : List Byte) : PrivateKey := ⟨paramsOf f, variantA, r, []⟩
def static (f : Fld) (sk : List Byte) : PrivateKey := ⟨paramsOf f, variantSike, sk, List.replicate (paramsOf f).msgLen 0⟩

/-- Bytes of the public key of an ephemeral key. -/
def publicBytes (f : Fld) (r : List Byte) : List Byte :=
  ((newPublicKey (idOf f) variantA).bind fun k => ((ephemeral f r).generatePublicKey k).bind fun k =>
    k.exportKey (List.replicate (6 * fieldBytes f) 0)).getD []

/-- The secret derived with key k from a public key (of variant v) sent as bytes. -/
def exchange (f : Fld) (v : W64) (k : PrivateKey) (pub : List Byte) : List Byte :=
  ((newPublicKey (idOf f) v).bind fun p => (p.importKey pub).bind fun (p, _) => k.deriveSecret (List.replicate (2 * fieldBytes f) 0) p).getD []

def msgLen : Fld → Nat
  | .p434 => 16
  | .p503 => 24
  | .p751 => 32
def scalarLen : Fld → Nat
  | .p434 => 28
  | .p503 => 32
  | .p751 => 47
def scalarBits : Fld → Nat
  | .p434 => 216
  | .p503 => 250
  | .p751 => 372

/-- SIKE over field f. -/
def sike (f : Fld) : Scheme where
  hash := Keccak.shake256
  msgLen := msgLen f
  keyLen := msgLen f
  scalarLen := scalarLen f
  scalarBits := scalarBits f
  pkLen := 6 * fieldBytes f
  gen := publicBytes f
  exA := fun r => exchange f variantSike (ephemeral f r)
  exB := fun sk => exchange f variantA (static f sk)

/-- Length of a ciphertext. -/
def ctLen (f : Fld) : Nat := 6 * fieldBytes f + msgLen f

/-- A KEM object allocated for field f, in whatever state earlier calls have left it. -/
structure KemOf (f : Fld) (c : KEM) : Prop where
  allocated : c.allocated = true
  params : c.params = paramsOf f
  msg : c.msg.length = msgLen f
  secretBytes : c.secretBytes.length = scalarLen f
  shake : SameParams newShake256 c.shake

theorem kemParams (f : Fld) : (paramsOf f).msgLen = msgLen f ∧ (paramsOf f).kemSize = msgLen f ∧ (paramsOf f).ciphertextSize = ctLen f ∧
    (paramsOf f).A.secretByteLen = scalarLen f ∧ (paramsOf f).A.secretBitLen = scalarBits f ∧ BitVec.ofNat 8 (paramsOf f).id = idOf f ∧
    msgLen f ≤ maxMsgBsz ∧ scalarLen f ≤ maxSidhPrivateKeyBsz ∧ 2 * fieldBytes f ≤ maxSharedSecretBsz ∧
    8 * (scalarLen f - 1) ≤ scalarBits f ∧ scalarBits f < 8 * scalarLen f := by
  cases f <;> refine ⟨rfl, rfl, rfl, rfl, rfl, rfl, ?_⟩ <;> decide

/-- `Allocate` (hence `NewSike434` and so on) gives such an object. -/
theorem kem_new (f : Fld) (rng : List Byte) : ∃ c, allocate (idOf f) rng = some c ∧ KemOf f c ∧ c.rng = rng := by
  obtain ⟨k1, k2, k3, k4, k5, k6, k7, k8, k9, k10, k11⟩ := kemParams f
  refine ⟨⟨true, rng, List.replicate (paramsOf f).msgLen 0, List.replicate (paramsOf f).A.secretByteLen 0, paramsOf f, newShake256⟩, ?_,
    ⟨rfl, rfl, ?_, ?_, rfl, rfl, rfl⟩, rfl⟩
  · rw [allocate, (c33_std 0).2.1]; rfl
  · simp [k1]
  · simp [k4]

example (rng : List Byte) : newSike434 rng = allocate (idOf .p434) rng ∧ newSike503 rng = allocate (idOf .p503) rng ∧
    newSike751 rng = allocate (idOf .p751) rng := ⟨rfl, rfl, rfl⟩

theorem privA (f : Fld) (r : List Byte) (hr : r.length = scalarLen f) : PrivOf f variantA (ephemeral f r) := by
  obtain ⟨k1, k2, k3, k4, k5, k6, k7, k8, k9, k10, k11⟩ := kemParams f
  refine ⟨rfl, rfl, ?_, rfl⟩
  rw [if_pos (by decide), k4]; exact hr

theorem privB (f : Fld) (sk : List Byte) (h : sk.length = (paramsOf f).B.secretByteLen) : PrivOf f variantSike (static f sk) := by
  refine ⟨rfl, rfl, ?_, ?_⟩
  · rw [if_neg (by decide)]; exact h
  · rw [if_pos (show variantSike = 6 from rfl)]; simp [static]

theorem gen_eq (f : Fld) (r : List Byte) (hr : r.length = scalarLen f) : publicBytes f r = enc3 (genF f true r) := by
  obtain ⟨k, h1, h2⟩ := gen_spec (privA f r hr) ⟨paramsOf f, variantA, ⟨zeroFp2 f.words, zeroFp2 f.words, zeroFp2 f.words⟩⟩ rfl rfl
  rw [publicBytes, newPublicKey_eq, Option.bind_some, h1, Option.bind_some, export_long h2 _ (by simp)]
  simp only [Option.getD_some, List.drop_replicate, Nat.sub_self, List.replicate_zero, List.append_nil]
  rfl

theorem isElt_unique {f : Fld} {x : Fp2} {a b : Fq f} (ha : IsElt f x a) (hb : IsElt f x b) : a = b := by
  have nz : NeZero f.p := ⟨by have := p_gt f; omega⟩
  obtain ⟨h1, h2⟩ := c45_from f x a ha
  obtain ⟨h3, h4⟩ := c45_from f x b hb
  exact QuadraticAlgebra.ext (ZMod.val_injective _ (h1.symm.trans h3)) (ZMod.val_injective _ (h2.symm.trans h4))

theorem dec_enc {f : Fld} (t : Tri (Fq f)) : dec3 f (enc3 t) = t := by
  have hex : ∃ k, Pub f variantA k t := by
    obtain ⟨x, hx⟩ := c43_total f t.p
    obtain ⟨y, hy⟩ := c43_total f t.q
    obtain ⟨z, hz⟩ := c43_total f t.r
    exact ⟨⟨paramsOf f, variantA, ⟨x, y, z⟩⟩, rfl, rfl, hx, hy, hz⟩
  obtain ⟨k, hk⟩ := hex
  obtain ⟨b, k0, k', e1, e2, e3, e4⟩ := c35_roundtrip f variantA k _ _ _ hk (List.replicate (6 * fieldBytes f) 0) (by simp)
  rw [export_long hk _ (by simp)] at e1
  simp only [List.drop_replicate, Nat.sub_self, List.replicate_zero, List.append_nil, Option.some.injEq] at e1
  obtain ⟨k1, k2, g1, g2, g3⟩ := import_new (f := f) variantA (enc3 t) (enc3_length t)
  rw [e2, Option.some.injEq] at g1
  subst g1
  rw [e1, e3, Option.some.injEq, Prod.mk.injEq] at g2
  obtain ⟨rfl, _⟩ := g2
  have e := isElt_unique g3.p e4.p
  have e' := isElt_unique g3.q e4.q
  have e'' := isElt_unique g3.r e4.r
  generalize dec3 f (enc3 t) = u at *
  cases t; cases u
  simp_all only

theorem exchange_eq {f : Fld} {v w : W64} {k : PrivateKey} (hk : PrivOf f v k) (hvw : w ≠ v) (b : List Byte) (hb : b.length = 6 * fieldBytes f) :
    exchange f w k b = enc1 (exF f (v.getLsbD 0) k.scalar (dec3 f b)) := by
  obtain ⟨k0, k', h1, h2, h3⟩ := import_new (f := f) w b hb
  rw [exchange, h1, Option.bind_some, h2, Option.bind_some]
  simp only
  rw [derive_spec hk h3 hvw _ (by simp)]
  simp

theorem exA_eq {f : Fld} {r : List Byte} (hr : r.length = scalarLen f) (t : Tri (Fq f)) : (sike f).exA r (enc3 t) = enc1 (exF f true r t) := by
  change exchange f variantSike (ephemeral f r) _ = _
  rw [exchange_eq (privA f r hr) (by decide) _ (enc3_length t), dec_enc]; rfl

theorem exB_eq {f : Fld} {sk : List Byte} (hs : sk.length = (paramsOf f).B.secretByteLen) (b : List Byte) (hb : b.length = 6 * fieldBytes f) :
    (sike f).exB sk b = enc1 (exF f false sk (dec3 f b)) := by
  change exchange f variantA (static f sk) _ = _
  rw [exchange_eq (privB f sk hs) (by decide) _ hb]; rfl

theorem coins_length (f : Fld) (m pk : List Byte) : ((sike f).coins m pk).length = scalarLen f := by
  rw [Scheme.coins, leBytes_length]; rfl

theorem xor_comm (x y : List Byte) : List.zipWith (· ^^^ ·) x y = Spec.Sike.xor y x := by
  rw [Spec.Sike.xor]; exact List.zipWith_comm_of_comm (fun a b => BitVec.xor_comm a b)

theorem xor_length (x y : List Byte) : (Spec.Sike.xor x y).length = min x.length y.length := by simp [Spec.Sike.xor]

theorem xor_cancel (x y : List Byte) (h : x.length = y.length) : Spec.Sike.xor (Spec.Sike.xor x y) y = x := by
  unfold Spec.Sike.xor
  induction x generalizing y with
  | nil => simp
  | cons a x ih =>
    cases y with
    | nil => simp at h
    | cons b y => simp [ih y (by simpa using h), BitVec.xor_assoc]

variable {P : Plat}

/-- `generateCiphertext` appends the two parts of the ciphertext. -/
theorem generate_spec (hP : Supported P) {f : Fld} {c : KEM} (hc : KemOf f c) {r : List Byte} (hr : r.length = scalarLen f) {pkA pkB : PublicKey}
    (hA : Pub f variantA pkA (genF f true r)) {t : Tri (Fq f)} (hB : Pub f variantSike pkB t) (m ctext : List Byte) (hm : m.length = msgLen f)
    (hl : ctLen f ≤ ctext.length) :
    ∃ st, c.generateCiphertext P ctext (ephemeral f r) pkA pkB m = some ({c with shake := st}, (sike f).enc r (enc3 t) m ++ ctext.drop (ctLen f)) ∧
      SameParams newShake256 st := by
  obtain ⟨k1, k2, k3, k4, k5, k6, k7, k8, k9, k10, k11⟩ := kemParams f
  obtain ⟨s1, s2, s3, s4, s5, s6⟩ := sizes f
  have l1 : 6 * fieldBytes f + msgLen f ≤ ctext.length := hl
  obtain ⟨st, e1, e2⟩ := hash_spec hP hc.shake [enc1 (exF f true r t)] (List.replicate (msgLen f) 0)
  refine ⟨st, ?_, e2⟩
  have hpar : (ephemeral f r).params = paramsOf f := rfl
  rw [KEM.generateCiphertext]
  simp only [hpar, k1, s1]
  rw [derive_spec (privA f r hr) hB (by decide) _ (by simpa using k9)]
  simp only [Option.bind_eq_bind, Option.bind_some]
  rw [sliceTo, if_pos (by simp [enc1_length]), List.take_left' (enc1_length _)]
  simp only [Option.bind_some]
  rw [sliceTo, if_pos (by simpa using k7), List.take_replicate, Nat.min_eq_left k7]
  simp only [Option.bind_some]
  rw [show (variantA : W64).getLsbD 0 = true from rfl, show (ephemeral f r).scalar = r from rfl, e1]
  simp only [Option.bind_some]
  rw [xorInto_spec _ _ _ (by rw [H_length]; simp [hm])]
  simp only [Option.bind_some]
  rw [export_long hA _ (by omega)]
  simp only [Option.bind_some]
  have lz : (List.zipWith (· ^^^ ·) (H [enc1 (exF f true r t)].flatten (List.replicate (msgLen f) (0 : Byte)).length) m).length = msgLen f := by
    simp [H_length, hm]
  rw [sliceTo, if_pos (by simp only [List.length_append, lz]; omega), List.take_left' lz]
  simp only [Option.bind_some]
  rw [PublicKey.size, hA.params, s3, copyFrom, if_pos (by simp [enc3_length])]
  simp only [Option.bind_some, Option.some.injEq, Prod.mk.injEq, true_and]
  rw [List.take_left' (enc3_length _), List.drop_left' (enc3_length _), goCopy, lz, List.take_of_length_le (by rw [lz]; simp; omega), List.drop_drop,
    xor_comm, Scheme.enc, exA_eq hr, ← List.append_assoc]
  change _ = publicBytes f r ++ _ ++ _
  rw [gen_eq f r hr]
  simp only [List.flatten_cons, List.flatten_nil, List.append_nil, List.length_replicate]
  rfl

theorem enc_length (f : Fld) {r : List Byte} (hr : r.length = scalarLen f) (pk m : List Byte) (hm : m.length = msgLen f) : ((sike f).enc r pk m).length = ctLen f := by
  rw [Scheme.enc, List.length_append, xor_length]
  change (publicBytes f r).length + min m.length (H _ (msgLen f)).length = _
  rw [gen_eq f r hr, enc3_length, H_length, hm, Nat.min_self]; rfl

/-- What `Encapsulate` does, in every state of the object. -/
theorem encaps_spec (hP : Supported P) {f : Fld} {c : KEM} (hc : KemOf f c) {pub : PublicKey} {t : Tri (Fq f)} (hpub : Pub f variantSike pub t)
    (ciphertext secret : List Byte) (hl : ctLen f ≤ ciphertext.length) (hs : msgLen f ≤ secret.length) :
    (msgLen f ≤ c.rng.length → ∃ c', KemOf f c' ∧ c'.rng = c.rng.drop (msgLen f) ∧
      let m := c.rng.take (msgLen f)
      let ct := ((sike f).encaps m (enc3 t)).1 ++ ciphertext.drop (ctLen f)
      c.encapsulate P ciphertext secret pub = some (c', ct, Keccak.shake256 (m ++ ct) (msgLen f) ++ secret.drop (msgLen f), true)) ∧
    (c.rng.length < msgLen f → ∃ c', KemOf f c' ∧ c'.rng = [] ∧ c.encapsulate P ciphertext secret pub = some (c', ciphertext, secret, false)) := by
  obtain ⟨k1, k2, k3, k4, k5, k6, k7, k8, k9, k10, k11⟩ := kemParams f
  obtain ⟨s1, s2, s3, s4, s5, s6⟩ := sizes f
  obtain ⟨al, rng, msg, sb, pr, sh⟩ := c
  obtain ⟨h1, h2, hmsg, hsb, hsh⟩ := hc
  simp only at h1 h2 hmsg hsb hsh
  subst h1 h2
  have lc : ¬ ciphertext.length < (paramsOf f).ciphertextSize := by omega
  have ls : ¬ secret.length < (paramsOf f).kemSize := by omega
  have hv : ¬ (variantSike ≠ pub.variant) := by rw [hpub.variant]; simp
  have ht : ¬ (true = false) := by decide
  simp only [KEM.encapsulate, if_neg lc, if_neg ls, if_neg hv, if_neg ht, readFull, hmsg, Option.bind_eq_bind]
  constructor
  · intro hr
    have e0 : goCopy msg rng = rng.take (msgLen f) := by
      rw [goCopy, hmsg, List.drop_eq_nil_of_le (by rw [hmsg]; exact hr), List.append_nil]
    rw [if_neg (by simp [hr]), e0]
    generalize hm : rng.take (msgLen f) = m
    have lm : m.length = msgLen f := by rw [← hm, List.length_take]; omega
    simp only [k6, newPublicKey_eq, Option.bind_some]
    rw [export_long hpub _ (by simp; omega)]
    simp only [Option.bind_some]
    rw [sliceTo, if_pos (by simp [enc3_length]; omega), List.take_left' (by rw [enc3_length]; omega)]
    simp only [Option.bind_some]
    obtain ⟨st1, e1, p1⟩ := hash_spec hP (c := ⟨true, rng.drop (msgLen f), m, sb, paramsOf f, sh⟩) hsh [m, enc3 t] sb
    rw [e1]
    simp only [Option.bind_some]
    rw [maskLast_spec _ _ (by rw [H_length, hsb, k5]; exact k10) (by rw [H_length, hsb, k5]; exact k11)]
    simp only [Option.bind_some, H_length, hsb, k5]
    have hco : leBytes (scalarLen f) (bval (H [m, enc3 t].flatten (scalarLen f)) % 2 ^ scalarBits f) = (sike f).coins m (enc3 t) := by
      simp only [List.flatten_cons, List.flatten_nil, List.append_nil]; rfl
    rw [hco, Scheme.encaps]
    simp only
    have lr := coins_length f m (enc3 t)
    generalize (sike f).coins m (enc3 t) = r at *
    change ∃ c', _ ∧ _ ∧ (((ephemeral f r).generatePublicKey _).bind _) = _
    obtain ⟨pkA, e2, e3⟩ := gen_spec (privA f r lr) ⟨paramsOf f, variantA, ⟨zeroFp2 f.words, zeroFp2 f.words, zeroFp2 f.words⟩⟩ rfl rfl
    rw [e2]
    simp only [Option.bind_some]
    obtain ⟨st2, e4, p2⟩ := generate_spec hP (c := ⟨true, rng.drop (msgLen f), m, r, paramsOf f, st1⟩) ⟨rfl, rfl, lm, lr, p1⟩ lr e3 hpub m ciphertext lm hl
    change ∃ c', _ ∧ _ ∧ ((KEM.generateCiphertext P _ ciphertext (ephemeral f r) _ _ _).bind _) = _
    rw [e4]
    simp only [Option.bind_some]
    rw [sliceTo, if_pos (by omega)]
    simp only [Option.bind_some]
    obtain ⟨st3, e5, p3⟩ := hash_spec hP (c := ⟨true, rng.drop (msgLen f), m, r, paramsOf f, st2⟩) p2
      [m, (sike f).enc r (enc3 t) m ++ ciphertext.drop (ctLen f)] (secret.take (paramsOf f).kemSize)
    refine ⟨⟨true, rng.drop (msgLen f), m, r, paramsOf f, st3⟩, ⟨rfl, rfl, lm, lr, p3⟩, rfl, ?_⟩
    rw [e5]
    simp only [Option.bind_some, List.length_take, k2, Nat.min_eq_left hs, List.flatten_cons, List.flatten_nil, List.append_nil]
    rfl
  · intro hr
    rw [if_pos (by simpa using hr)]
    refine ⟨⟨true, rng.drop (msgLen f), goCopy msg rng, sb, paramsOf f, sh⟩, ⟨rfl, rfl, ?_, hsb, hsh⟩, ?_, rfl⟩
    · simp only [goCopy, List.length_append, List.length_take, List.length_drop, hmsg]; omega
    · simp only; rw [List.drop_eq_nil_of_le (by omega)]

/-- What `decrypt` does. -/
theorem decrypt_spec (hP : Supported P) {f : Fld} {c : KEM} (hc : KemOf f c) {prv : PrivateKey} (hprv : PrivOf f variantSike prv)
    (ciphertext : List Byte) (hl : ciphertext.length = ctLen f) :
    ∃ st, c.decrypt P (List.replicate maxMsgBsz 0) prv ciphertext =
        some ({c with shake := st}, (sike f).dec prv.scalar ciphertext ++ List.replicate (maxMsgBsz - msgLen f) 0, msgLen f, true) ∧
      SameParams newShake256 st ∧ ((sike f).dec prv.scalar ciphertext).length = msgLen f := by
  obtain ⟨k1, k2, k3, k4, k5, k6, k7, k8, k9, k10, k11⟩ := kemParams f
  obtain ⟨s1, s2, s3, s4, s5, s6⟩ := sizes f
  have lct : ciphertext.length = 6 * fieldBytes f + msgLen f := hl
  have q3 := hprv.scalar
  rw [if_neg (by decide)] at q3
  rw [KEM.decrypt]
  simp only [hprv.params, k6, newPublicKey_eq, Option.bind_some, s3, Option.bind_eq_bind]
  have lhd : (ciphertext.take (6 * fieldBytes f)).length = 6 * fieldBytes f := by simp; omega
  rw [sliceTo, if_pos (by omega)]
  simp only [Option.bind_some]
  obtain ⟨k0, k', i1, i2, i3⟩ := import_new (f := f) variantA (ciphertext.take (6 * fieldBytes f)) lhd
  rw [newPublicKey_eq, Option.some.injEq] at i1
  rw [i1, i2]
  simp only [Option.bind_some]
  rw [derive_spec hprv i3 (by decide) _ (by simpa using k9)]
  simp only [Option.bind_some]
  rw [show (variantSike : W64).getLsbD 0 = false from rfl, sliceTo, s1, if_pos (by simp [enc1_length]), List.take_left' (enc1_length _)]
  simp only [Option.bind_some]
  have lc1 : ciphertext.length - 6 * fieldBytes f = msgLen f := by omega
  rw [lc1, sliceTo, if_pos (by simpa using k7), List.take_replicate, Nat.min_eq_left k7]
  simp only [Option.bind_some]
  obtain ⟨st1, e1, p1⟩ := hash_spec hP (c := c) hc.shake [enc1 (exF f false prv.scalar (dec3 f (ciphertext.take (6 * fieldBytes f))))]
    (List.replicate (msgLen f) 0)
  rw [e1]
  simp only [Option.bind_some]
  rw [xorInto_spec _ _ _ (by rw [H_length]; simp; omega)]
  simp only [Option.bind_some]
  rw [← exB_eq q3 _ lhd, xor_comm]
  have hdec : Spec.Sike.xor (ciphertext.drop (6 * fieldBytes f)) (H [(sike f).exB prv.scalar (ciphertext.take (6 * fieldBytes f))].flatten
      (List.replicate (msgLen f) (0 : Byte)).length) = (sike f).dec prv.scalar ciphertext := by
    simp only [List.flatten_cons, List.flatten_nil, List.append_nil, List.length_replicate]; rfl
  rw [hdec, List.drop_replicate]
  refine ⟨st1, rfl, p1, ?_⟩
  rw [← hdec, xor_length, H_length]; simp; omega

theorem decaps_eq (f : Fld) (sk S pk ct : List Byte) : (sike f).decaps sk S pk ct =
    Keccak.shake256 ((if publicBytes f ((sike f).coins ((sike f).dec sk ct) pk) = ct.take (6 * fieldBytes f) then (sike f).dec sk ct else S) ++ ct) (msgLen f) := by
  rw [Scheme.decaps]
  by_cases h : (sike f).Accepts sk pk ct
  · rw [if_pos h, if_pos (show publicBytes f ((sike f).coins ((sike f).dec sk ct) pk) = ct.take (6 * fieldBytes f) from h)]; rfl
  · rw [if_neg h, if_neg (show ¬ publicBytes f ((sike f).coins ((sike f).dec sk ct) pk) = ct.take (6 * fieldBytes f) from h)]; rfl

theorem sb1 {α β : Type} (a : α) (g : α → Option β) : (some a >>= g) = g a := rfl

/-- What `Decapsulate` does, in every state of the object. -/
theorem decaps_spec (hP : Supported P) {f : Fld} {c : KEM} (hc : KemOf f c) {prv : PrivateKey} (hprv : PrivOf f variantSike prv) {pub : PublicKey}
    {t : Tri (Fq f)} (hpub : Pub f variantSike pub t) (ciphertext secret : List Byte) (hl : ciphertext.length = ctLen f) (hs : msgLen f ≤ secret.length) :
    ∃ c', KemOf f c' ∧ c'.rng = c.rng ∧
      c.decapsulate P secret prv pub ciphertext = some (c', (sike f).decaps prv.scalar prv.S (enc3 t) ciphertext ++ secret.drop (msgLen f), true) := by
  obtain ⟨k1, k2, k3, k4, k5, k6, k7, k8, k9, k10, k11⟩ := kemParams f
  obtain ⟨s1, s2, s3, s4, s5, s6⟩ := sizes f
  obtain ⟨al, rng, msg, sb, pr, sh⟩ := c
  obtain ⟨h1, h2, hmsg, hsb, hsh⟩ := hc
  simp only at h1 h2 hmsg hsb hsh
  subst h1 h2
  obtain ⟨pp, pv, sk, S⟩ := prv
  have hprv' := hprv
  obtain ⟨q1, q2, q3, q4⟩ := hprv
  simp only at q1 q2 q3 q4
  subst q1 q2
  rw [if_neg (by decide)] at q3
  rw [if_pos (show variantSike = 6 from rfl), k1] at q4
  have lct : ciphertext.length = 6 * fieldBytes f + msgLen f := hl
  have lc : ¬ ciphertext.length ≠ (paramsOf f).ciphertextSize := by omega
  have ls : ¬ secret.length < (paramsOf f).kemSize := by omega
  have hv : ¬ (variantSike ≠ pub.variant) := by rw [hpub.variant]; simp
  have hv' : ¬ (pub.variant ≠ variantSike) := by rw [hpub.variant]; simp
  have ht : ¬ (true = false) := by decide
  rw [KEM.decapsulate]
  rw [if_neg ht, if_neg hv, if_neg hv', if_neg ls, if_neg lc]
  dsimp only
  rw [k6, newPublicKey_eq]
  simp only [sb1]
  obtain ⟨st1, e1, p1, lm⟩ := decrypt_spec hP (c := ⟨true, rng, msg, sb, paramsOf f, sh⟩) ⟨rfl, rfl, hmsg, hsb, hsh⟩ hprv' ciphertext hl
  rw [e1]
  simp only [sb1, if_neg ht]
  rw [export_long hpub _ (by simp; omega)]
  simp only [sb1]
  rw [decaps_eq]
  obtain ⟨m, hm⟩ : ∃ m, (sike f).dec sk ciphertext = m := ⟨_, rfl⟩
  rw [hm] at lm ⊢
  rw [sliceTo, if_pos (by simp; omega), List.take_left' lm]
  simp only [sb1]
  rw [sliceTo, if_pos (by simp [enc3_length]; omega), List.take_left' (by rw [enc3_length]; omega)]
  simp only [sb1]
  rw [sliceTo, if_pos (by rw [k4]; simpa using k8), List.take_replicate, k4, Nat.min_eq_left k8]
  simp only [sb1]
  obtain ⟨st2, e2, p2⟩ := hash_spec hP (c := ⟨true, rng, msg, sb, paramsOf f, st1⟩) p1 [m, enc3 t] (List.replicate (scalarLen f) 0)
  rw [e2]
  simp only [sb1]
  rw [maskLast_spec _ _ (by rw [H_length, k5, List.length_replicate]; exact k10) (by rw [H_length, k5, List.length_replicate]; exact k11)]
  simp only [sb1, H_length, List.length_replicate, k5]
  have hco : leBytes (scalarLen f) (bval (H [m, enc3 t].flatten (scalarLen f)) % 2 ^ scalarBits f) = (sike f).coins m (enc3 t) := by
    simp only [List.flatten_cons, List.flatten_nil, List.append_nil]; rfl
  rw [hco]
  have lr := coins_length f m (enc3 t)
  obtain ⟨r, hr⟩ : ∃ r, (sike f).coins m (enc3 t) = r := ⟨_, rfl⟩
  rw [hr] at lr ⊢
  have himp : (PrivateKey.mk (paramsOf f) variantA sb []).importKey r = some (ephemeral f r, true) := by
    rw [PrivateKey.importKey, if_neg (by
      rw [PrivateKey.size, if_neg (show ¬ (variantA = variantSike) by decide)]; simp [lr, hsb]), sliceTo, if_pos (by simp), sliceFrom, if_pos (by simp)]
    simp only [sb1, List.length_nil, List.take_zero, List.drop_zero]
    rw [goCopy_full _ _ (by rw [lr]; exact hsb.symm)]
    rfl
  rw [himp]
  simp only [sb1, if_neg ht]
  obtain ⟨pkA, e3, e4⟩ := gen_spec (privA f r lr) ⟨paramsOf f, variantA, ⟨zeroFp2 f.words, zeroFp2 f.words, zeroFp2 f.words⟩⟩ rfl rfl
  rw [e3]
  simp only [sb1]
  rw [export_long e4 _ (by simp [enc3_length])]
  simp only [sb1]
  rw [sliceTo, s3, if_pos (by simp [enc3_length]), List.take_left' (enc3_length _)]
  simp only [sb1]
  rw [sliceTo, hpub.params, s3, if_pos (by omega)]
  simp only [sb1]
  have hpick : cpick (constantTimeCompare (enc3 (genF f ((variantA : W64).getLsbD 0) (ephemeral f r).scalar)) (ciphertext.take (6 * fieldBytes f)))
      (msgLen f) m S = some (if publicBytes f r = ciphertext.take (6 * fieldBytes f) then m else S) := by
    change cpick (constantTimeCompare (enc3 (genF f true r)) _) _ _ _ = some (if publicBytes f r = ciphertext.take (6 * fieldBytes f) then _ else _)
    rw [gen_eq f r lr, constantTimeCompare, ← lm]
    obtain ⟨g1, g2⟩ := c32_cpick m S (by omega)
    split
    · exact g1
    · exact g2
  rw [hpick]
  simp only [sb1]
  rw [sliceTo, if_pos (by omega)]
  simp only [sb1]
  obtain ⟨st3, e5, p3⟩ := hash_spec hP (c := ⟨true, rng, msg, r, paramsOf f, st2⟩) p2
    [if publicBytes f r = ciphertext.take (6 * fieldBytes f) then m else S, ciphertext] (secret.take (paramsOf f).kemSize)
  refine ⟨⟨true, rng, msg, r, paramsOf f, st3⟩, ⟨rfl, rfl, hmsg, lr, p3⟩, rfl, ?_⟩
  change (KEM.hash P _ _ _) >>= _ = _
  rw [show (ephemeral f r).scalar = r from rfl, e5]
  simp only [sb1, List.length_take, k2, Nat.min_eq_left hs, List.flatten_cons, List.flatten_nil, List.append_nil]
  rfl

/-- The bytes of a public key object. -/
def bytesOf (f : Fld) (pub : PublicKey) : List Byte := (pub.exportKey (List.replicate (6 * fieldBytes f) 0)).getD []

theorem bytesOf_eq {f : Fld} {v : W64} {pub : PublicKey} {t : Tri (Fq f)} (h : Pub f v pub t) : bytesOf f pub = enc3 t := by
  rw [bytesOf, export_long h _ (by simp)]; simp

/-- `bytesOf` is what `Export` writes into a buffer of the right length. -/
theorem bytesOf_export {f : Fld} {v : W64} {pub : PublicKey} {A B C : Fq f} (h : PubOf f v pub A B C) (out : List Byte) (ho : out.length = 6 * fieldBytes f) :
    pub.exportKey out = some (bytesOf f pub) := by
  have h : Pub f v pub ⟨A, B, C⟩ := h
  rw [bytesOf_eq h, export_long h _ (by omega), List.drop_eq_nil_of_le (by omega), List.append_nil]

/-! ### C53 -/

/-- Decryption undoes encryption, for the keys of the code. -/
theorem dec_enc_scheme (f : Fld) (sk r m : List Byte) (hsk : sk.length = (paramsOf f).B.secretByteLen) (hr : r.length = scalarLen f) (hm : m.length = msgLen f) :
    (sike f).dec sk ((sike f).enc r (enc3 (genF f false sk)) m) = m := by
  have l1 : ((sike f).gen r).length = 6 * fieldBytes f := by
    change (publicBytes f r).length = _; rw [gen_eq f r hr, enc3_length]
  have e1 : (((sike f).enc r (enc3 (genF f false sk)) m)).take (sike f).pkLen = (sike f).gen r := List.take_left' l1
  have e2 : (((sike f).enc r (enc3 (genF f false sk)) m)).drop (sike f).pkLen =
    Spec.Sike.xor m ((sike f).hash ((sike f).exA r (enc3 (genF f false sk))) (sike f).msgLen) := List.drop_left' l1
  rw [Scheme.dec, e1, e2, exB_eq hsk _ l1, exA_eq hr]
  have e3 : dec3 f ((sike f).gen r) = genF f true r := by
    change dec3 f (publicBytes f r) = _; rw [gen_eq f r hr, dec_enc]
  obtain ⟨k1, k2, k3, k4, k5, k6, k7, k8, k9, k10, k11⟩ := kemParams f
  rw [e3, ← agree_F f r sk (by rw [k5]; omega) (by rw [hsk]; exact (bits f).2)]
  apply xor_cancel
  rw [hm]
  exact (H_length _ _).symm

/-- C53. For every private key, every KEM objects on both sides (in whatever state) and all random bytes: decapsulating
what `Encapsulate` made for the public key gives the secret `Encapsulate` returned.  The public key objects of the two
sides may be any that hold the generated key (for instance imported ones). -/
theorem c53_correct (hP : Supported P) (f : Fld) (prv : PrivateKey) (hprv : PrivOf f variantSike prv) (pub0 : PublicKey)
    (hp0 : pub0.params = paramsOf f) (hv0 : pub0.variant = variantSike) :
    ∃ pub X Y Z, prv.generatePublicKey pub0 = some pub ∧ PubOf f variantSike pub X Y Z ∧
      ∀ pub1 pub2, PubOf f variantSike pub1 X Y Z → PubOf f variantSike pub2 X Y Z → ∀ c1 c2, KemOf f c1 → KemOf f c2 → msgLen f ≤ c1.rng.length →
      ∀ ciphertext secret secret2 : List Byte, ciphertext.length = ctLen f → msgLen f ≤ secret.length → msgLen f ≤ secret2.length →
      ∃ c1' c2' ct s s2, c1.encapsulate P ciphertext secret pub1 = some (c1', ct, s, true) ∧ ct.length = ctLen f ∧
        c2.decapsulate P secret2 prv pub2 ct = some (c2', s2, true) ∧ s2.take (msgLen f) = s.take (msgLen f) ∧ KemOf f c1' ∧ KemOf f c2' := by
  obtain ⟨pub, h1, h2⟩ := gen_spec hprv pub0 hp0 hv0
  have hsk := hprv.scalar
  rw [if_neg (by decide)] at hsk
  refine ⟨pub, _, _, _, h1, h2, ?_⟩
  rw [show (variantSike : W64).getLsbD 0 = false from rfl]
  intro pub1 pub2 hp1 hp2 c1 c2 hc1 hc2 hrng ciphertext secret secret2 hl hs hs2
  have hp1 : Pub f variantSike pub1 (genF f false prv.scalar) := hp1
  have hp2 : Pub f variantSike pub2 (genF f false prv.scalar) := hp2
  obtain ⟨c1', g1, g2, g3⟩ := (encaps_spec hP hc1 hp1 ciphertext secret (by omega) hs).1 hrng
  simp only [List.drop_eq_nil_of_le (as := ciphertext) (i := ctLen f) (by omega), List.append_nil] at g3
  have lm : (c1.rng.take (msgLen f)).length = msgLen f := by simp; omega
  generalize c1.rng.take (msgLen f) = m at *
  have lr := coins_length f m (enc3 (genF f false prv.scalar))
  have lct : ((sike f).encaps m (enc3 (genF f false prv.scalar))).1.length = ctLen f := enc_length f lr _ _ lm
  obtain ⟨c2', g4, g5, g6⟩ := decaps_spec hP hc2 hprv hp2 _ secret2 lct hs2
  refine ⟨c1', c2', _, _, _, g3, lct, g6, ?_, g1, g4⟩
  have hd : (sike f).dec prv.scalar ((sike f).encaps m (enc3 (genF f false prv.scalar))).1 = m := dec_enc_scheme f prv.scalar _ m hsk lr lm
  have ha : (sike f).Accepts prv.scalar (enc3 (genF f false prv.scalar)) ((sike f).encaps m (enc3 (genF f false prv.scalar))).1 := by
    rw [Scheme.Accepts, hd, Scheme.encaps, Scheme.enc]
    have l1 : ((sike f).gen ((sike f).coins m (enc3 (genF f false prv.scalar)))).length = (sike f).pkLen := by
      change (publicBytes f _).length = _; rw [gen_eq f _ lr, enc3_length]; rfl
    exact (List.take_left' l1).symm
  rw [Scheme.decaps, if_pos ha, hd]
  exact (List.take_left' (H_length _ _)).trans (List.take_left' (H_length _ _)).symm

/-- C53. `Encapsulate` is encapsulation of the specification for the message drawn from the random source. -/
theorem c53_encapsulate (hP : Supported P) (f : Fld) (c : KEM) (hc : KemOf f c) (pub : PublicKey) (X Y Z : Fq f) (hpub : PubOf f variantSike pub X Y Z)
    (ciphertext secret : List Byte) (hl : ciphertext.length = ctLen f) (hs : msgLen f ≤ secret.length) (hr : msgLen f ≤ c.rng.length) :
    ∃ c', KemOf f c' ∧ c'.rng = c.rng.drop (msgLen f) ∧ c.encapsulate P ciphertext secret pub =
      some (c', ((sike f).encaps (c.rng.take (msgLen f)) (bytesOf f pub)).1,
        ((sike f).encaps (c.rng.take (msgLen f)) (bytesOf f pub)).2 ++ secret.drop (msgLen f), true) := by
  have hpub : Pub f variantSike pub ⟨X, Y, Z⟩ := hpub
  obtain ⟨c', h1, h2, h3⟩ := (encaps_spec hP hc hpub ciphertext secret (by omega) hs).1 hr
  refine ⟨c', h1, h2, ?_⟩
  rw [h3, bytesOf_eq hpub, List.drop_eq_nil_of_le (as := ciphertext) (by omega), List.append_nil]
  rfl

/-- Non-vacuity of C53: a generated key, and a new KEM object with enough random bytes. -/
example (f : Fld) (rng rng' : List Byte) (h : seedLen f 6 + byteLen f 6 ≤ rng.length) (h' : msgLen f ≤ rng'.length) :
    ∃ k0 k rest c, newPrivateKey (idOf f) variantSike = some k0 ∧ k0.generate rng = some (k, rest, true) ∧ PrivOf f variantSike k ∧
      allocate (idOf f) rng' = some c ∧ KemOf f c ∧ msgLen f ≤ c.rng.length := by
  obtain ⟨k0, h1, h2⟩ := c34_new f variantSike
  obtain ⟨k, h3, h4, _⟩ := c37_function f variantSike k0 h2 rng h
  obtain ⟨c, h5, h6, h7⟩ := kem_new f rng'
  exact ⟨k0, k, _, c, h1, h3, h4, h5, h6, by rw [h7]; exact h'⟩

/-! ### C54 -/

/-- C54. `Decapsulate` is decapsulation of the specification, for every ciphertext of the right length: it never fails,
and when re-encryption does not reproduce the ciphertext it returns the hash of S and the ciphertext. -/
theorem c54_decapsulate (hP : Supported P) (f : Fld) (c : KEM) (hc : KemOf f c) (prv : PrivateKey) (hprv : PrivOf f variantSike prv) (pub : PublicKey)
    (X Y Z : Fq f) (hpub : PubOf f variantSike pub X Y Z) (ciphertext secret : List Byte) (hl : ciphertext.length = ctLen f) (hs : msgLen f ≤ secret.length) :
    ∃ c', KemOf f c' ∧ c'.rng = c.rng ∧ c.decapsulate P secret prv pub ciphertext =
      some (c', (sike f).decaps prv.scalar prv.S (bytesOf f pub) ciphertext ++ secret.drop (msgLen f), true) := by
  have hpub : Pub f variantSike pub ⟨X, Y, Z⟩ := hpub
  rw [bytesOf_eq hpub]
  exact decaps_spec hP hc hprv hpub ciphertext secret hl hs

/-- C54, spelled out: the secret of a rejected and of an accepted ciphertext.  Acceptance does not mention S. -/
theorem c54_rejects (hP : Supported P) (f : Fld) (c : KEM) (hc : KemOf f c) (prv : PrivateKey) (hprv : PrivOf f variantSike prv) (pub : PublicKey)
    (X Y Z : Fq f) (hpub : PubOf f variantSike pub X Y Z) (ciphertext secret : List Byte) (hl : ciphertext.length = ctLen f) (hs : msgLen f ≤ secret.length) :
    ∃ c' s, c.decapsulate P secret prv pub ciphertext = some (c', s, true) ∧
      (¬ (sike f).Accepts prv.scalar (bytesOf f pub) ciphertext → s.take (msgLen f) = Keccak.shake256 (prv.S ++ ciphertext) (msgLen f)) ∧
      ((sike f).Accepts prv.scalar (bytesOf f pub) ciphertext →
        s.take (msgLen f) = Keccak.shake256 ((sike f).dec prv.scalar ciphertext ++ ciphertext) (msgLen f)) := by
  obtain ⟨c', _, _, h⟩ := c54_decapsulate hP f c hc prv hprv pub X Y Z hpub ciphertext secret hl hs
  refine ⟨c', _, h, ?_, ?_⟩
  · intro hn
    rw [Scheme.decaps, if_neg hn]
    exact List.take_left' (H_length _ _)
  · intro ha
    rw [Scheme.decaps, if_pos ha]
    exact List.take_left' (H_length _ _)

/-- Non-vacuity of C54: there are ciphertexts that are rejected: any whose first coordinate is 2^(8·bytes)−1, which is
not below p. -/
example (f : Fld) (sk pk ct : List Byte) (h : ct.take (6 * fieldBytes f) = List.replicate (6 * fieldBytes f) 0xff) : ¬ (sike f).Accepts sk pk ct := by
  intro ha
  have ha : publicBytes f ((sike f).coins ((sike f).dec sk ct) pk) = ct.take (6 * fieldBytes f) := ha
  rw [h, gen_eq f _ (coins_length f _ _), enc3, enc1] at ha
  have hb : 0 < fieldBytes f := by cases f <;> decide
  generalize genF f true _ = t at ha
  have e1 := congrArg (List.take (fieldBytes f)) ha
  rw [List.append_assoc, List.append_assoc, List.take_left' (leBytes_length _ _), List.take_replicate, Nat.min_eq_left (by omega)] at e1
  have nz : NeZero f.p := ⟨by have := p_gt f; omega⟩
  have hp := (sizes f).2.2.2.2.2
  have e2 := congrArg bval e1
  rw [bval_leBytes, Nat.mod_eq_of_lt (lt_trans (ZMod.val_lt _) hp)] at e2
  have e3 : bval (List.replicate (fieldBytes f) 0xff) + 1 = 256 ^ fieldBytes f := by cases f <;> decide +kernel
  have e4 := ZMod.val_lt t.p.re
  omega

/-! ### C55 -/

/-- C55. `Encapsulate` panics on an unallocated object, a key of another variant and short buffers. -/
theorem c55_encaps_panics (c : KEM) (ciphertext secret : List Byte) (pub : PublicKey)
    (h : c.allocated = false ∨ pub.variant ≠ variantSike ∨ secret.length < c.params.kemSize ∨ ciphertext.length < c.params.ciphertextSize) :
    c.encapsulate P ciphertext secret pub = none := by
  rw [KEM.encapsulate]
  by_cases h1 : c.allocated = false
  · rw [if_pos h1]
  rw [if_neg h1]
  by_cases h2 : variantSike ≠ pub.variant
  · rw [if_pos h2]
  rw [if_neg h2]
  by_cases h3 : secret.length < c.params.kemSize
  · rw [if_pos h3]
  rw [if_neg h3]
  by_cases h4 : ciphertext.length < c.params.ciphertextSize
  · rw [if_pos h4]
  rcases h with h | h | h | h
  · exact absurd h h1
  · exact absurd (Ne.symm h) h2
  · exact absurd h h3
  · exact absurd h h4

/-- C55. `Decapsulate` panics on an unallocated object, keys of another variant, a short secret buffer and ciphertexts
of any other length. -/
theorem c55_decaps_panics (c : KEM) (ciphertext secret : List Byte) (prv : PrivateKey) (pub : PublicKey)
    (h : c.allocated = false ∨ pub.variant ≠ variantSike ∨ prv.variant ≠ variantSike ∨ secret.length < c.params.kemSize ∨
      ciphertext.length ≠ c.params.ciphertextSize) :
    c.decapsulate P secret prv pub ciphertext = none := by
  rw [KEM.decapsulate]
  by_cases h1 : c.allocated = false
  · rw [if_pos h1]
  rw [if_neg h1]
  by_cases h2 : variantSike ≠ pub.variant
  · rw [if_pos h2]
  rw [if_neg h2]
  by_cases h2' : pub.variant ≠ prv.variant
  · rw [if_pos h2']
  rw [if_neg h2']
  by_cases h3 : secret.length < c.params.kemSize
  · rw [if_pos h3]
  rw [if_neg h3]
  by_cases h4 : ciphertext.length ≠ c.params.ciphertextSize
  · rw [if_pos h4]
  push_neg at h2 h2'
  rcases h with h | h | h | h | h
  · exact absurd h h1
  · exact absurd h2.symm h
  · exact absurd (h2'.symm.trans h2.symm) h
  · exact absurd h h3
  · exact absurd h h4

/-- C55. Otherwise `Encapsulate` returns, for a key of the object's field: the error of the random source with nothing
written, or nil; in the latter case the ciphertext is put at the start of the buffer. -/
theorem c55_encaps_returns (hP : Supported P) (f : Fld) (c : KEM) (hc : KemOf f c) (pub : PublicKey) (X Y Z : Fq f) (hpub : PubOf f variantSike pub X Y Z)
    (ciphertext secret : List Byte) (hl : ctLen f ≤ ciphertext.length) (hs : msgLen f ≤ secret.length) :
    (c.rng.length < msgLen f → ∃ c', c.encapsulate P ciphertext secret pub = some (c', ciphertext, secret, false)) ∧
    (msgLen f ≤ c.rng.length → ∃ c' ct s, c.encapsulate P ciphertext secret pub = some (c', ct, s, true) ∧
      ct.take (ctLen f) = ((sike f).encaps (c.rng.take (msgLen f)) (bytesOf f pub)).1 ∧ ct.length = ciphertext.length ∧ s.length = secret.length) := by
  have hpub : Pub f variantSike pub ⟨X, Y, Z⟩ := hpub
  obtain ⟨h1, h2⟩ := encaps_spec hP hc hpub ciphertext secret hl hs
  constructor
  · intro h
    obtain ⟨c', _, _, e⟩ := h2 h
    exact ⟨c', e⟩
  · intro h
    obtain ⟨c', _, _, e⟩ := h1 h
    have lm : (c.rng.take (msgLen f)).length = msgLen f := by simp; omega
    have lct : ((sike f).encaps (c.rng.take (msgLen f)) (enc3 ⟨X, Y, Z⟩)).1.length = ctLen f := enc_length f (coins_length f _ _) _ _ lm
    refine ⟨c', _, _, e, ?_, ?_, ?_⟩
    · rw [bytesOf_eq hpub]; exact List.take_left' lct
    · rw [List.length_append, lct, List.length_drop]; omega
    · rw [List.length_append, List.length_drop, show (Keccak.shake256 _ (msgLen f)).length = msgLen f from H_length _ _]; omega

/-- C55. With an allocated object and a public key of its field, `Encapsulate` panics exactly for keys of another variant
and short buffers. -/
theorem c55_encaps_iff (hP : Supported P) (f : Fld) (c : KEM) (hc : KemOf f c) (v : W64) (pub : PublicKey) (X Y Z : Fq f) (hpub : PubOf f v pub X Y Z)
    (ciphertext secret : List Byte) :
    c.encapsulate P ciphertext secret pub = none ↔ v ≠ variantSike ∨ secret.length < msgLen f ∨ ciphertext.length < ctLen f := by
  have hk := kemParams f
  constructor
  · intro h
    by_contra hn
    push_neg at hn
    obtain ⟨h1, h2, h3⟩ := hn
    subst h1
    obtain ⟨a1, a2⟩ := c55_encaps_returns hP f c hc pub X Y Z hpub ciphertext secret h3 h2
    by_cases hr : c.rng.length < msgLen f
    · obtain ⟨c', e⟩ := a1 hr
      rw [h] at e; cases e
    · obtain ⟨c', ct, s, e, _⟩ := a2 (by omega)
      rw [h] at e; cases e
  · intro h
    apply c55_encaps_panics
    rw [hc.params, hk.2.1, hk.2.2.1, hpub.variant]
    exact Or.inr h

/-- C55. With an allocated object and keys of its field, `Decapsulate` panics exactly for keys of another variant, a
short secret buffer and a ciphertext of another length. -/
theorem c55_decaps_iff (hP : Supported P) (f : Fld) (c : KEM) (hc : KemOf f c) (v w : W64) (prv : PrivateKey) (hprv : PrivOf f w prv) (pub : PublicKey)
    (X Y Z : Fq f) (hpub : PubOf f v pub X Y Z) (ciphertext secret : List Byte) :
    c.decapsulate P secret prv pub ciphertext = none ↔
      v ≠ variantSike ∨ w ≠ variantSike ∨ secret.length < msgLen f ∨ ciphertext.length ≠ ctLen f := by
  have hk := kemParams f
  constructor
  · intro h
    by_contra hn
    push_neg at hn
    obtain ⟨h1, h2, h3, h4⟩ := hn
    subst h1 h2
    obtain ⟨c', _, _, e⟩ := c54_decapsulate hP f c hc prv hprv pub X Y Z hpub ciphertext secret h4 h3
    rw [h] at e; cases e
  · intro h
    apply c55_decaps_panics
    rw [hc.params, hk.2.1, hk.2.2.1, hpub.variant, hprv.variant]
    exact Or.inr h

/-- C55. In a buffer larger than the ciphertext the secret is the hash of the message and the whole buffer, including
what was in it before, and not of the ciphertext: the clause on larger buffers is false unless the hash collides. -/
theorem c55_oversize_partial (hP : Supported P) (f : Fld) (c : KEM) (hc : KemOf f c) (pub : PublicKey) (X Y Z : Fq f) (hpub : PubOf f variantSike pub X Y Z)
    (ciphertext secret : List Byte) (hl : ctLen f ≤ ciphertext.length) (hs : msgLen f ≤ secret.length) (hr : msgLen f ≤ c.rng.length) :
    ∃ c' ct s, c.encapsulate P ciphertext secret pub = some (c', ct ++ ciphertext.drop (ctLen f), s, true) ∧
      ct = ((sike f).encaps (c.rng.take (msgLen f)) (bytesOf f pub)).1 ∧
      s.take (msgLen f) = Keccak.shake256 (c.rng.take (msgLen f) ++ (ct ++ ciphertext.drop (ctLen f))) (msgLen f) := by
  have hpub : Pub f variantSike pub ⟨X, Y, Z⟩ := hpub
  obtain ⟨c', _, _, e⟩ := (encaps_spec hP hc hpub ciphertext secret hl hs).1 hr
  refine ⟨c', _, _, e, by rw [bytesOf_eq hpub], ?_⟩
  exact List.take_left' (H_length _ _)

/-! ### C56 -/

/-- Calls on a KEM object and what the caller sees of them. -/
inductive Op
  | encaps (ciphertext secret : List Byte) (pub : PublicKey)
  | decaps (secret : List Byte) (prv : PrivateKey) (pub : PublicKey) (ciphertext : List Byte)
  | reset

inductive Out
  | encaps (ciphertext secret : List Byte) (ok : Bool)
  | decaps (secret : List Byte) (ok : Bool)
  | unit

def step (P : Plat) (c : KEM) : Op → Option (KEM × Out)
  | .encaps ct s pub => (c.encapsulate P ct s pub).map fun (c, ct, s, ok) => (c, .encaps ct s ok)
  | .decaps s prv pub ct => (c.decapsulate P s prv pub ct).map fun (c, s, ok) => (c, .decaps s ok)
  | .reset => some (c.resetObj, .unit)

/-- The calls one after the other on one object. -/
def run (P : Plat) (c : KEM) : List Op → Option (List Out)
  | [] => some []
  | op :: ops => do
    let (c, o) ← step P c op
    let os ← run P c ops
    some (o :: os)

/-- Each call on a new object that has the same random source. -/
def runFresh (P : Plat) (f : Fld) (rng : List Byte) : List Op → Option (List Out)
  | [] => some []
  | op :: ops => do
    let c ← allocate (idOf f) rng
    let (c, o) ← step P c op
    let os ← runFresh P f c.rng ops
    some (o :: os)

/-- Calls that don't panic: keys of field f, buffers of legal lengths. -/
def Legal (f : Fld) : Op → Prop
  | .encaps ct s pub => ctLen f ≤ ct.length ∧ msgLen f ≤ s.length ∧ ∃ X Y Z, PubOf f variantSike pub X Y Z
  | .decaps s prv pub ct => ct.length = ctLen f ∧ msgLen f ≤ s.length ∧ PrivOf f variantSike prv ∧ ∃ X Y Z, PubOf f variantSike pub X Y Z
  | .reset => True

theorem step_fresh (hP : Supported P) {f : Fld} {op : Op} (hop : Legal f op) {c d : KEM} (hc : KemOf f c) (hd : KemOf f d) (hr : c.rng = d.rng) :
    ∃ c' d' o, step P c op = some (c', o) ∧ step P d op = some (d', o) ∧ KemOf f c' ∧ KemOf f d' ∧ c'.rng = d'.rng := by
  cases op with
  | encaps ct s pub =>
    obtain ⟨h1, h2, X, Y, Z, h3⟩ := hop
    have h3 : Pub f variantSike pub ⟨X, Y, Z⟩ := h3
    obtain ⟨a1, a2⟩ := encaps_spec hP hc h3 ct s h1 h2
    obtain ⟨b1, b2⟩ := encaps_spec hP hd h3 ct s h1 h2
    rw [hr] at a1 a2
    by_cases hl : msgLen f ≤ d.rng.length
    · obtain ⟨c', x1, x2, x3⟩ := a1 hl
      obtain ⟨d', y1, y2, y3⟩ := b1 hl
      exact ⟨c', d', _, by rw [step, x3]; rfl, by rw [step, y3]; rfl, x1, y1, x2.trans y2.symm⟩
    · obtain ⟨c', x1, x2, x3⟩ := a2 (by omega)
      obtain ⟨d', y1, y2, y3⟩ := b2 (by omega)
      exact ⟨c', d', _, by rw [step, x3]; rfl, by rw [step, y3]; rfl, x1, y1, x2.trans y2.symm⟩
  | decaps s prv pub ct =>
    obtain ⟨h1, h2, h0, X, Y, Z, h3⟩ := hop
    have h3 : Pub f variantSike pub ⟨X, Y, Z⟩ := h3
    obtain ⟨c', x1, x2, x3⟩ := decaps_spec hP hc h0 h3 ct s h1 h2
    obtain ⟨d', y1, y2, y3⟩ := decaps_spec hP hd h0 h3 ct s h1 h2
    exact ⟨c', d', _, by rw [step, x3]; rfl, by rw [step, y3]; rfl, x1, y1, by rw [x2, y2, hr]⟩
  | reset =>
    refine ⟨_, _, .unit, rfl, rfl, ?_, ?_, hr⟩
    · exact ⟨hc.allocated, hc.params, by simp [KEM.resetObj, hc.msg], by simp [KEM.resetObj, hc.secretBytes], hc.shake⟩
    · exact ⟨hd.allocated, hd.params, by simp [KEM.resetObj, hd.msg], by simp [KEM.resetObj, hd.secretBytes], hd.shake⟩

/-- C56. Whatever calls are made on an object, in whatever state it is, each gives what it gives on a new object with
the rest of the random source. -/
theorem c56_history_free (hP : Supported P) (f : Fld) (ops : List Op) : ∀ (c : KEM), KemOf f c → (∀ op ∈ ops, Legal f op) →
    run P c ops = runFresh P f c.rng ops ∧ (run P c ops).isSome := by
  induction ops with
  | nil => intro c _ _; exact ⟨rfl, rfl⟩
  | cons op ops ih =>
    intro c hc hl
    obtain ⟨d, h1, h2, h3⟩ := kem_new f c.rng
    obtain ⟨c', d', o, g1, g2, g3, g4, g5⟩ := step_fresh hP (hl op List.mem_cons_self) hc h2 h3.symm
    obtain ⟨i1, i2⟩ := ih c' g3 fun op hop => hl op (List.mem_cons_of_mem _ hop)
    rw [run, runFresh, g1, h1]
    simp only [Option.bind_eq_bind, Option.bind_some, g2, ← g5, ← i1]
    refine ⟨trivial, ?_⟩
    obtain ⟨os, hos⟩ := Option.isSome_iff_exists.mp i2
    rw [hos]; rfl

/-- Non-vacuity of C56: calls with a new key pair are legal. -/
example (f : Fld) : ∃ prv pub, Legal f (.encaps (List.replicate (ctLen f) 0) (List.replicate (msgLen f) 0) pub) ∧
    Legal f (.decaps (List.replicate (msgLen f) 0) prv pub (List.replicate (ctLen f) 1)) ∧ newPrivateKey (idOf f) variantSike = some prv := by
  obtain ⟨k0, h1, h2⟩ := c34_new f variantSike
  obtain ⟨pub, _, h3⟩ := gen_spec h2 ⟨paramsOf f, variantSike, ⟨zeroFp2 f.words, zeroFp2 f.words, zeroFp2 f.words⟩⟩ rfl rfl
  exact ⟨k0, pub, ⟨by simp, by simp, _, _, _, h3⟩, ⟨by simp, by simp, h2, _, _, _, h3⟩, h1⟩

/-! ### C57 -/

theorem encode_coords {f : Fld} (b : List Byte) (hb : b.length = 6 * fieldBytes f) : encode f (coords f b) = enc3 (dec3 f b) := by
  obtain ⟨k, h1, _, _, h2⟩ := c35_import f variantA b
  obtain ⟨k', h3, h4, h5⟩ := h2 hb
  have h4 : Pub f variantA k' (dec3 f b) := h4
  have := h5 (List.replicate (6 * fieldBytes f) 0) (by simp)
  rw [export_long h4 _ (by simp)] at this
  simpa using this.symm

/-- C57. The public-key part of an accepted ciphertext is canonical: all six coordinates are below p. -/
theorem c57_canonical (f : Fld) (sk pk ct : List Byte) (ha : (sike f).Accepts sk pk ct) :
    ∀ x ∈ coords f (ct.take (6 * fieldBytes f)), x < f.p := by
  have ha : publicBytes f ((sike f).coins ((sike f).dec sk ct) pk) = ct.take (6 * fieldBytes f) := ha
  rw [gen_eq f _ (coins_length f _ _)] at ha
  rw [← ha]
  apply (c35_canonical f _ (enc3_length _)).mp
  rw [encode_coords _ (enc3_length _), dec_enc]

/-- C57. Of the encodings of the same points at most one is accepted. -/
theorem c57_unique (f : Fld) (sk pk ct ct' : List Byte) (ha : (sike f).Accepts sk pk ct) (ha' : (sike f).Accepts sk pk ct')
    (h : (coords f (ct.take (6 * fieldBytes f))).map (· % f.p) = (coords f (ct'.take (6 * fieldBytes f))).map (· % f.p)) :
    ct.take (6 * fieldBytes f) = ct'.take (6 * fieldBytes f) := by
  have key : ∀ ct, (sike f).Accepts sk pk ct → ct.take (6 * fieldBytes f) = encode f ((coords f (ct.take (6 * fieldBytes f))).map (· % f.p)) := by
    intro ct ha
    have hl : (ct.take (6 * fieldBytes f)).length = 6 * fieldBytes f := by
      have ha : publicBytes f ((sike f).coins ((sike f).dec sk ct) pk) = ct.take (6 * fieldBytes f) := ha
      rw [← ha, gen_eq f _ (coins_length f _ _), enc3_length]
    have e := (c35_canonical f _ hl).mpr (c57_canonical f sk pk ct ha)
    conv_lhs => rw [← e]
    unfold encode
    rw [List.map_map]
    congr 1
    apply List.map_congr_left
    intro x _
    simp
  rw [key ct ha, key ct' ha', h]

end Props.Sike
