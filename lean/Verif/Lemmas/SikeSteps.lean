import Verif.Props.Sike
import Verif.Lemmas.SidhStepsRel
/-! Helper lemmas: two runs of sidh.go and sike.go see the same. -/
namespace Lemmas.SikeSteps
open Model Model.Sidh Model.Sidh.Tr Model.Sha3 Model.Sike Spec Spec.Sidh Lemmas.SidhSteps Lemmas.SidhBytes Lemmas.SidhGood Lemmas.Sike Lemmas.Sha3
open Props.SidhFp2 Props.SidhKeys Props.SidhCurve Props.Sike

variable {f : Fld}

/-- Neither run takes the branch. -/
theorem rel_neg {α : Type} {S : α → α → Prop} {c c' : Prop} [Decidable c] [Decidable c'] {a a' m m' : Tr α} (hc : ¬ c) (hc' : ¬ c') (h : Rel S m m') :
    Rel S (if c then a else m) (if c' then a' else m') := by
  rw [if_neg hc, if_neg hc']; exact h

/-- Both of length n. -/
def Len (n : Nat) (a b : List Byte) : Prop := a.length = n ∧ b.length = n

/-- A public key of field f and variant v, with any content. -/
def PubAny (f : Fld) (v : W64) (k : PublicKey) : Prop := k.params = paramsOf f ∧ k.variant = v

def Pubs (f : Fld) (v : W64) (a b : PublicKey) : Prop := PubAny f v a ∧ PubAny f v b

theorem sliceTo_rel {a b : List Byte} {N : Nat} (h : Len N a b) {n : Nat} (hn : n ≤ N) (l : List Ev) :
    Rel (Len n) (lift (sliceTo a n) l) (lift (sliceTo b n) l) :=
  Rel.lift rfl (if_pos (by rw [h.1]; exact hn)) (if_pos (by rw [h.2]; exact hn)) ⟨by simp [h.1, hn], by simp [h.2, hn]⟩

theorem bytesToFp2T_rel (x x' : Fp2) {a b : List Byte} {N n : Nat} (h : Len N a b) (hn : 2 * n ≤ N) :
    Rel Any (bytesToFp2T x a n) (bytesToFp2T x' b n) := by
  refine Rel.seq (by rw [h.1, h.2]) ?_
  exact Rel.lift rfl (if_neg (by rw [h.1]; omega)) (if_neg (by rw [h.2]; omega)) trivial

theorem fp2ToBytesT_rel (x x' : Fp2) {a b : List Byte} {N n : Nat} (h : Len N a b) (hn : 2 * n ≤ N) :
    Rel (Len N) (fp2ToBytesT a x n) (fp2ToBytesT b x' n) := by
  refine Rel.seq (by rw [h.1, h.2]) ?_
  refine Rel.lift rfl (if_neg (by rw [h.1]; omega)) (if_neg (by rw [h.2]; omega)) ?_
  have := h.1
  have := h.2
  constructor <;> simp [wordsToBytes] <;> omega

theorem importKeyT_rel {v : W64} {k k' : PublicKey} (hk : Pubs f v k k') {a b : List Byte} (h : Len (6 * fieldBytes f) a b) :
    Rel (fun p q : PublicKey × Bool => Pubs f v p.1 q.1 ∧ p.2 = true ∧ q.2 = true) (k.importKeyT a) (k'.importKeyT b) := by
  obtain ⟨s1, s2, s3, s4, s5, s6⟩ := sizes f
  have e : k.size = 6 * fieldBytes f := by rw [PublicKey.size, hk.1.1, s3]
  have e' : k'.size = 6 * fieldBytes f := by rw [PublicKey.size, hk.2.1, s3]
  have h1 := h.1
  have h2 := h.2
  rw [PublicKey.importKeyT, PublicKey.importKeyT, if_neg (by rw [e, h.1]; simp), if_neg (by rw [e', h.2]; simp), e, e', h.1, h.2, hk.1.1, hk.2.1, s1, s2]
  refine Rel.seq rfl ?_
  refine (bytesToFp2T_rel _ _ (N := 2 * fieldBytes f) ⟨by simp; omega, by simp; omega⟩ (le_refl _)).bindAny fun _ _ => ?_
  refine (bytesToFp2T_rel _ _ (N := 2 * fieldBytes f) ⟨by simp; omega, by simp; omega⟩ (le_refl _)).bindAny fun _ _ => ?_
  refine (bytesToFp2T_rel _ _ (N := 2 * fieldBytes f) ⟨by simp; omega, by simp; omega⟩ (le_refl _)).bindAny fun _ _ => ?_
  refine (Rel.liftEq _ _).bind fun g g' hg => ?_
  subst hg
  exact (toMontgomeryT_rel _ _ _).bindAny fun _ _ => (toMontgomeryT_rel _ _ _).bindAny fun _ _ => (toMontgomeryT_rel _ _ _).bindAny fun _ _ =>
    Rel.pure ⟨⟨⟨rfl, hk.1.2⟩, ⟨rfl, hk.2.2⟩⟩, rfl, rfl⟩

theorem exportKeyT_rel {v : W64} {k k' : PublicKey} (hk : Pubs f v k k') {a b : List Byte} {N : Nat} (h : Len N a b) (hN : 6 * fieldBytes f ≤ N) :
    Rel (Len N) (k.exportKeyT a) (k'.exportKeyT b) := by
  obtain ⟨s1, s2, s3, s4, s5, s6⟩ := sizes f
  have h1 := h.1
  have h2 := h.2
  simp only [PublicKey.exportKeyT, hk.1.1, hk.2.1, s1, s2]
  refine (Rel.liftEq _ _).bind fun g g' hg => ?_
  subst hg
  refine (fromMontgomeryT_rel _ _ _).bindAny fun _ _ => (fromMontgomeryT_rel _ _ _).bindAny fun _ _ => (fromMontgomeryT_rel _ _ _).bindAny fun _ _ => ?_
  rw [if_neg (by omega), if_neg (by omega)]
  refine (fp2ToBytesT_rel _ _ (N := 2 * fieldBytes f) ⟨by simp; omega, by simp; omega⟩ (le_refl _)).bind fun a1 b1 e1 => ?_
  refine (fp2ToBytesT_rel _ _ (N := 2 * fieldBytes f) ⟨by simp; omega, by simp; omega⟩ (le_refl _)).bind fun a2 b2 e2 => ?_
  refine (fp2ToBytesT_rel _ _ (N := 2 * fieldBytes f) ⟨by simp; omega, by simp; omega⟩ (le_refl _)).bind fun a3 b3 e3 => Rel.pure ?_
  constructor
  · simp [e1.1, e2.1, e3.1, h1]; omega
  · simp [e1.2, e2.2, e3.2, h2]; omega

theorem generatePublicKeyT_rel {v : W64} {k k' : PrivateKey} (hk : PrivOf f v k) (hk' : PrivOf f v k') {p p' : PublicKey} (hp : Pubs f v p p') :
    Rel (Pubs f v) (k.generatePublicKeyT p) (k'.generatePublicKeyT p') := by
  have hs := hk.scalar
  have hs' := hk'.scalar
  simp only [PrivateKey.generatePublicKeyT, hk.params, hk'.params, hk.variant, hk'.variant, hp.1.1, hp.2.1, hp.1.2, hp.2.2]
  refine Rel.seq rfl ?_
  rw [if_neg (by simp), if_neg (by simp), pkg_of, isA_eq]
  refine (Rel.lift (R := fun a b => a = paramsOf f ∧ b = paramsOf f) rfl rfl rfl ⟨rfl, rfl⟩).bind fun g g' hg => ?_
  obtain ⟨rfl, rfl⟩ := hg
  refine Rel.seq rfl ?_
  cases hv : v.getLsbD 0
  · rw [hv, if_neg (by simp)] at hs hs'
    rw [if_neg (by simp), if_neg (by simp)]
    exact (publicKeyGenBT_rel (limb_ct _) _ (by rw [hs]; cases f <;> decide) (by rw [hs']; cases f <;> decide)).bindAny fun _ _ =>
      Rel.pure ⟨⟨rfl, rfl⟩, ⟨rfl, rfl⟩⟩
  · rw [hv, if_pos rfl] at hs hs'
    rw [if_pos rfl, if_pos rfl]
    exact (publicKeyGenAT_rel (limb_ct _) _ (by rw [hs]; cases f <;> decide) (by rw [hs']; cases f <;> decide)).bindAny fun _ _ =>
      Rel.pure ⟨⟨rfl, rfl⟩, ⟨rfl, rfl⟩⟩

theorem deriveSecretT_rel {v w : W64} (hvw : w ≠ v) {k k' : PrivateKey} (hk : PrivOf f v k) (hk' : PrivOf f v k') {p p' : PublicKey} (hp : Pubs f w p p')
    {a b : List Byte} {N : Nat} (h : Len N a b) (hN : 2 * fieldBytes f ≤ N) :
    Rel (Len N) (k.deriveSecretT a p) (k'.deriveSecretT b p') := by
  obtain ⟨s1, s2, s3, s4, s5, s6⟩ := sizes f
  have hs := hk.scalar
  have hs' := hk'.scalar
  simp only [PrivateKey.deriveSecretT, hk.params, hk'.params, hk.variant, hk'.variant, hp.1.1, hp.2.1, hp.1.2, hp.2.2]
  refine Rel.seq rfl ?_
  rw [if_neg (by simp [hvw]), if_neg (by simp [hvw]), pkg_of, isA_eq]
  refine (Rel.lift (R := fun a b => a = paramsOf f ∧ b = paramsOf f) rfl rfl rfl ⟨rfl, rfl⟩).bind fun g g' hg => ?_
  obtain ⟨rfl, rfl⟩ := hg
  refine Rel.seq rfl ?_
  unfold deriveSecretPkgT
  rw [s2]
  cases hv : v.getLsbD 0
  · rw [hv, if_neg (by simp)] at hs hs'
    rw [if_neg (by simp), if_neg (by simp)]
    exact (deriveBT_rel (limb_ct _) _ (by rw [hs]; cases f <;> decide) (by rw [hs']; cases f <;> decide) _ _).bindAny fun _ _ =>
      (fromMontgomeryT_rel _ _ _).bindAny fun _ _ => fp2ToBytesT_rel _ _ h hN
  · rw [hv, if_pos rfl] at hs hs'
    rw [if_pos rfl, if_pos rfl]
    exact (deriveAT_rel (limb_ct _) _ (by rw [hs]; cases f <;> decide) (by rw [hs']; cases f <;> decide) _ _).bindAny fun _ _ =>
      (fromMontgomeryT_rel _ _ _).bindAny fun _ _ => fp2ToBytesT_rel _ _ h hN

/-! ### sike.go -/

/-- Two objects for field f. -/
def Kems (f : Fld) (c c' : KEM) : Prop := KemOf f c ∧ KemOf f c'

theorem kemOf_shake {c : KEM} (hc : KemOf f c) {st : State} (h : SameParams newShake256 st) : KemOf f {c with shake := st} :=
  ⟨hc.allocated, hc.params, hc.msg, hc.secretBytes, h⟩

variable {P : Plat}

theorem hashT_rel (hP : Supported P) {c c' : KEM} (hc : Kems f c c') {ins ins' : List (List Byte)} (hi : ins.map List.length = ins'.map List.length)
    {a b : List Byte} {n : Nat} (h : Len n a b) :
    Rel (fun x y : KEM × List Byte => (∃ st st', x.1 = {c with shake := st} ∧ y.1 = {c' with shake := st'}) ∧ Kems f x.1 y.1 ∧ Len n x.2 y.2)
      (c.hashT P ins a) (c'.hashT P ins' b) := by
  obtain ⟨st, e, p⟩ := hash_spec hP hc.1.shake ins a
  obtain ⟨st', e', p'⟩ := hash_spec hP hc.2.shake ins' b
  refine Rel.lift ?_ e e' ⟨⟨st, st', rfl, rfl⟩, ⟨kemOf_shake hc.1 p, kemOf_shake hc.2 p'⟩, by rw [H_length, h.1], by rw [H_length, h.2]⟩
  have : ins.map (fun x => Ev.write x.length) = ins'.map (fun x => Ev.write x.length) := by
    have := congrArg (List.map Ev.write) hi
    simpa [Function.comp_def] using this
  rw [this, h.1, h.2]

theorem xorInto_rel {a b c d : List Byte} {N m : Nat} (h : Len N a b) (h' : Len m c d) (hm : m ≤ N) (l : List Ev) :
    Rel (Len N) (lift (xorInto a c) l) (lift (xorInto b d) l) := by
  refine Rel.lift rfl (if_neg (by rw [h.1, h'.1]; omega)) (if_neg (by rw [h.2, h'.2]; omega)) ?_
  have := h.1; have := h.2; have := h'.1; have := h'.2
  constructor <;> simp <;> omega

theorem maskLast_rel (bits : Nat) {a b : List Byte} {N : Nat} (h : Len N a b) (hN : 0 < N) (l : List Ev) :
    Rel (Len N) (lift (maskLast bits a) l) (lift (maskLast bits b) l) := by
  have h1 := h.1
  have h2 := h.2
  refine Rel.lift rfl ((if_neg (by omega)).trans (if_pos (by omega))) ((if_neg (by omega)).trans (if_pos (by omega))) ?_
  constructor <;> simp <;> omega

theorem newPublicKey_rel (f : Fld) (v : W64) (l : List Ev) : Rel (Pubs f v) (lift (newPublicKey (idOf f) v) l) (lift (newPublicKey (idOf f) v) l) :=
  Rel.lift rfl (newPublicKey_eq f v) (newPublicKey_eq f v) ⟨⟨rfl, rfl⟩, ⟨rfl, rfl⟩⟩

theorem copyFrom_rel {a b c d : List Byte} {N m lo : Nat} (h : Len N a b) (h' : Len m c d) (hl : lo + m ≤ N) :
    Rel (Len N) (lift (copyFrom a lo c) [.bytes c.length]) (lift (copyFrom b lo d) [.bytes d.length]) := by
  have h1 := h.1; have h2 := h.2; have h3 := h'.1; have h4 := h'.2
  refine Rel.lift (by rw [h3, h4]) (if_pos (by omega)) (if_pos (by omega)) ?_
  constructor <;> simp [goCopy] <;> omega

theorem generateCiphertextT_rel (hP : Supported P) {c c' : KEM} (hc : Kems f c c') {ct ct' : List Byte} {N : Nat} (hct : Len N ct ct') (hN : ctLen f ≤ N)
    {sk sk' : PrivateKey} (hk : PrivOf f variantA sk) (hk' : PrivOf f variantA sk') {a a' b b' : PublicKey} (ha : Pubs f variantA a a')
    (hb : Pubs f variantSike b b') {m m' : List Byte} (hm : Len (msgLen f) m m') :
    Rel (fun x y : KEM × List Byte => (∃ st st', x.1 = {c with shake := st} ∧ y.1 = {c' with shake := st'}) ∧ Kems f x.1 y.1 ∧ Len N x.2 y.2)
      (c.generateCiphertextT P ct sk a b m) (c'.generateCiphertextT P ct' sk' a' b' m') := by
  obtain ⟨k1, k2, k3, k4, k5, k6, k7, k8, k9, k10, k11⟩ := kemParams f
  obtain ⟨s1, s2, s3, s4, s5, s6⟩ := sizes f
  have e : a.size = 6 * fieldBytes f := by rw [PublicKey.size, ha.1.1, s3]
  have e' : a'.size = 6 * fieldBytes f := by rw [PublicKey.size, ha.2.1, s3]
  simp only [KEM.generateCiphertextT, hk.params, hk'.params, k1, s1, hm.1, hm.2, e, e']
  refine (deriveSecretT_rel (by decide) hk hk' hb (N := maxSharedSecretBsz) ⟨by simp, by simp⟩ k9).bind fun j j' hj => ?_
  refine (sliceTo_rel hj k9 _).bind fun j1 j1' hj1 => ?_
  refine (sliceTo_rel (N := maxMsgBsz) ⟨by simp, by simp⟩ k7 _).bind fun n1 n1' hn1 => ?_
  refine (hashT_rel hP hc (by simp [hj1.1, hj1.2]) hn1).bind fun h h' hh => ?_
  refine (xorInto_rel (N := maxMsgBsz) ⟨by simp [hh.2.2.1]; omega, by simp [hh.2.2.2]; omega⟩ hm k7 _).bind fun n n' hn => ?_
  refine (exportKeyT_rel ha hct (le_trans (by rw [ctLen]; omega) hN)).bind fun d d' hd => ?_
  refine (sliceTo_rel hn k7 _).bind fun n2 n2' hn2 => ?_
  refine (copyFrom_rel hd hn2 (by rw [ctLen] at hN; omega)).bind fun g g' hg => Rel.pure ⟨hh.1, hh.2.1, hg⟩

theorem encapsulateT_rel (hP : Supported P) {c c' : KEM} (hc : Kems f c c') (hr : c.rng.length = c'.rng.length) {ct ct' ss ss' : List Byte} {N M : Nat}
    (hct : Len N ct ct') (hss : Len M ss ss') {p p' : PublicKey} (hp : Pubs f variantSike p p') (hN : ctLen f ≤ N) (hM : msgLen f ≤ M) :
    Rel Any (c.encapsulateT P ct ss p) (c'.encapsulateT P ct' ss' p') := by
  obtain ⟨k1, k2, k3, k4, k5, k6, k7, k8, k9, k10, k11⟩ := kemParams f
  obtain ⟨s1, s2, s3, s4, s5, s6⟩ := sizes f
  have h3 : 3 * (2 * fieldBytes f) = 6 * fieldBytes f := by omega
  simp only [KEM.encapsulateT, hc.1.allocated, hc.2.allocated, hc.1.params, hc.2.params, hp.1.2, hp.2.2, k2, k3, k6, s1, hct.1, hct.2, hss.1, hss.2,
    hc.1.msg, hc.2.msg, readFull, hr]
  refine Rel.seq rfl (rel_neg (by simp) (by simp) ?_)
  refine Rel.seq rfl (rel_neg (by simp) (by simp) ?_)
  refine Rel.seq rfl (rel_neg (by omega) (by omega) ?_)
  refine Rel.seq rfl (rel_neg (by omega) (by omega) ?_)
  refine Rel.seq rfl ?_
  by_cases hb : decide (msgLen f ≤ c'.rng.length) = false
  · rw [if_pos hb]
    rw [if_pos hb]; exact Rel.pureAny _ _
  refine rel_neg hb hb ?_
  have hb' : msgLen f ≤ c'.rng.length := by simpa using hb
  refine (newPublicKey_rel f variantA _).bind fun pk pk' hpk => ?_
  refine (exportKeyT_rel hp (N := 3 * maxSharedSecretBsz) ⟨by simp, by simp⟩ (by omega)).bind fun b b' hb => ?_
  refine (sliceTo_rel hb (by omega) _).bind fun b1 b1' hb1 => ?_
  have hm : (goCopy c.msg c.rng).length = msgLen f := by simp [goCopy, hc.1.msg]; omega
  have hm' : (goCopy c'.msg c'.rng).length = msgLen f := by simp [goCopy, hc.2.msg]; omega
  refine Rel.bind (hashT_rel hP (f := f) ?_ ?_ ⟨hc.1.secretBytes, hc.2.secretBytes⟩) fun h h' hh => ?_
  · exact ⟨⟨rfl, rfl, hm, hc.1.secretBytes, hc.1.shake⟩, ⟨rfl, rfl, hm', hc.2.secretBytes, hc.2.shake⟩⟩
  · simp [hm, hm', hb1.1, hb1.2]
  obtain ⟨hc1, sc⟩ := h
  obtain ⟨hc1', sc'⟩ := h'
  obtain ⟨⟨st, st', e1, e1'⟩, hk1, hsc⟩ := hh
  dsimp only at e1 e1' hk1 hsc
  simp only [hk1.1.params, hk1.2.params]
  refine (maskLast_rel _ hsc (by omega) _).bind fun sc2 sc2' hsc2 => ?_
  refine (generatePublicKeyT_rel (privA f sc2 hsc2.1) (privA f sc2' hsc2.2) hpk).bind fun pkA pkA' hpkA => ?_
  refine Rel.bind (generateCiphertextT_rel hP (f := f) ?_ hct hN (privA f sc2 hsc2.1) (privA f sc2' hsc2.2) hpkA hp ⟨hk1.1.msg, hk1.2.msg⟩)
    fun e e' he => ?_
  · exact ⟨⟨hk1.1.allocated, rfl, hk1.1.msg, hsc2.1, hk1.1.shake⟩, ⟨hk1.2.allocated, rfl, hk1.2.msg, hsc2.2, hk1.2.shake⟩⟩
  obtain ⟨_, hke, hce⟩ := he
  simp only [hke.1.params, hke.2.params, k2]
  refine (sliceTo_rel hss hM _).bind fun s s' hs => ?_
  refine (hashT_rel hP hke (by simp [hke.1.msg, hke.2.msg, hce.1, hce.2]) hs).bind fun _ _ _ => Rel.pureAny _ _

theorem decryptT_rel (hP : Supported P) {c c' : KEM} (hc : Kems f c c') {n n' : List Byte} (hn : Len maxMsgBsz n n') {k k' : PrivateKey}
    (hk : PrivOf f variantSike k) (hk' : PrivOf f variantSike k') {ct ct' : List Byte} (hct : Len (ctLen f) ct ct') :
    Rel (fun x y : KEM × List Byte × Nat × Bool => Kems f x.1 y.1 ∧ Len maxMsgBsz x.2.1 y.2.1 ∧ (x.2.2.1 = msgLen f ∧ y.2.2.1 = msgLen f) ∧
      x.2.2.2 = true ∧ y.2.2.2 = true) (c.decryptT P n k ct) (c'.decryptT P n' k' ct') := by
  obtain ⟨k1, k2, k3, k4, k5, k6, k7, k8, k9, k10, k11⟩ := kemParams f
  obtain ⟨s1, s2, s3, s4, s5, s6⟩ := sizes f
  have e : ctLen f - 6 * fieldBytes f = msgLen f := by rw [ctLen]; omega
  have hct1 := hct.1
  have hct2 := hct.2
  simp only [KEM.decryptT, hk.params, hk'.params, s1, s3, hct.1, hct.2, e, k6]
  refine (newPublicKey_rel f variantA _).bind fun pk pk' hpk => ?_
  refine (sliceTo_rel hct (by rw [ctLen]; omega) _).bind fun hd hd' hhd => ?_
  refine (importKeyT_rel hpk hhd).bind fun i i' hi => ?_
  refine (deriveSecretT_rel (by decide) hk hk' hi.1 (N := maxSharedSecretBsz) ⟨by simp, by simp⟩ k9).bind fun j j' hj => ?_
  refine (sliceTo_rel hj k9 _).bind fun j1 j1' hj1 => ?_
  refine (sliceTo_rel hn k7 _).bind fun n1 n1' hn1 => ?_
  refine (hashT_rel hP hc (by simp [hj1.1, hj1.2]) hn1).bind fun h h' hh => ?_
  refine (xorInto_rel (N := maxMsgBsz) (m := msgLen f) ⟨by simp [hh.2.2.1, hn.1]; omega, by simp [hh.2.2.2, hn.2]; omega⟩
    ⟨by simp [hct1, e], by simp [hct2, e]⟩ k7 _).bind fun m m' hm => ?_
  exact Rel.pure ⟨hh.2.1, hm, ⟨rfl, rfl⟩, hi.2.1, hi.2.2⟩

theorem privImportT_rel {v : W64} {k k' : PrivateKey} (hk : PrivOf f v k) (hk' : PrivOf f v k') {a b : List Byte} (h : Len (privateKeySize f v) a b) :
    Rel (fun x y : PrivateKey × Bool => PrivOf f v x.1 ∧ PrivOf f v y.1 ∧ x.2 = true ∧ y.2 = true) (k.importKeyT a) (k'.importKeyT b) := by
  have e := (privOf_size hk)
  have e' := (privOf_size hk')
  have h1 := h.1
  have h2 := h.2
  have g1 := hk.scalar
  have g2 := hk'.scalar
  have g3 := hk.S
  have g4 := hk'.S
  have gS : k.S.length = k'.S.length := g3.trans g4.symm
  have gC : k.scalar.length = k'.scalar.length := g1.trans g2.symm
  simp only [PrivateKey.importKeyT]
  refine Rel.seq (by rw [e.1, e'.1, h1, h2]) (rel_neg (by omega) (by omega) ?_)
  refine (Rel.lift (R := Len k.S.length) rfl (if_pos (by omega)) (if_pos (by omega)) ⟨by simp; omega, by simp; omega⟩).bind fun hd hd' hhd => ?_
  refine Rel.seq (by rw [hhd.1, hhd.2, gS]) ?_
  refine (Rel.lift (R := Len k.scalar.length) rfl (if_pos (by omega)) (if_pos (by omega)) ⟨by simp; omega, by simp; omega⟩).bind fun tl tl' htl => ?_
  refine Rel.seq (by rw [htl.1, htl.2, gC]) (Rel.pure ⟨⟨hk.params, hk.variant, ?_, ?_⟩, ⟨hk'.params, hk'.variant, ?_, ?_⟩, rfl, rfl⟩)
  · rw [← g1]; simp [goCopy, htl.1]
  · rw [← g3]; simp [goCopy, hhd.1]
  · rw [← g2]; simp [goCopy, htl.2]; omega
  · rw [← g4]; simp [goCopy, hhd.2]; omega

theorem cpick_rel (x y : W64) {n : Nat} {a a' b b' : List Byte} (ha : Len n a a') (hb : Len n b b') (l : List Ev) :
    Rel (Len n) (lift (cpick x n a b) l) (lift (cpick y n a' b') l) := by
  have key : ∀ (x : W64) (a b : List Byte), a.length = n → b.length = n → ∃ c, cpick x n a b = some c ∧ c.length = n := by
    intro x a b h1 h2
    have all : ∀ l : List Nat, (∀ i ∈ l, i < n) → ∃ c, (l.mapM fun i => do
        let u ← a[i]?
        let w ← b[i]?
        some ((u &&& which x) ||| (w &&& ~~~ which x))) = some c ∧ c.length = l.length := by
      intro l
      induction l with
      | nil => exact fun _ => ⟨[], rfl, rfl⟩
      | cons i l ih =>
        intro hl
        obtain ⟨c, e, hc⟩ := ih fun j hj => hl j (List.mem_cons_of_mem _ hj)
        have hi := hl i List.mem_cons_self
        refine ⟨((a.getD i 0 &&& which x) ||| (b.getD i 0 &&& ~~~ which x)) :: c, ?_, by simp [hc]⟩
        · rw [List.mapM_cons, e, List.getElem?_eq_getElem (by omega), List.getElem?_eq_getElem (by omega)]
          simp [List.getD_eq_getElem?_getD, h1, h2, hi]
    obtain ⟨c, e, hc⟩ := all (List.range n) fun i hi => List.mem_range.mp hi
    exact ⟨c, e, by simpa using hc⟩
  obtain ⟨c, e, h⟩ := key x a b ha.1 hb.1
  obtain ⟨c', e', h'⟩ := key y a' b' ha.2 hb.2
  exact Rel.lift rfl e e' ⟨h, h'⟩

theorem decapsulateT_rel (hP : Supported P) {c c' : KEM} (hc : Kems f c c') {ct ct' ss ss' : List Byte} {M : Nat}
    (hct : Len (ctLen f) ct ct') (hss : Len M ss ss') {p p' : PublicKey} (hp : Pubs f variantSike p p') {k k' : PrivateKey}
    (hk : PrivOf f variantSike k) (hk' : PrivOf f variantSike k') (hM : msgLen f ≤ M) :
    Rel Any (c.decapsulateT P ss k p ct) (c'.decapsulateT P ss' k' p' ct') := by
  obtain ⟨k1, k2, k3, k4, k5, k6, k7, k8, k9, k10, k11⟩ := kemParams f
  obtain ⟨s1, s2, s3, s4, s5, s6⟩ := sizes f
  have h3 : 3 * (2 * fieldBytes f) = 6 * fieldBytes f := by omega
  have gS := hk.S
  have gS' := hk'.S
  rw [if_pos (show variantSike = 6 from rfl), k1] at gS gS'
  simp only [KEM.decapsulateT, hc.1.allocated, hc.2.allocated, hc.1.params, hc.2.params, hp.1.2, hp.2.2, hp.1.1, hp.2.1, hk.variant, hk'.variant,
    k2, k3, k6, s1, s3, hct.1, hct.2, hss.1, hss.2]
  refine Rel.seq rfl (rel_neg (by simp) (by simp) ?_)
  refine Rel.seq rfl (rel_neg (by simp) (by simp) ?_)
  refine Rel.seq rfl (rel_neg (by simp) (by simp) ?_)
  refine Rel.seq rfl (rel_neg (by omega) (by omega) ?_)
  refine Rel.seq rfl (rel_neg (by simp) (by simp) ?_)
  refine (newPublicKey_rel f variantA _).bind fun pk pk' hpk => ?_
  refine (decryptT_rel hP hc (n := List.replicate maxMsgBsz 0) (n' := List.replicate maxMsgBsz 0) ⟨by simp, by simp⟩ hk hk' hct).bind fun d d' hd => ?_
  obtain ⟨c1, m, l, ok⟩ := d
  obtain ⟨c1', m', l', ok'⟩ := d'
  obtain ⟨hc1, hm, hl, ho, ho'⟩ := hd
  dsimp only at hc1 hm hl ho ho'
  obtain ⟨rfl, rfl⟩ := hl
  subst ho; subst ho'
  refine Rel.seq rfl (rel_neg (by simp) (by simp) ?_)
  simp only [hc1.1.params, hc1.2.params, s1, k4]
  refine (exportKeyT_rel hp (N := 3 * maxSharedSecretBsz) ⟨by simp, by simp⟩ (by omega)).bind fun b b' hb => ?_
  refine (sliceTo_rel hm k7 _).bind fun m1 m1' hm1 => ?_
  refine (sliceTo_rel hb (by omega) _).bind fun b1 b1' hb1 => ?_
  refine (sliceTo_rel (N := maxSidhPrivateKeyBsz) ⟨by simp, by simp⟩ k8 _).bind fun r1 r1' hr1 => ?_
  refine (hashT_rel hP hc1 (by simp [hm1.1, hm1.2, hb1.1, hb1.2]) hr1).bind fun h h' hh => ?_
  obtain ⟨c2, sc⟩ := h
  obtain ⟨c2', sc'⟩ := h'
  obtain ⟨_, hc2, hsc⟩ := hh
  dsimp only at hc2 hsc
  simp only [hc2.1.params, hc2.2.params]
  refine (maskLast_rel _ hsc (by omega) _).bind fun sc2 sc2' hsc2 => ?_
  have hsz : privateKeySize f variantA = scalarLen f := by
    rw [privateKeySize, if_pos (by decide), if_neg (by decide), k4]; rfl
  refine (privImportT_rel (privA f c.secretBytes hc.1.secretBytes) (privA f c'.secretBytes hc.2.secretBytes) (by rw [hsz]; exact hsc2)).bind fun i i' hi => ?_
  obtain ⟨sk, oi⟩ := i
  obtain ⟨sk', oi'⟩ := i'
  obtain ⟨hsk, hsk', e, e'⟩ := hi
  dsimp only at hsk hsk' e e'
  subst e; subst e'
  refine Rel.seq rfl (rel_neg (by simp) (by simp) ?_)
  refine (generatePublicKeyT_rel hsk hsk' hpk).bind fun pkA pkA' hpkA => ?_
  refine (exportKeyT_rel hpkA hb (by omega)).bind fun b2 b2' hb2 => ?_
  rw [s3]
  refine (sliceTo_rel hb2 (by omega) _).bind fun x x' hx => ?_
  refine (sliceTo_rel hct (by rw [ctLen]; omega) _).bind fun y y' hy => ?_
  refine Rel.seq (by rw [hx.1, hx.2, hy.1, hy.2]) ?_
  refine (cpick_rel _ _ hm1 ⟨gS, gS'⟩ _).bind fun m2 m2' hm2 => ?_
  rw [k2]
  refine (sliceTo_rel hss hM _).bind fun s s' hs => ?_
  have hs1 := hsk.scalar
  have hs2 := hsk'.scalar
  rw [if_pos (by decide), k4] at hs1 hs2
  refine Rel.bind (hashT_rel hP (f := f) ?_ ?_ hs) fun _ _ _ => Rel.pureAny _ _
  · exact ⟨⟨hc2.1.allocated, rfl, hc2.1.msg, hs1, hc2.1.shake⟩, ⟨hc2.2.allocated, rfl, hc2.2.msg, hs2, hc2.2.shake⟩⟩
  · simp [hm2.1, hm2.2, hct.1, hct.2]

end Lemmas.SikeSteps
