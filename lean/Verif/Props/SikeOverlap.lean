import Verif.Lemmas.SikeOverlap
import Verif.Props.Sha3
/-!
C124: output slices that lie over input slices.  The model is `Verif/Model/SikeOverlap.lean`; the schemes `sike` and
`Mkem` are those of C53–C59.
-/
namespace Props.SikeOverlap
open Model Model.Sidh Model.Sha3 Model.Sike Model.Mkem Model.SikeOverlap Spec Spec.Sidh Spec.Sike Lemmas.Sike Lemmas.SikeOverlap Props.Sike Props.SidhKeys Props.SidhCurve Lemmas.SidhNat Lemmas.Sha3 Lemmas.SidhBytes
open Props.Mkem (MkemOf KeyPair)

variable {P : Plat} {f : Fld}

/-! ### specification -/

/-- `mem'` is `mem` with the bytes b written from position i on, all else as before. -/
structure Put (mem : List Byte) (i : Nat) (b mem' : List Byte) : Prop where
  length : mem'.length = mem.length
  inside : ∀ j, j < b.length → mem'[i + j]? = b[j]?
  outside : ∀ j, (j < i ∨ i + b.length ≤ j) → mem'[j]? = mem[j]?

/-- The slice lies within the memory. -/
def Within (mem : List Byte) (w : Part) : Prop := w.off + w.len ≤ mem.length

/-- What a slice holds. -/
def content (mem : List Byte) (w : Part) : List Byte := (mem.drop w.off).take w.len

/-! ### proofs -/

theorem put_wr {mem b : List Byte} {w : Part} (h : Within mem w) (hb : b.length ≤ w.len) : Put mem w.off b (wr mem w b) := by
  refine ⟨wr_length h hb, fun j hj => ?_, fun j hj => ?_⟩
  · rw [wr_get h hb, if_pos ⟨by omega, by omega⟩, Nat.add_sub_cancel_left]
  · rw [wr_get h hb, if_neg (by omega)]

/-- What is read back. -/
theorem put_content {mem mem' b : List Byte} {w : Part} (h : Within mem w) (hb : b.length ≤ w.len) (hp : Put mem w.off b mem') :
    content mem' w = b ++ (content mem w).drop b.length := by
  unfold Within at h
  apply List.ext_getElem?
  intro i
  have hl := hp.length
  by_cases hi : i < w.len
  · rw [content, List.getElem?_take_of_lt hi, List.getElem?_drop]
    by_cases hi' : i < b.length
    · rw [hp.inside i hi', List.getElem?_append_left hi']
    · rw [hp.outside _ (by omega), List.getElem?_append_right (by omega), List.getElem?_drop, content, List.getElem?_take_of_lt (by omega), List.getElem?_drop]
      congr 1; omega
  · rw [List.getElem?_eq_none, List.getElem?_eq_none]
    · simp only [content, List.length_append, List.length_drop, List.length_take]; omega
    · simp only [content, List.length_take]; omega

/-- C124. `ShakeSum128` and `ShakeSum256` write the digest of what the data slice held at the call, wherever the two slices
lie. -/
theorem c124_shakeSum (hP : Supported P) (mem : List Byte) (hash data : Part) (hh : Within mem hash) (_hd : Within mem data) :
    (∃ mem', SikeOverlap.shakeSum128 P mem hash data = some mem' ∧ Put mem hash.off (Spec.Keccak.shake128 (content mem data) hash.len) mem') ∧
    (∃ mem', SikeOverlap.shakeSum256 P mem hash data = some mem' ∧ Put mem hash.off (Spec.Keccak.shake256 (content mem data) hash.len) mem') := by
  obtain ⟨h1, h2⟩ := Props.Sha3.c11_shakeSum hP (rd mem hash) (rd mem data)
  rw [rd_length hh] at h1 h2
  have l1 : (Spec.Keccak.shake128 (content mem data) hash.len).length = hash.len := by simp [Spec.Keccak.shake128, Spec.Keccak.spongeBytes]
  have l2 : (Spec.Keccak.shake256 (content mem data) hash.len).length = hash.len := by simp [Spec.Keccak.shake256, Spec.Keccak.spongeBytes]
  constructor
  · refine ⟨_, ?_, put_wr hh (Nat.le_of_eq l1)⟩
    rw [Sha3.shakeSum128] at h1
    rw [SikeOverlap.shakeSum128]
    rcases hw : write P newShake128 (rd mem data) with _ | ⟨h, n, e⟩
    · rw [hw] at h1; cases h1
    · rw [hw] at h1
      simp only [Option.bind_eq_bind, Option.bind_some] at h1 ⊢
      rcases hr : read P h (rd mem hash) with _ | ⟨h', out, n'⟩
      · rw [hr] at h1; cases h1
      · rw [hr] at h1
        simp only [Option.bind_some] at h1 ⊢
        rw [Option.some.inj h1]; rfl
  · refine ⟨_, ?_, put_wr hh (Nat.le_of_eq l2)⟩
    rw [Sha3.shakeSum256] at h2
    rw [SikeOverlap.shakeSum256]
    rcases hw : write P newShake256 (rd mem data) with _ | ⟨h, n, e⟩
    · rw [hw] at h2; cases h2
    · rw [hw] at h2
      simp only [Option.bind_eq_bind, Option.bind_some] at h2 ⊢
      rcases hr : read P h (rd mem hash) with _ | ⟨h', out, n'⟩
      · rw [hr] at h2; cases h2
      · rw [hr] at h2
        simp only [Option.bind_some] at h2 ⊢
        rw [Option.some.inj h2]; rfl

/-- C124. `Decapsulate` writes the secret of the ciphertext and the private key as they were at the call, wherever the
slice for the secret, the ciphertext and the slices of the private key lie; nothing else is written. -/
theorem c124_decapsulate (hP : Supported P) {c : KEM} (hc : KemOf f c) (mem : List Byte) (secret ct : Part) (prv : Priv) (hprv : PrivOf f variantSike (prv.at mem))
    {pub : PublicKey} {X Y Z : Fq f} (hpub : PubOf f variantSike pub X Y Z) (hs : Within mem secret) (hct : Within mem ct) (ls : msgLen f ≤ secret.len)
    (lc : ct.len = ctLen f) : ∃ c' mem', SikeOverlap.decapsulate P c mem secret prv pub ct = some (c', mem', true) ∧ KemOf f c' ∧ c'.rng = c.rng ∧
      Put mem secret.off ((sike f).decaps (content mem prv.scalar) (content mem prv.S) (bytesOf f pub) (content mem ct)) mem' := by
  obtain ⟨c', h1, h2, h3⟩ := c54_decapsulate hP f c hc (prv.at mem) hprv pub X Y Z hpub (rd mem ct) (rd mem secret) (by rw [rd_length hct, lc]) (by rw [rd_length hs]; exact ls)
  have key := decaps_same (P := P) c mem secret prv pub ct hs hct
  rw [h3] at key
  rcases e : SikeOverlap.decapsulate P c mem secret prv pub ct with _ | ⟨c'', m, ok⟩
  · rw [e] at key; exact key.elim
  · rw [e] at key
    obtain ⟨rfl, rfl, hk⟩ := key
    obtain ⟨k, hk1, rfl⟩ := hk rfl
    have hsz : c'.params.kemSize = msgLen f := by rw [h1.params]; exact (kemParams f).2.1
    simp only [hsz] at hk1
    have hk2 := List.append_cancel_right hk1
    refine ⟨c', _, rfl, h1, h2, ?_⟩
    rw [show (sike f).decaps (content mem prv.scalar) (content mem prv.S) (bytesOf f pub) (content mem ct) = k from hk2]
    refine put_wr hs ?_
    rw [← hk2]
    refine Nat.le_trans (Nat.le_of_eq ?_) ls
    rw [Scheme.decaps]
    split <;> exact H_length _ _

/-- C124, for the multi-recipient KEM: what is written is the secret that separate slices with the same content give. -/
theorem c124_multi (hP : Supported P) {c : MultiKEM} (hc : MkemOf f c) (mem : List Byte) (secret ct : Part) (prv : Priv) (hprv : PrivOf f variantSike (prv.at mem))
    {pub : PublicKey} {X Y Z : Fq f} (hpub : PubOf f variantSike pub X Y Z) (hs : Within mem secret) (hct : Within mem ct) (ls : msgLen f ≤ secret.len)
    (lc : ct.len = msgLen f) : ∃ c' mem' k, SikeOverlap.multiDecapsulate P c mem secret prv pub ct = some (c', mem', true) ∧
      c.decapsulate P (content mem secret) ⟨prv.params, prv.variant, content mem prv.scalar, content mem prv.S⟩ pub (content mem ct) =
        some (c', k ++ (content mem secret).drop (msgLen f), true) ∧ k.length = msgLen f ∧ MkemOf f c' ∧ Put mem secret.off k mem' := by
  have hpub' : Pub f variantSike pub ⟨X, Y, Z⟩ := hpub
  obtain ⟨c', h3, h1, _⟩ := Props.Mkem.decaps_spec hP hc hprv hpub' (rd mem ct) (rd mem secret) (by rw [rd_length hct, lc]) (by rw [rd_length hs]; exact ls)
  have key := multi_same (P := P) c mem secret prv pub ct hs hct
  rw [h3] at key
  rcases e : SikeOverlap.multiDecapsulate P c mem secret prv pub ct with _ | ⟨c'', m, ok⟩
  · rw [e] at key; exact key.elim
  · rw [e] at key
    obtain ⟨rfl, rfl, hk⟩ := key
    obtain ⟨k, hk1, rfl⟩ := hk rfl
    have hsz : c'.kem.params.kemSize = msgLen f := by rw [h1.kem.params]; exact (kemParams f).2.1
    simp only [hsz] at hk1
    have hk2 := List.append_cancel_right hk1
    have hl : k.length = msgLen f := by rw [← hk2]; exact H_length _ _
    exact ⟨c', _, k, rfl, by rw [← hk2]; exact h3, hl, h1, put_wr hs (by omega)⟩

/-- C124. `Encapsulate`: the ciphertext is written, then the secret. -/
theorem c124_encapsulate (hP : Supported P) {c : KEM} (hc : KemOf f c) (mem : List Byte) (ct secret : Part) {pub : PublicKey} {X Y Z : Fq f}
    (hpub : PubOf f variantSike pub X Y Z) (hct : Within mem ct) (hs : Within mem secret) (lc : ct.len = ctLen f) (ls : msgLen f ≤ secret.len)
    (hr : msgLen f ≤ c.rng.length) : ∃ c' mem1 mem', SikeOverlap.encapsulate P c mem ct secret pub = some (c', mem', true) ∧ KemOf f c' ∧
      c'.rng = c.rng.drop (msgLen f) ∧ Put mem ct.off ((sike f).encaps (c.rng.take (msgLen f)) (bytesOf f pub)).1 mem1 ∧
      Put mem1 secret.off ((sike f).encaps (c.rng.take (msgLen f)) (bytesOf f pub)).2 mem' := by
  have hpub : Pub f variantSike pub ⟨X, Y, Z⟩ := hpub
  rw [bytesOf_eq hpub]
  generalize ht' : (⟨X, Y, Z⟩ : Tri (Fq f)) = t at hpub
  clear ht'
  obtain ⟨k1, k2, k3, k4, k5, k6, k7, k8, k9, k10, k11⟩ := kemParams f
  obtain ⟨s1, s2, s3, s4, s5, s6⟩ := sizes f
  obtain ⟨al, rng, msg, sb, pr, sh⟩ := c
  obtain ⟨h1, h2, hmsg, hsb, hsh⟩ := hc
  simp only at h1 h2 hmsg hsb hsh hr
  subst h1 h2
  have lc' : ¬ ct.len < (paramsOf f).ciphertextSize := by omega
  have ls' : ¬ secret.len < (paramsOf f).kemSize := by omega
  have hv : ¬ (variantSike ≠ pub.variant) := by rw [hpub.variant]; simp
  have ht : ¬ (true = false) := by decide
  have e0 : goCopy msg rng = rng.take (msgLen f) := by
    rw [goCopy, hmsg, List.drop_eq_nil_of_le (by rw [hmsg]; exact hr), List.append_nil]
  simp only [SikeOverlap.encapsulate, if_neg lc', if_neg ls', if_neg hv, if_neg ht, readFull, hmsg, Option.bind_eq_bind]
  rw [if_neg (by simp [hr]), e0]
  generalize hm : rng.take (msgLen f) = m
  have lm : m.length = msgLen f := by rw [← hm, List.length_take]; omega
  simp only [k6, newPublicKey_eq, Option.bind_some]
  rw [export_long hpub _ (by simp; omega)]
  simp only [Option.bind_some]
  rw [sliceTo, if_pos (by simp [enc3_length]; omega), List.take_left' (by rw [enc3_length]; omega)]
  simp only [Option.bind_some]
  obtain ⟨st1, e1, p1⟩ := hash_spec hP (c := ⟨true, rng.drop (msgLen f), m, sb, paramsOf f, sh⟩) hsh [m, enc3 t] sb
  rw [e1]
  simp only [Option.bind_some]
  rw [maskLast_spec _ _ (by rw [H_length, hsb, k5]; exact k10) (by rw [H_length, hsb, k5]; exact k11)]
  simp only [Option.bind_some, H_length, hsb, k5]
  have hco : leBytes (scalarLen f) (bval (H [m, enc3 t].flatten (scalarLen f)) % 2 ^ scalarBits f) = (sike f).coins m (enc3 t) := by
    simp only [List.flatten_cons, List.flatten_nil, List.append_nil]; rfl
  rw [hco, Scheme.encaps]
  simp only
  have lr := coins_length f m (enc3 t)
  generalize (sike f).coins m (enc3 t) = r at *
  change ∃ c' mem1 mem', (((ephemeral f r).generatePublicKey _).bind _) = _ ∧ _
  obtain ⟨pkA, e2, e3⟩ := gen_spec (privA f r lr) ⟨paramsOf f, variantA, ⟨zeroFp2 f.words, zeroFp2 f.words, zeroFp2 f.words⟩⟩ rfl rfl
  rw [e2]
  simp only [Option.bind_some]
  have lrd : (rd mem ct).length = ctLen f := by rw [rd_length hct, lc]
  obtain ⟨st2, e4, p2⟩ := generate_spec hP (c := ⟨true, rng.drop (msgLen f), m, r, paramsOf f, st1⟩) ⟨rfl, rfl, lm, lr, p1⟩ lr e3 hpub m (rd mem ct) lm (Nat.le_of_eq lrd.symm)
  rw [List.drop_eq_nil_of_le (as := rd mem ct) (Nat.le_of_eq lrd), List.append_nil] at e4
  have le := enc_length f lr (enc3 t) m lm
  generalize hct' : (sike f).enc r (enc3 t) m = E at *
  have hx : 6 * fieldBytes f ≤ ctLen f := by unfold ctLen; omega
  change ∃ c' mem1 mem', ((SikeOverlap.generateCiphertext P _ mem ct (ephemeral f r) _ _ _).bind _) = _ ∧ _
  rw [gen_mem hct (export_long e3 _ (by omega)) (by
    rw [List.length_append, enc3_length, List.length_drop, lrd]; omega), e4]
  simp only [Option.map_some, Option.bind_some]
  have q1 : In (wr mem ct E) secret := in_wr hct (by omega) hs
  rw [sliceTo, if_pos (by rw [rd_length q1]; omega), rd_wr hct (by omega)]
  simp only [Option.bind_some]
  obtain ⟨st3, e5, p3⟩ := hash_spec hP (c := ⟨true, rng.drop (msgLen f), m, r, paramsOf f, st2⟩) p2 [m, E] ((rd (wr mem ct E) secret).take (paramsOf f).kemSize)
  rw [e5]
  simp only [Option.bind_some]
  have lk : (H [m, E].flatten ((rd (wr mem ct E) secret).take (paramsOf f).kemSize).length).length = msgLen f := by
    rw [H_length, List.length_take, rd_length q1]; omega
  refine ⟨_, wr mem ct E, _, rfl, ⟨rfl, rfl, lm, lr, p3⟩, rfl, put_wr hct (by omega), ?_⟩
  have hkey : H [m, E].flatten ((rd (wr mem ct E) secret).take (paramsOf f).kemSize).length = (sike f).hash (m ++ E) (msgLen f) := by
    rw [List.length_take, rd_length q1, k2, Nat.min_eq_left ls]
    simp only [List.flatten_cons, List.flatten_nil, List.append_nil]; rfl
  have := put_wr (b := H [m, E].flatten ((rd (wr mem ct E) secret).take (paramsOf f).kemSize).length) q1 (by rw [lk]; exact ls)
  rw [hkey] at this ⊢
  exact this

theorem encaps_lengths (f : Fld) {m pk : List Byte} (hm : m.length = msgLen f) : ((sike f).encaps m pk).1.length = ctLen f ∧ ((sike f).encaps m pk).2.length = msgLen f := by
  rw [Scheme.encaps]
  exact ⟨enc_length f (coins_length f m pk) pk m hm, H_length _ _⟩

/-- C124. With slices that have no byte in common, the ciphertext slice holds the ciphertext and the secret slice begins
with the secret. -/
theorem c124_encapsulate_disjoint (hP : Supported P) {c : KEM} (hc : KemOf f c) (mem : List Byte) (ct secret : Part) {pub : PublicKey} {X Y Z : Fq f}
    (hpub : PubOf f variantSike pub X Y Z) (hct : Within mem ct) (hs : Within mem secret) (lc : ct.len = ctLen f) (ls : msgLen f ≤ secret.len)
    (hr : msgLen f ≤ c.rng.length) (hd : ct.off + ct.len ≤ secret.off ∨ secret.off + secret.len ≤ ct.off) :
    ∃ c' mem', SikeOverlap.encapsulate P c mem ct secret pub = some (c', mem', true) ∧
      content mem' ct = ((sike f).encaps (c.rng.take (msgLen f)) (bytesOf f pub)).1 ∧
      content mem' secret = ((sike f).encaps (c.rng.take (msgLen f)) (bytesOf f pub)).2 ++ (content mem secret).drop (msgLen f) := by
  obtain ⟨c', mem1, mem', h1, _, _, h2, h3⟩ := c124_encapsulate hP hc mem ct secret hpub hct hs lc ls hr
  obtain ⟨l1, l2⟩ := encaps_lengths f (m := c.rng.take (msgLen f)) (pk := bytesOf f pub) (by rw [List.length_take]; omega)
  have w1 : Within mem1 secret := by unfold Within at *; rw [h2.length]; exact hs
  have w2 : Within mem1 ct := by unfold Within at *; rw [h2.length]; exact hct
  have same : ∀ (m m' : List Byte) (w : Part), (∀ i, i < w.len → m'[w.off + i]? = m[w.off + i]?) → content m' w = content m w := by
    intro m m' w h
    apply List.ext_getElem?
    intro i
    rw [content, content, List.getElem?_take, List.getElem?_take, List.getElem?_drop, List.getElem?_drop]
    split
    · exact h i ‹_›
    · rfl
  refine ⟨c', mem', h1, ?_, ?_⟩
  · rw [same mem1 mem' ct (fun i hi => h3.outside _ (by omega)), put_content hct (by omega) h2, List.drop_eq_nil_of_le, List.append_nil]
    rw [content, List.length_take, List.length_drop]; unfold Within at hct; omega
  · rw [put_content w1 (by omega) h3, l2, same mem mem1 secret (fun i hi => h2.outside _ (by omega))]

/-- With slices that begin at the same byte, the buffer that is to be sent begins with the secret: `Encapsulate`, other
than `Decapsulate`, needs slices that are apart. -/
theorem c124_encapsulate_overlap (hP : Supported P) {c : KEM} (hc : KemOf f c) (mem : List Byte) (ct secret : Part) {pub : PublicKey} {X Y Z : Fq f}
    (hpub : PubOf f variantSike pub X Y Z) (hct : Within mem ct) (hs : Within mem secret) (lc : ct.len = ctLen f) (ls : msgLen f ≤ secret.len)
    (hr : msgLen f ≤ c.rng.length) (hd : secret.off = ct.off) :
    ∃ c' mem', SikeOverlap.encapsulate P c mem ct secret pub = some (c', mem', true) ∧
      content mem' ct = ((sike f).encaps (c.rng.take (msgLen f)) (bytesOf f pub)).2 ++ ((sike f).encaps (c.rng.take (msgLen f)) (bytesOf f pub)).1.drop (msgLen f) := by
  obtain ⟨c', mem1, mem', h1, _, _, h2, h3⟩ := c124_encapsulate hP hc mem ct secret hpub hct hs lc ls hr
  obtain ⟨l1, l2⟩ := encaps_lengths f (m := c.rng.take (msgLen f)) (pk := bytesOf f pub) (by rw [List.length_take]; omega)
  have w2 : Within mem1 ct := by unfold Within at *; rw [h2.length]; exact hct
  have hx : msgLen f ≤ ctLen f := by unfold ctLen; omega
  refine ⟨c', mem', h1, ?_⟩
  rw [hd] at h3
  rw [put_content w2 (by omega) h3, put_content hct (by omega) h2, l2, List.drop_eq_nil_of_le (as := content mem ct), List.append_nil]
  rw [content, List.length_take, List.length_drop]; unfold Within at hct; omega

/-- The hypotheses of the theorems can be met with slices over each other: the secret over the begin of the ciphertext, and
S of the private key behind it. -/
example (mem : List Byte) (hm : mem.length = 390) : Within mem ⟨0, 346⟩ ∧ Within mem ⟨0, 16⟩ ∧ (⟨0, 346⟩ : Part).len = ctLen .p434 ∧
    PrivOf .p434 variantSike (Priv.at ⟨paramsOf .p434, variantSike, ⟨362, 28⟩, ⟨346, 16⟩⟩ mem) := by
  refine ⟨by simp [Within, hm], by simp [Within, hm], rfl, rfl, rfl, ?_, ?_⟩
  · simp [Priv.at, rd, hm]; rfl
  · simp [Priv.at, rd, hm]; rfl

end Props.SikeOverlap
