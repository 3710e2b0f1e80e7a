import Verif.Model.Mkem
import Verif.Spec.Mkem
import Verif.Props.Sike
/-!
C58–C60: the multi-recipient KEM.  The model is `Verif/Model/Mkem.lean`, the specification `Verif/Spec/Mkem.lean` over the
primitives `Props.Sike.sike`.
-/
namespace Props.Mkem
open Model Model.Sidh Model.Sha3 Model.Sike Model.Mkem Spec Spec.Sidh Spec.Sike Spec.Sha3 Lemmas.Sha3 Lemmas.Sike Lemmas.SidhBytes Lemmas.SidhGood Lemmas.SidhNat
open Props.SidhFp2 Props.SidhKeys Props.SidhCurve Props.Sike

variable {P : Plat}

/-- An object allocated for field f, in whatever state earlier calls have left it. -/
structure MkemOf (f : Fld) (c : MultiKEM) : Prop where
  kem : KemOf f c.kem
  ct0 : c.ct0.length = maxPublicKeySz
  cts : ∀ x ∈ c.cts, x.length = maxMsgBsz
  j : c.j.length = maxSharedSecretBsz

theorem pk_fits (f : Fld) : 6 * fieldBytes f ≤ maxPublicKeySz := by cases f <;> decide

theorem mkem_new (f : Fld) (n : Nat) (rng : List Byte) (c : MultiKEM) (h0 : c.ct0.length = maxPublicKeySz) (hj : c.j.length = maxSharedSecretBsz) :
    ∃ c', c.allocate (idOf f) n rng = some c' ∧ MkemOf f c' ∧ c'.kem.rng = rng ∧ c'.cts.length = n ∧ c'.kem.msg = List.replicate (msgLen f) 0 ∧ c'.ct0 = c.ct0 := by
  obtain ⟨k1, k2, k3, k4, k5, k6, k7, k8, k9, k10, k11⟩ := kemParams f
  refine ⟨⟨⟨true, rng, List.replicate (paramsOf f).msgLen 0, List.replicate (paramsOf f).A.secretByteLen 0, paramsOf f, newShake256⟩, c.ct0,
    List.replicate n (List.replicate maxMsgBsz 0), c.j⟩, ?_, ⟨⟨rfl, rfl, by simp [k1], by simp [k4], rfl, rfl, rfl⟩, h0, ?_, hj⟩, rfl, by simp, by rw [k1], rfl⟩
  · rw [MultiKEM.allocate, Model.Sike.allocate, (c33_std 0).2.1]; rfl
  · intro x hx
    obtain ⟨_, rfl⟩ := List.mem_replicate.mp hx
    simp

theorem mcoins_length (f : Fld) (m : List Byte) : (Mkem.coins (sike f) m).length = scalarLen f := leBytes_length _ _

theorem hash_tag (f : Fld) (b : Byte) (x : List Byte) (n : Nat) : H [[b], x].flatten n = (sike f).hash (b :: x) n := by
  simp only [List.flatten_cons, List.flatten_nil, List.append_nil, List.singleton_append]; rfl

/-- One ciphertext. -/
theorem one_spec (hP : Supported P) {f : Fld} {c : MultiKEM} (hc : MkemOf f c) {r : List Byte} (hr : r.length = scalarLen f) {pkB : PublicKey}
    {t : Tri (Fq f)} (hB : Pub f variantSike pkB t) (i : Nat) :
    (c.cts.length ≤ i → c.encryptOne P (ephemeral f r) i pkB = none) ∧
    (i < c.cts.length → ∃ c' x, c.encryptOne P (ephemeral f r) i pkB = some c' ∧ MkemOf f c' ∧ c'.ct0 = c.ct0 ∧ c'.kem.msg = c.kem.msg ∧
      c'.kem.rng = c.kem.rng ∧ c'.cts = c.cts.set i x ∧ x.take (msgLen f) = Spec.Sike.xor c.kem.msg ((sike f).hash (2 :: (sike f).exA r (enc3 t)) (msgLen f))) := by
  obtain ⟨k1, k2, k3, k4, k5, k6, k7, k8, k9, k10, k11⟩ := kemParams f
  obtain ⟨s1, s2, s3, s4, s5, s6⟩ := sizes f
  obtain ⟨k, ct0, cts, j⟩ := c
  obtain ⟨hk, h0, hcts, hj⟩ := hc
  simp only at hk h0 hcts hj
  have hpar : (ephemeral f r).params = paramsOf f := rfl
  have hv : ¬ (variantSike ≠ pkB.variant) := by rw [hB.variant]; simp
  have hd := derive_spec (privA f r hr) hB (by decide) j (by rw [hj]; exact k9)
  simp only [MultiKEM.encryptOne, if_neg hv, hpar, k1, s1, hd, sb1]
  rw [sliceTo, if_pos (by simp [enc1_length]), List.take_left' (enc1_length _)]
  simp only [sb1]
  constructor
  · intro hi
    rw [List.getElem?_eq_none hi]
    rfl
  intro hi
  obtain ⟨x, hx⟩ : ∃ x, cts[i]? = some x := ⟨_, List.getElem?_eq_getElem hi⟩
  have lx := hcts x (List.mem_of_getElem? hx)
  rw [hx]
  simp only [sb1]
  rw [sliceTo, if_pos (by omega)]
  simp only [sb1]
  rw [show (variantA : W64).getLsbD 0 = true from rfl, show (ephemeral f r).scalar = r from rfl]
  obtain ⟨st, e1, e2⟩ := hash_spec hP hk.shake [g2, enc1 (exF f true r t)] (x.take (msgLen f))
  rw [e1]
  simp only [sb1]
  rw [sliceTo, if_pos (by rw [hk.msg]), List.take_of_length_le (by rw [hk.msg])]
  simp only [sb1]
  have lt : (x.take (msgLen f)).length = msgLen f := by simp; omega
  rw [lt, xorInto_spec _ _ _ (by rw [H_length, hk.msg])]
  have lz : (List.zipWith (· ^^^ ·) (H [g2, enc1 (exF f true r t)].flatten (msgLen f)) k.msg).length = msgLen f := by simp [H_length, hk.msg]
  refine ⟨_, _, rfl, ⟨⟨hk.allocated, hk.params, hk.msg, hk.secretBytes, e2⟩, h0, ?_, ?_⟩, rfl, rfl, rfl, rfl, ?_⟩
  · intro y hy
    rcases List.mem_or_eq_of_mem_set hy with h | h
    · exact hcts y h
    · rw [h, List.length_append, lz, List.length_drop]; omega
  · simp only [List.length_append, enc1_length, List.length_drop]; omega
  · rw [List.take_left' lz, exA_eq hr]
    rw [Props.Sike.xor_comm, g2, hash_tag f]

/-- All of them. -/
theorem all_spec (hP : Supported P) {f : Fld} {r : List Byte} (hr : r.length = scalarLen f) : ∀ (pubs : List PublicKey),
    (∀ p ∈ pubs, ∃ X Y Z, PubOf f variantSike p X Y Z) → ∀ (c : MultiKEM), MkemOf f c → ∀ i, i ≤ c.cts.length →
    (c.cts.length < i + pubs.length → c.encryptAll P (ephemeral f r) i pubs = none) ∧
    (i + pubs.length ≤ c.cts.length → ∃ c', c.encryptAll P (ephemeral f r) i pubs = some c' ∧ MkemOf f c' ∧ c'.ct0 = c.ct0 ∧ c'.kem.msg = c.kem.msg ∧
      c'.kem.rng = c.kem.rng ∧ c'.cts.length = c.cts.length ∧ (∀ k < i, c'.cts[k]? = c.cts[k]?) ∧
      ∀ k p, pubs[k]? = some p → ∃ x, c'.cts[i + k]? = some x ∧
        x.take (msgLen f) = Spec.Sike.xor c.kem.msg ((sike f).hash (2 :: (sike f).exA r (bytesOf f p)) (msgLen f)))
  | [], _, c, hc, i, hi => ⟨fun h => absurd h (by simp; omega), fun _ => ⟨c, rfl, hc, rfl, rfl, rfl, rfl, fun _ _ => rfl, fun k p h => by simp at h⟩⟩
  | pk :: pubs, hp, c, hc, i, hle => by
    obtain ⟨X, Y, Z, hX⟩ := hp pk List.mem_cons_self
    have hX : Pub f variantSike pk ⟨X, Y, Z⟩ := hX
    obtain ⟨o1, o2⟩ := one_spec hP hc hr hX i
    by_cases hi : i < c.cts.length
    · obtain ⟨c1, x, a1, a2, a3, a4, a5, a6, a7⟩ := o2 hi
      have l1 : c1.cts.length = c.cts.length := by rw [a6, List.length_set]
      obtain ⟨b1, b2⟩ := all_spec hP hr pubs (fun p h => hp p (List.mem_cons_of_mem _ h)) c1 a2 (i + 1) (by rw [a6, List.length_set]; omega)
      rw [l1] at b1 b2
      rw [MultiKEM.encryptAll, a1]
      simp only [sb1]
      constructor
      · intro h
        exact b1 (by simp at h; omega)
      · intro h
        obtain ⟨c', d1, d2, d3, d4, d5, d6, d7, d8⟩ := b2 (by simp at h; omega)
        refine ⟨c', d1, d2, d3.trans a3, d4.trans a4, d5.trans a5, d6, ?_, ?_⟩
        · intro k hk
          rw [d7 k (by omega), a6, List.getElem?_set_ne (by omega)]
        · intro k p hkp
          cases k with
          | zero =>
            simp only [List.getElem?_cons_zero, Option.some.injEq] at hkp
            subst hkp
            refine ⟨x, ?_, ?_⟩
            · rw [Nat.add_zero, d7 i (by omega), a6, List.getElem?_set_self hi]
            · rw [a7, bytesOf_eq hX]
          | succ k =>
            rw [List.getElem?_cons_succ] at hkp
            obtain ⟨y, y1, y2⟩ := d8 k p hkp
            rw [a4] at y2
            exact ⟨y, by rw [← y1]; congr 1; omega, y2⟩
    · rw [MultiKEM.encryptAll, o1 (by omega)]
      exact ⟨fun _ => rfl, fun h => by simp at h; omega⟩

/-- What `Encapsulate` does, in every state of the object. -/
theorem encaps_spec (hP : Supported P) {f : Fld} {c : MultiKEM} (hc : MkemOf f c) (pubs : List Model.Sidh.PublicKey)
    (hp : ∀ p ∈ pubs, ∃ X Y Z, PubOf f variantSike p X Y Z) (secret : List Byte) (hs : msgLen f ≤ secret.length) :
    (c.kem.rng.length < msgLen f → ∃ c', c.encapsulate P secret pubs = some (c', secret, false) ∧ MkemOf f c' ∧ c'.ct0 = c.ct0 ∧ c'.cts = c.cts) ∧
    (msgLen f ≤ c.kem.rng.length → c.cts.length < pubs.length → c.encapsulate P secret pubs = none) ∧
    (msgLen f ≤ c.kem.rng.length → pubs.length ≤ c.cts.length →
      let m := c.kem.rng.take (msgLen f)
      ∃ c', c.encapsulate P secret pubs = some (c', Mkem.key (sike f) m ++ secret.drop (msgLen f), true) ∧ MkemOf f c' ∧ c'.kem.msg = m ∧
        c'.kem.rng = c.kem.rng.drop (msgLen f) ∧ c'.ct0.take (6 * fieldBytes f) = Mkem.ct0 (sike f) m ∧ c'.cts.length = c.cts.length ∧
        ∀ (k : Nat) p, pubs[k]? = some p → ∃ x : List Byte, c'.cts[k]? = some x ∧ x.take (msgLen f) = Mkem.ct (sike f) m (bytesOf f p)) := by
  obtain ⟨k1, k2, k3, k4, k5, k6, k7, k8, k9, k10, k11⟩ := kemParams f
  obtain ⟨s1, s2, s3, s4, s5, s6⟩ := sizes f
  obtain ⟨⟨al, rng, msg, sb, pr, sh⟩, ct0, cts, j⟩ := c
  obtain ⟨⟨h1, h2, hmsg, hsb, hsh⟩, h0, hcts, hj⟩ := hc
  simp only at h1 h2 hmsg hsb hsh h0 hcts hj
  subst h1 h2
  have ls : ¬ secret.length < (paramsOf f).kemSize := by omega
  have ht : ¬ (true = false) := by decide
  simp only [MultiKEM.encapsulate, if_neg ls, if_neg ht, readFull, hmsg]
  constructor
  · intro hr
    rw [if_pos (by simpa using hr)]
    refine ⟨_, rfl, ⟨⟨rfl, rfl, ?_, hsb, hsh⟩, h0, hcts, hj⟩, rfl, rfl⟩
    simp only [goCopy, List.length_append, List.length_take, List.length_drop, hmsg]; omega
  rw [← imp_and]
  intro hr
  have e0 : goCopy msg rng = rng.take (msgLen f) := by
    rw [goCopy, hmsg, List.drop_eq_nil_of_le (by rw [hmsg]; exact hr), List.append_nil]
  rw [if_neg (by simp [hr]), e0]
  generalize hm : rng.take (msgLen f) = m
  have lm : m.length = msgLen f := by rw [← hm, List.length_take]; omega
  rw [k6, newPublicKey_eq]
  simp only [sb1]
  rw [sliceTo, if_pos (by rw [k1, lm]), List.take_of_length_le (by rw [k1, lm])]
  simp only [sb1]
  obtain ⟨st1, e1, p1⟩ := hash_spec hP (c := ⟨true, rng.drop (msgLen f), m, sb, paramsOf f, sh⟩) hsh [g1, m] sb
  rw [e1]
  simp only [sb1]
  rw [maskLast_spec _ _ (by rw [H_length, hsb, k5]; exact k10) (by rw [H_length, hsb, k5]; exact k11)]
  simp only [sb1, H_length, hsb, k5]
  have hco : leBytes (scalarLen f) (bval (H [g1, m].flatten (scalarLen f)) % 2 ^ scalarBits f) = Mkem.coins (sike f) m := by
    simp only [List.flatten_cons, List.flatten_nil, List.append_nil]; rfl
  rw [hco, Mkem.ct0]
  simp only [Mkem.ct]
  have lr := mcoins_length f m
  obtain ⟨r, hr'⟩ : ∃ r, Mkem.coins (sike f) m = r := ⟨_, rfl⟩
  rw [hr'] at lr ⊢
  obtain ⟨pkA, e2, e3⟩ := gen_spec (privA f r lr) ⟨paramsOf f, variantA, ⟨zeroFp2 f.words, zeroFp2 f.words, zeroFp2 f.words⟩⟩ rfl rfl
  change (_ → (((ephemeral f r).generatePublicKey _) >>= _) = none) ∧ (_ → ∃ c', (((ephemeral f r).generatePublicKey _) >>= _) = _ ∧ _)
  rw [e2]
  simp only [sb1]
  rw [export_long e3 _ (by rw [h0]; exact pk_fits f)]
  simp only [sb1]
  have l0 : (enc3 (genF f true r) ++ ct0.drop (6 * fieldBytes f)).length = maxPublicKeySz := by
    have := pk_fits f
    simp only [List.length_append, enc3_length, List.length_drop]; omega
  change (_ → (MultiKEM.encryptAll P ⟨_, enc3 (genF f true r) ++ ct0.drop (6 * fieldBytes f), _, _⟩ (ephemeral f r) 0 pubs >>= _) = none) ∧
    (_ → ∃ c', (MultiKEM.encryptAll P ⟨_, enc3 (genF f true r) ++ ct0.drop (6 * fieldBytes f), _, _⟩ (ephemeral f r) 0 pubs >>= _) = _ ∧ _)
  obtain ⟨a1, a2⟩ := all_spec hP lr pubs hp ⟨⟨true, rng.drop (msgLen f), m, r, paramsOf f, st1⟩, enc3 (genF f true r) ++ ct0.drop (6 * fieldBytes f), cts, j⟩
    ⟨⟨rfl, rfl, lm, lr, p1⟩, l0, hcts, hj⟩ 0 (Nat.zero_le _)
  constructor
  · intro hl
    rw [a1 (by simpa using hl)]
    rfl
  · intro hl
    obtain ⟨c1, b1, b2, b3, b4, b5, b6, b7, b8⟩ := a2 (by simpa using hl)
    rw [b1]
    simp only [sb1]
    obtain ⟨⟨al, rng', msg', sb', pr', sh'⟩, ct0', cts', j'⟩ := c1
    obtain ⟨⟨g1', g2', hmsg', hsb', hsh'⟩, h0', hcts', hj'⟩ := b2
    simp only at g1' g2' hmsg' hsb' hsh' h0' hcts' hj' b3 b4 b5 b6 b7 b8
    subst g1' g2' b3 b4 b5
    dsimp only
    rw [sliceTo, if_pos (by omega)]
    simp only [sb1]
    obtain ⟨st3, e5, p3⟩ := hash_spec hP (c := ⟨true, rng.drop (msgLen f), msg', sb', paramsOf f, sh'⟩) hsh' [g3, msg'] (secret.take (paramsOf f).kemSize)
    rw [e5]
    simp only [sb1, List.length_take, k2, Nat.min_eq_left hs, List.flatten_cons, List.flatten_nil, List.append_nil]
    refine ⟨_, rfl, ⟨⟨rfl, rfl, hmsg', hsb', p3⟩, h0', hcts', hj'⟩, rfl, rfl, ?_, b6, ?_⟩
    · rw [List.take_left' (enc3_length _)]
      exact (gen_eq f r lr).symm
    · intro k p hk
      obtain ⟨x, x1, x2⟩ := b8 k p hk
      exact ⟨x, by rw [← x1, Nat.zero_add], x2⟩

/-- What the code takes for the message of a recipient: that of the ciphertext if re-encryption gives the common part,
and encryption of the message *stored in the object* gives the recipient's part; else the secret value S. -/
def picked (f : Fld) (stored sk s pk c0 ct : List Byte) : List Byte :=
  let m := Mkem.dec (sike f) sk c0 ct
  if Mkem.ct0 (sike f) m = c0 ∧ ct = Spec.Sike.xor stored ((sike f).hash (2 :: (sike f).exA (Mkem.coins (sike f) m) pk) (msgLen f)) then m else s

/-- What `Decapsulate` does, in every state of the object. -/
theorem decaps_spec (hP : Supported P) {f : Fld} {c : MultiKEM} (hc : MkemOf f c) {prv : PrivateKey} (hprv : PrivOf f variantSike prv) {pub : PublicKey}
    {t : Tri (Fq f)} (hpub : Pub f variantSike pub t) (ct secret : List Byte) (hl : ct.length = msgLen f) (hs : msgLen f ≤ secret.length) :
    ∃ c', c.decapsulate P secret prv pub ct = some (c', Mkem.key (sike f)
        (picked f c.kem.msg prv.scalar prv.S (enc3 t) (c.ct0.take (6 * fieldBytes f)) ct) ++ secret.drop (msgLen f), true) ∧
      MkemOf f c' ∧ c'.kem.msg = c.kem.msg ∧ c'.kem.rng = c.kem.rng ∧ c'.ct0 = c.ct0 ∧ c'.cts = c.cts := by
  obtain ⟨k1, k2, k3, k4, k5, k6, k7, k8, k9, k10, k11⟩ := kemParams f
  obtain ⟨s1, s2, s3, s4, s5, s6⟩ := sizes f
  obtain ⟨⟨al, rng, msg, sb, pr, sh⟩, ct0, cts, j⟩ := c
  obtain ⟨⟨h1, h2, hmsg, hsb, hsh⟩, h0, hcts, hj⟩ := hc
  simp only at h1 h2 hmsg hsb hsh h0 hcts hj
  subst h1 h2
  obtain ⟨pp, pv, sk, S⟩ := prv
  have hprv' := hprv
  obtain ⟨q1, q2, q3, q4⟩ := hprv
  simp only at q1 q2 q3 q4
  subst q1 q2
  rw [if_neg (by decide)] at q3
  rw [if_pos (show variantSike = 6 from rfl), k1] at q4
  have pf := pk_fits f
  have lc : ¬ ct.length ≠ (paramsOf f).kemSize := by omega
  have ls : ¬ secret.length < (paramsOf f).kemSize := by omega
  have hv : ¬ (variantSike ≠ pub.variant) := by rw [hpub.variant]; simp
  have hv' : ¬ (pub.variant ≠ variantSike) := by rw [hpub.variant]; simp
  have ht : ¬ (true = false) := by decide
  rw [MultiKEM.decapsulate]
  rw [if_neg ht, if_neg hv, if_neg hv', if_neg ls, if_neg lc]
  dsimp only
  rw [k6, newPublicKey_eq]
  simp only [sb1]
  rw [sliceTo, s3, if_pos (by omega)]
  simp only [sb1]
  have l0 : (ct0.take (6 * fieldBytes f)).length = 6 * fieldBytes f := by simp; omega
  obtain ⟨c0, hc0⟩ : ∃ c0, ct0.take (6 * fieldBytes f) = c0 := ⟨_, rfl⟩
  rw [hc0] at l0 ⊢
  obtain ⟨kk, k', i1, i2, i3⟩ := import_new (f := f) variantA c0 l0
  rw [newPublicKey_eq, Option.some.injEq] at i1
  rw [i1, i2]
  simp only [sb1, if_neg ht]
  rw [derive_spec hprv' i3 (by decide) _ (by rw [hj]; exact k9)]
  simp only [sb1]
  rw [show (variantSike : W64).getLsbD 0 = false from rfl, sliceTo, s1, if_pos (by simp [enc1_length]), List.take_left' (enc1_length _)]
  simp only [sb1]
  rw [k1, sliceTo, if_pos (by simpa using k7), List.take_replicate, Nat.min_eq_left k7]
  simp only [sb1]
  obtain ⟨st1, e1, p1⟩ := hash_spec hP (c := ⟨true, rng, msg, sb, paramsOf f, sh⟩) hsh [g2, enc1 (exF f false sk (dec3 f c0))] (List.replicate (msgLen f) 0)
  rw [e1]
  simp only [sb1]
  rw [sliceTo, if_pos (by omega), List.take_of_length_le (by omega)]
  simp only [sb1]
  rw [xorInto_spec _ _ _ (by rw [H_length]; simp; omega)]
  simp only [sb1]
  have lB : ((sike f).exB sk c0).length = 2 * fieldBytes f := by rw [exB_eq q3 _ l0, enc1_length]
  rw [← exB_eq q3 _ l0, Props.Sike.xor_comm]
  have hdec : Spec.Sike.xor ct (H [g2, (sike f).exB sk c0].flatten (List.replicate (msgLen f) (0 : Byte)).length) = Mkem.dec (sike f) sk c0 ct := by
    simp only [List.flatten_cons, List.flatten_nil, List.append_nil, List.length_replicate]; rfl
  have lm : (Mkem.dec (sike f) sk c0 ct).length = msgLen f := by rw [← hdec, xor_length, H_length]; simp; omega
  rw [hdec, picked]
  obtain ⟨m, hm⟩ : ∃ m, Mkem.dec (sike f) sk c0 ct = m := ⟨_, rfl⟩
  rw [hm] at lm ⊢
  rw [k1, sliceTo, if_pos (by simp; omega), List.take_left' lm]
  simp only [sb1]
  obtain ⟨st2, e2, p2⟩ := hash_spec hP (c := ⟨true, rng, msg, sb, paramsOf f, st1⟩) p1 [g1, m] sb
  rw [e2]
  simp only [sb1]
  rw [maskLast_spec _ _ (by rw [H_length, hsb, k5]; exact k10) (by rw [H_length, hsb, k5]; exact k11)]
  simp only [sb1, H_length, hsb, k5]
  have hco : leBytes (scalarLen f) (bval (H [g1, m].flatten (scalarLen f)) % 2 ^ scalarBits f) = Mkem.coins (sike f) m := by
    simp only [List.flatten_cons, List.flatten_nil, List.append_nil]; rfl
  rw [hco, Mkem.ct0]
  have lr := mcoins_length f m
  obtain ⟨r, hr'⟩ : ∃ r, Mkem.coins (sike f) m = r := ⟨_, rfl⟩
  rw [hr'] at lr ⊢
  obtain ⟨pkA, e3, e4⟩ := gen_spec (privA f r lr) k' i3.params i3.variant
  change ∃ c', (((ephemeral f r).generatePublicKey _) >>= _) = _ ∧ _
  rw [e3]
  simp only [sb1]
  rw [s3, sliceTo, if_pos (by simpa using pf), List.take_replicate, Nat.min_eq_left pf]
  simp only [sb1]
  rw [export_long e4 _ (by simp), List.drop_eq_nil_of_le (by simp), List.append_nil]
  simp only [sb1]
  change ∃ c', (((ephemeral f r).deriveSecret _ _) >>= _) = _ ∧ _
  rw [derive_spec (privA f r lr) hpub (by decide) _ (by rw [List.length_append, lB]; omega)]
  simp only [sb1]
  rw [sliceTo, s1, if_pos (by simp [enc1_length]), List.take_left' (enc1_length _)]
  simp only [sb1]
  rw [sliceTo, if_pos (by rw [k1]; simpa using k7), List.take_replicate, k1, Nat.min_eq_left k7]
  simp only [sb1]
  rw [show (variantA : W64).getLsbD 0 = true from rfl, show (ephemeral f r).scalar = r from rfl]
  obtain ⟨st3, e5, p3⟩ := hash_spec hP (c := ⟨true, rng, msg, r, paramsOf f, st2⟩) p2 [g2, enc1 (exF f true r t)] (List.replicate (msgLen f) 0)
  rw [e5]
  simp only [sb1]
  rw [sliceTo, if_pos (by omega), List.take_of_length_le (by omega)]
  simp only [sb1]
  rw [xorInto_spec _ _ _ (by rw [H_length]; simp; omega)]
  simp only [sb1]
  rw [sliceTo, if_pos (by omega), List.take_of_length_le (by omega)]
  simp only [sb1]
  have lA : ((sike f).exA r (enc3 t)).length = 2 * fieldBytes f := by rw [exA_eq lr, enc1_length]
  rw [← exA_eq lr, Props.Sike.xor_comm]
  have hx : Spec.Sike.xor msg (H [g2, (sike f).exA r (enc3 t)].flatten (List.replicate (msgLen f) (0 : Byte)).length) =
      Spec.Sike.xor msg ((sike f).hash (2 :: (sike f).exA r (enc3 t)) (msgLen f)) := by
    simp only [List.flatten_cons, List.flatten_nil, List.append_nil, List.length_replicate]; rfl
  have lx : (Spec.Sike.xor msg (H [g2, (sike f).exA r (enc3 t)].flatten (List.replicate (msgLen f) (0 : Byte)).length)).length = msgLen f := by
    rw [xor_length, H_length]; simp; omega
  rw [hx] at lx ⊢
  obtain ⟨x, hx'⟩ : ∃ x, Spec.Sike.xor msg ((sike f).hash (2 :: (sike f).exA r (enc3 t)) (msgLen f)) = x := ⟨_, rfl⟩
  rw [hx'] at lx ⊢
  rw [sliceTo, if_pos (by simp; omega), List.take_left' lx]
  simp only [sb1]
  rw [k1, sliceTo, if_pos (by simp; omega), List.take_left' lm]
  simp only [sb1]
  have hpick : cpick (constantTimeCompare (enc3 (genF f true r)) c0 &&& constantTimeCompare ct x)
      (msgLen f) m S = some (if publicBytes f r = c0 ∧ ct = x then m else S) := by
    change cpick (constantTimeCompare (enc3 (genF f true r)) _ &&& _) _ _ _ = some (if publicBytes f r = c0 ∧ ct = x then _ else _)
    rw [gen_eq f r lr, constantTimeCompare, constantTimeCompare, ← lm]
    obtain ⟨g1, g2⟩ := c32_cpick m S (by omega)
    by_cases h1 : enc3 (genF f true r) = c0
    · by_cases h2 : ct = x
      · rw [if_pos h1, if_pos h2, if_pos ⟨h1, h2⟩]; exact g1
      · rw [if_pos h1, if_neg h2, if_neg (fun h => h2 h.2)]; exact g2
    · by_cases h2 : ct = x
      · rw [if_neg h1, if_pos h2, if_neg (fun h => h1 h.1)]; exact g2
      · rw [if_neg h1, if_neg h2, if_neg (fun h => h1 h.1)]; exact g2
  rw [hpick]
  simp only [sb1]
  rw [sliceTo, if_pos (by omega)]
  simp only [sb1]
  obtain ⟨st4, e6, p4⟩ := hash_spec hP (c := ⟨true, rng, msg, r, paramsOf f, st3⟩) p3
    [g3, if publicBytes f r = c0 ∧ ct = x then m else S] (secret.take (paramsOf f).kemSize)
  rw [e6]
  simp only [sb1, List.length_take, k2, Nat.min_eq_left hs, List.flatten_cons, List.flatten_nil, List.append_nil]
  refine ⟨_, rfl, ⟨⟨rfl, rfl, hmsg, lr, p4⟩, h0, hcts, ?_⟩, rfl, rfl, rfl, rfl⟩
  simp only [List.length_append, lA, lB, List.length_drop]; omega

/-- A key pair: the public key is what `GeneratePublicKey` makes, or any object holding the same points. -/
def KeyPair (f : Fld) (prv : PrivateKey) (pub : PublicKey) : Prop :=
  PrivOf f variantSike prv ∧ ∃ pub0 pub1 X Y Z, pub0.params = paramsOf f ∧ pub0.variant = variantSike ∧ prv.generatePublicKey pub0 = some pub1 ∧
    PubOf f variantSike pub1 X Y Z ∧ PubOf f variantSike pub X Y Z

theorem keyPair_pub {f : Fld} {prv : PrivateKey} {pub : PublicKey} (h : KeyPair f prv pub) : Pub f variantSike pub (genF f false prv.scalar) := by
  obtain ⟨h1, pub0, pub1, X, Y, Z, h2, h3, h4, h5, h6⟩ := h
  obtain ⟨pub', g1, g2⟩ := gen_spec h1 pub0 h2 h3
  rw [show (variantSike : W64).getLsbD 0 = false from rfl] at g2
  rw [h4, Option.some.injEq] at g1
  subst g1
  have e1 := isElt_unique h5.p g2.p
  have e2 := isElt_unique h5.q g2.q
  have e3 := isElt_unique h5.r g2.r
  exact ⟨h6.params, h6.variant, e1 ▸ h6.p, e2 ▸ h6.q, e3 ▸ h6.r⟩

/-- The shared values of the two sides agree. -/
theorem exchange_agree (f : Fld) (sk r : List Byte) (hsk : sk.length = (paramsOf f).B.secretByteLen) (hr : r.length = scalarLen f) :
    (sike f).exB sk ((sike f).gen r) = (sike f).exA r (enc3 (genF f false sk)) := by
  have l1 : ((sike f).gen r).length = 6 * fieldBytes f := by
    change (publicBytes f r).length = _; rw [gen_eq f r hr, enc3_length]
  rw [exB_eq hsk _ l1, exA_eq hr]
  have e3 : dec3 f ((sike f).gen r) = genF f true r := by
    change dec3 f (publicBytes f r) = _; rw [gen_eq f r hr, dec_enc]
  obtain ⟨k1, k2, k3, k4, k5, k6, k7, k8, k9, k10, k11⟩ := kemParams f
  rw [e3, ← agree_F f r sk (by rw [k5]; omega) (by rw [hsk]; exact (bits f).2)]

theorem dec_ct (f : Fld) (sk m : List Byte) (hsk : sk.length = (paramsOf f).B.secretByteLen) (hm : m.length = msgLen f) :
    Mkem.dec (sike f) sk (Mkem.ct0 (sike f) m) (Mkem.ct (sike f) m (enc3 (genF f false sk))) = m := by
  rw [Mkem.dec, Mkem.ct0, exchange_agree f sk _ hsk (mcoins_length f m), Mkem.ct]
  apply xor_cancel
  rw [hm]
  exact (H_length _ _).symm

theorem xor_inj {x y z : List Byte} (hx : x.length = z.length) (hy : y.length = z.length) (h : Spec.Sike.xor x z = Spec.Sike.xor y z) : x = y := by
  rw [← xor_cancel x z hx, h, xor_cancel y z hy]

/-- For a key pair and a ciphertext of message m: the message of the object decides. -/
theorem picked_honest (f : Fld) (stored sk s m : List Byte) (hsk : sk.length = (paramsOf f).B.secretByteLen) (hm : m.length = msgLen f)
    (hst : stored.length = msgLen f) :
    picked f stored sk s (enc3 (genF f false sk)) (Mkem.ct0 (sike f) m) (Mkem.ct (sike f) m (enc3 (genF f false sk))) = if stored = m then m else s := by
  rw [picked]
  simp only [dec_ct f sk m hsk hm, true_and]
  rw [Mkem.ct, show (sike f).msgLen = msgLen f from rfl]
  by_cases h : stored = m
  · subst h
    rw [if_pos rfl, if_pos rfl]
  · rw [if_neg h, if_neg]
    intro e
    apply h
    have l : ((sike f).hash (2 :: (sike f).exA (Mkem.coins (sike f) m) (enc3 (genF f false sk))) (msgLen f)).length = msgLen f := H_length _ _
    exact (xor_inj (by rw [hm, l]) (by rw [hst, l]) e).symm

/-! ### C58 -/

/-- Objects reached from c by decapsulations. -/
inductive Decapsulated (P : Plat) (f : Fld) (c : MultiKEM) : MultiKEM → Prop
  | refl : Decapsulated P f c c
  | step {d d' : MultiKEM} {secret ct s : List Byte} {prv : PrivateKey} {pub : PublicKey} {X Y Z : Fq f} {ok : Bool} : Decapsulated P f c d →
      PrivOf f variantSike prv → PubOf f variantSike pub X Y Z → d.decapsulate P secret prv pub ct = some (d', s, ok) → Decapsulated P f c d'

theorem decaps_lengths {c c' : MultiKEM} {f : Fld} (hc : MkemOf f c) {secret ct s : List Byte} {prv : PrivateKey} {pub : PublicKey} {ok : Bool}
    (h : c.decapsulate P secret prv pub ct = some (c', s, ok)) : ct.length = msgLen f ∧ msgLen f ≤ secret.length := by
  obtain ⟨k1, k2, k3, k4, k5, k6, k7, k8, k9, k10, k11⟩ := kemParams f
  rw [MultiKEM.decapsulate, hc.kem.params, k2] at h
  split at h
  · cases h
  split at h
  · cases h
  split at h
  · cases h
  split at h
  · cases h
  split at h
  · cases h
  constructor <;> omega

theorem decapsulated_inv (hP : Supported P) {f : Fld} {c d : MultiKEM} (hc : MkemOf f c) (h : Decapsulated P f c d) :
    MkemOf f d ∧ d.kem.msg = c.kem.msg ∧ d.ct0 = c.ct0 ∧ d.cts = c.cts := by
  induction h with
  | refl => exact ⟨hc, rfl, rfl, rfl⟩
  | step h1 h2 h3 h4 ih =>
    obtain ⟨i1, i2, i3, i4⟩ := ih
    obtain ⟨l1, l2⟩ := decaps_lengths i1 h4
    obtain ⟨c', a1, a2, a3, a4, a5, a6⟩ := decaps_spec hP i1 h2 (t := ⟨_, _, _⟩) h3 _ _ l1 l2
    rw [h4, Option.some.injEq, Prod.mk.injEq] at a1
    obtain ⟨rfl, _⟩ := a1
    exact ⟨a2, a3.trans i2, a5.trans i3, a6.trans i4⟩

/-- C58. For every list of key pairs (not longer than the object allows), all random bytes and every state of the object:
after `Encapsulate`, and after any number of decapsulations on the same object, `Decapsulate` with the i-th key pair and
the i-th ciphertext returns the secret `Encapsulate` returned. -/
theorem c58_correct (hP : Supported P) (f : Fld) (c : MultiKEM) (hc : MkemOf f c) (keys : List (PrivateKey × PublicKey))
    (hk : ∀ k ∈ keys, KeyPair f k.1 k.2) (hl : keys.length ≤ c.cts.length) (hr : msgLen f ≤ c.kem.rng.length)
    (secret : List Byte) (hs : msgLen f ≤ secret.length) :
    ∃ c' s, c.encapsulate P secret (keys.map (·.2)) = some (c', s, true) ∧ ∀ d, Decapsulated P f c' d →
      ∀ (i : Nat) prv pub, keys[i]? = some (prv, pub) → ∀ secret2 : List Byte, msgLen f ≤ secret2.length →
        ∃ x d' s2, d.cts[i]? = some x ∧ d.decapsulate P secret2 prv pub (x.take (msgLen f)) = some (d', s2, true) ∧
          s2.take (msgLen f) = s.take (msgLen f) := by
  have hp : ∀ p ∈ keys.map (·.2), ∃ X Y Z, PubOf f variantSike p X Y Z := by
    intro p hp
    obtain ⟨k, hk1, rfl⟩ := List.mem_map.mp hp
    exact ⟨_, _, _, keyPair_pub (hk k hk1)⟩
  obtain ⟨c', a1, a2, a3, a4, a5, a6, a7⟩ := (encaps_spec hP hc _ hp secret hs).2.2 hr (by simpa using hl)
  have lm : (c.kem.rng.take (msgLen f)).length = msgLen f := by simp; omega
  obtain ⟨m, hm⟩ : ∃ m, c.kem.rng.take (msgLen f) = m := ⟨_, rfl⟩
  simp only [hm] at a1 a3 a5 a7 lm
  refine ⟨c', _, a1, ?_⟩
  intro d hd i prv pub hi secret2 hs2
  obtain ⟨b1, b2, b3, b4⟩ := decapsulated_inv hP a2 hd
  have hkp := hk _ (List.mem_of_getElem? hi)
  have hpub := keyPair_pub hkp
  obtain ⟨x, x1, x2⟩ := a7 i pub (by rw [List.getElem?_map, hi]; rfl)
  rw [bytesOf_eq hpub] at x2
  have lx : (x.take (msgLen f)).length = msgLen f := by
    have := a2.cts x (List.mem_of_getElem? x1)
    have := (kemParams f).2.2.2.2.2.2.1
    simp; omega
  obtain ⟨d', e1, _⟩ := decaps_spec hP b1 hkp.1 hpub _ secret2 lx hs2
  refine ⟨x, d', _, by rw [b4]; exact x1, e1, ?_⟩
  have hsk := hkp.1.scalar
  rw [if_neg (by decide)] at hsk
  rw [x2, b2, b3, a3, a5, picked_honest f m _ _ m hsk lm lm, if_pos rfl]
  exact (List.take_left' (H_length _ _)).trans (List.take_left' (H_length _ _)).symm

/-- Non-vacuity of C58: a new object and the key pair of a new private key. -/
example (f : Fld) (n : Nat) (rng : List Byte) : ∃ c prv pub, MultiKEM.zero.allocate (idOf f) n rng = some c ∧ MkemOf f c ∧ c.cts.length = n ∧
    c.newPrivateKey = some prv ∧ KeyPair f prv pub := by
  obtain ⟨c, h1, h2, h3, h4, h5, h6⟩ := mkem_new f n rng MultiKEM.zero (by simp [MultiKEM.zero]) (by simp [MultiKEM.zero])
  obtain ⟨k0, g1, g2⟩ := c34_new f variantSike
  obtain ⟨pub, g3, g4⟩ := gen_spec g2 ⟨paramsOf f, variantSike, ⟨zeroFp2 f.words, zeroFp2 f.words, zeroFp2 f.words⟩⟩ rfl rfl
  refine ⟨c, k0, pub, h1, h2, h4, ?_, g2, _, _, _, _, _, rfl, rfl, g3, g4, g4⟩
  rw [MultiKEM.newPrivateKey, if_neg (by rw [h2.kem.allocated]; simp), h2.kem.params, (kemParams f).2.2.2.2.2.1]
  exact g1

/-- C58. For every ciphertext of the right length and in every state of the object, `Decapsulate` gives the key of the
specification when the message stored in the object is the one of the ciphertext. -/
theorem c58_spec (hP : Supported P) (f : Fld) (c : MultiKEM) (hc : MkemOf f c) (prv : PrivateKey) (hprv : PrivOf f variantSike prv) (pub : PublicKey)
    (X Y Z : Fq f) (hpub : PubOf f variantSike pub X Y Z) (ct secret : List Byte) (hl : ct.length = msgLen f) (hs : msgLen f ≤ secret.length)
    (hm : c.kem.msg = Mkem.dec (sike f) prv.scalar (c.ct0.take (6 * fieldBytes f)) ct) :
    ∃ c', c.decapsulate P secret prv pub ct =
      some (c', Mkem.decaps (sike f) prv.scalar prv.S (bytesOf f pub) (c.ct0.take (6 * fieldBytes f)) ct ++ secret.drop (msgLen f), true) := by
  have hpub : Pub f variantSike pub ⟨X, Y, Z⟩ := hpub
  obtain ⟨c', h, _⟩ := decaps_spec hP hc hprv hpub ct secret hl hs
  refine ⟨c', ?_⟩
  rw [h, bytesOf_eq hpub, hm]
  have key : Mkem.key (sike f) (picked f (Mkem.dec (sike f) prv.scalar (c.ct0.take (6 * fieldBytes f)) ct) prv.scalar prv.S (enc3 ⟨X, Y, Z⟩)
      (c.ct0.take (6 * fieldBytes f)) ct) = Mkem.decaps (sike f) prv.scalar prv.S (enc3 ⟨X, Y, Z⟩) (c.ct0.take (6 * fieldBytes f)) ct := by
    rw [Mkem.decaps, picked]
    by_cases ha : Mkem.Accepts (sike f) prv.scalar (enc3 ⟨X, Y, Z⟩) (c.ct0.take (6 * fieldBytes f)) ct
    · rw [if_pos ha, if_pos ⟨ha.1, ha.2.symm⟩]
    · rw [if_neg ha, if_neg fun h => ha ⟨h.1, h.2.symm⟩]
  rw [key]

/-! ### C59 -/

/-- C59, exactly what holds: a receiver with an own object, into which the common part of the ciphertext has been put,
gets the common key if the message stored in that object happens to be the sender's, and otherwise the key of S.
(The full claim, that the receiver gets the common key, is refuted by `c59_false`.) -/
theorem c59_receiver_partial (hP : Supported P) (f : Fld) (d : MultiKEM) (hd : MkemOf f d) (prv : PrivateKey) (pub : PublicKey) (hk : KeyPair f prv pub)
    (m : List Byte) (hm : m.length = msgLen f) (h0 : d.ct0.take (6 * fieldBytes f) = Mkem.ct0 (sike f) m) (secret : List Byte) (hs : msgLen f ≤ secret.length) :
    ∃ d' s, d.decapsulate P secret prv pub (Mkem.ct (sike f) m (bytesOf f pub)) = some (d', s, true) ∧
      s.take (msgLen f) = if d.kem.msg = m then Mkem.key (sike f) m else Mkem.key (sike f) prv.S := by
  have hpub := keyPair_pub hk
  have hsk := hk.1.scalar
  rw [if_neg (by decide)] at hsk
  have l : (Mkem.ct (sike f) m (bytesOf f pub)).length = msgLen f := by
    rw [Mkem.ct, xor_length, hm, show ((sike f).hash _ (sike f).msgLen).length = msgLen f from H_length _ _, Nat.min_self]
  obtain ⟨d', e, _⟩ := decaps_spec hP hd hk.1 hpub _ secret l hs
  refine ⟨d', _, e, ?_⟩
  rw [bytesOf_eq hpub, h0, picked_honest f _ _ _ m hsk hm hd.kem.msg]
  split
  · exact List.take_left' (H_length _ _)
  · exact List.take_left' (H_length _ _)

theorem key_ne : Keccak.shake256 (3 :: 1 :: List.replicate 15 0) 16 ≠ Keccak.shake256 (3 :: List.replicate 16 0) 16 := by
  have e : ∀ x, Keccak.shake256 x 16 = Spec.Keccak.spongeBytes Spec.Keccak.keccakF 136 0x1f x 0 16 := fun _ => rfl
  rw [e, e, sponge_eval (by simp [IsRate]) _ _ _ (by decide), sponge_eval (by simp [IsRate]) _ _ _ (by decide)]
  decide +kernel

/-- C59 is false of the code: a sender, and a receiver with a new object of its own that has got the common part of the
ciphertext.  With its part of the ciphertext the receiver gets another secret than the sender. -/
theorem c59_false : ∃ (sender receiver : MultiKEM) (prv : PrivateKey) (pub : PublicKey), KeyPair .p434 prv pub ∧
    MultiKEM.zero.allocate fp434 1 (1 :: List.replicate 15 0) = some sender ∧ MultiKEM.zero.allocate fp434 1 [] = some receiver ∧
    ∃ sender' s x receiver' s', sender.encapsulate platGeneric (List.replicate 16 0) [pub] = some (sender', s, true) ∧ sender'.cts[0]? = some x ∧
      MultiKEM.decapsulate platGeneric {receiver with ct0 := sender'.ct0} (List.replicate 16 0) prv pub (x.take 16) = some (receiver', s', true) ∧
      s ≠ s' := by
  obtain ⟨c, h1, h2, h3, h4, h5, h6⟩ := mkem_new .p434 1 (1 :: List.replicate 15 0) MultiKEM.zero (by simp [MultiKEM.zero]) (by simp [MultiKEM.zero])
  obtain ⟨d, i1, i2, i3, i4, i5, i6⟩ := mkem_new .p434 1 [] MultiKEM.zero (by simp [MultiKEM.zero]) (by simp [MultiKEM.zero])
  obtain ⟨k0, g1, g2⟩ := c34_new .p434 variantSike
  obtain ⟨pub, g3, g4⟩ := gen_spec g2 ⟨paramsOf .p434, variantSike, ⟨zeroFp2 Fld.p434.words, zeroFp2 Fld.p434.words, zeroFp2 Fld.p434.words⟩⟩ rfl rfl
  have hk : KeyPair .p434 k0 pub := ⟨g2, _, _, _, _, _, rfl, rfl, g3, g4, g4⟩
  obtain ⟨c', a1, a2, a3, a4, a5, a6, a7⟩ := (encaps_spec .generic h2 [pub] (by intro p hp; rw [List.mem_singleton.mp hp]; exact ⟨_, _, _, g4⟩)
    (List.replicate 16 0) (by decide)).2.2 (by rw [h3]; decide) (by simp [h4])
  obtain ⟨x, x1, x2⟩ := a7 0 pub rfl
  rw [h3] at a1 a5 x2
  have hm : List.take (msgLen .p434) ((1 : Byte) :: List.replicate 15 0) = 1 :: List.replicate 15 0 := by decide
  rw [hm] at a1 a5 x2
  obtain ⟨d', s', b1, b2⟩ := c59_receiver_partial .generic .p434 {d with ct0 := c'.ct0} ⟨i2.kem, a2.ct0, i2.cts, i2.j⟩ k0 pub hk
    (1 :: List.replicate 15 0) (by decide) a5 (List.replicate 16 0) (by decide)
  refine ⟨c, d, k0, pub, hk, h1, i1, c', _, x, d', s', a1, x1, ?_, ?_⟩
  · rw [← b1, ← x2]; rfl
  · intro e
    have hS : k0.S = List.replicate 16 0 := by
      have : newPrivateKey (idOf .p434) variantSike = some ⟨params434, variantSike, List.replicate 28 0, List.replicate 16 0⟩ := by rfl
      rw [g1, Option.some.injEq] at this
      rw [this]
    rw [← e, if_neg (by change d.kem.msg ≠ _; rw [i5]; decide), hS] at b2
    apply key_ne
    have l : (Mkem.key (sike .p434) (1 :: List.replicate 15 0)).length = msgLen .p434 := H_length _ _
    rw [List.take_left' l] at b2
    exact b2

/-! ### C60 -/

/-- C60. The common part depends only on the random bytes, and the i-th ciphertext only on them and the i-th public key. -/
theorem c60_independent (hP : Supported P) (f : Fld) (c : MultiKEM) (hc : MkemOf f c) (pubs : List PublicKey)
    (hp : ∀ p ∈ pubs, ∃ X Y Z, PubOf f variantSike p X Y Z) (hl : pubs.length ≤ c.cts.length) (hr : msgLen f ≤ c.kem.rng.length)
    (secret : List Byte) (hs : msgLen f ≤ secret.length) :
    ∃ c', c.encapsulate P secret pubs = some (c', Mkem.key (sike f) (c.kem.rng.take (msgLen f)) ++ secret.drop (msgLen f), true) ∧
      c'.ct0.take (6 * fieldBytes f) = Mkem.ct0 (sike f) (c.kem.rng.take (msgLen f)) ∧
      ∀ (i : Nat) p, pubs[i]? = some p → ∃ x : List Byte, c'.cts[i]? = some x ∧
        x.take (msgLen f) = Mkem.ct (sike f) (c.kem.rng.take (msgLen f)) (bytesOf f p) := by
  obtain ⟨c', a1, a2, a3, a4, a5, a6, a7⟩ := (encaps_spec hP hc pubs hp secret hs).2.2 hr hl
  exact ⟨c', a1, a5, a7⟩

/-- C58, C60. `Allocate` for n recipients makes an object the other theorems speak about (`MkemOf`), with room for exactly
n ciphertexts, whatever the object was used for before. -/
theorem c60_allocate (f : Fld) (n : Nat) (rng : List Byte) (c : MultiKEM) (h0 : c.ct0.length = maxPublicKeySz) (hj : c.j.length = maxSharedSecretBsz) :
    ∃ c', c.allocate (idOf f) n rng = some c' ∧ MkemOf f c' ∧ c'.kem.rng = rng ∧ c'.cts.length = n := by
  obtain ⟨c', h1, h2, h3, h4, _⟩ := mkem_new f n rng c h0 hj
  exact ⟨c', h1, h2, h3, h4⟩

example : MultiKEM.zero.ct0.length = maxPublicKeySz ∧ MultiKEM.zero.j.length = maxSharedSecretBsz := by simp [MultiKEM.zero]

/-- C60. A list longer than the number of recipients given to `Allocate` panics. -/
theorem c60_too_many (hP : Supported P) (f : Fld) (c : MultiKEM) (hc : MkemOf f c) (pubs : List PublicKey)
    (hp : ∀ p ∈ pubs, ∃ X Y Z, PubOf f variantSike p X Y Z) (hl : c.cts.length < pubs.length) (hr : msgLen f ≤ c.kem.rng.length)
    (secret : List Byte) (hs : msgLen f ≤ secret.length) : c.encapsulate P secret pubs = none :=
  (encaps_spec hP hc pubs hp secret hs).2.1 hr hl

/-- C60. `Encapsulate` reports the error of the random source, and then changes neither the secret buffer nor the
ciphertexts. -/
theorem c60_random_source (hP : Supported P) (f : Fld) (c : MultiKEM) (hc : MkemOf f c) (pubs : List PublicKey)
    (hp : ∀ p ∈ pubs, ∃ X Y Z, PubOf f variantSike p X Y Z) (hr : c.kem.rng.length < msgLen f) (secret : List Byte) (hs : msgLen f ≤ secret.length) :
    ∃ c', c.encapsulate P secret pubs = some (c', secret, false) ∧ c'.ct0 = c.ct0 ∧ c'.cts = c.cts := by
  obtain ⟨c', h1, _, h2⟩ := (encaps_spec hP hc pubs hp secret hs).1 hr
  exact ⟨c', h1, h2⟩

/-! ### C109 -/

/-- For a key pair the message stored in the object is the only one that can be accepted. -/
theorem picked_pair (f : Fld) (stored sk s c0 ct : List Byte) (hsk : sk.length = (paramsOf f).B.secretByteLen) (hst : stored.length = msgLen f) :
    picked f stored sk s (enc3 (genF f false sk)) c0 ct =
      if c0 = Mkem.ct0 (sike f) stored ∧ ct = Mkem.ct (sike f) stored (enc3 (genF f false sk)) then stored else s := by
  rw [picked]
  by_cases h : Mkem.ct0 (sike f) (Mkem.dec (sike f) sk c0 ct) = c0 ∧
      ct = Spec.Sike.xor stored ((sike f).hash (2 :: (sike f).exA (Mkem.coins (sike f) (Mkem.dec (sike f) sk c0 ct)) (enc3 (genF f false sk))) (msgLen f))
  · obtain ⟨h1, h2⟩ := h
    have e : Mkem.dec (sike f) sk c0 ct = stored := by
      rw [← exchange_agree f sk _ hsk (mcoins_length f _)] at h2
      change ct = Spec.Sike.xor stored ((sike f).hash (2 :: (sike f).exB sk (Mkem.ct0 (sike f) (Mkem.dec (sike f) sk c0 ct))) (msgLen f)) at h2
      rw [h1] at h2
      rw [Mkem.dec, h2]
      apply xor_cancel
      rw [hst]
      exact (H_length _ _).symm
    rw [e] at h1 h2 ⊢
    rw [if_pos ⟨h1, h2⟩, if_pos ⟨h1.symm, h2⟩]
  · rw [if_neg h, if_neg]
    rintro ⟨h1, h2⟩
    apply h
    have e : Mkem.dec (sike f) sk c0 ct = stored := by rw [h1, h2, dec_ct f sk stored hsk hst]
    rw [e]
    exact ⟨h1.symm, h2⟩

/-- C109. What `Decapsulate` returns for a key pair, for every content of the object and every ciphertext of the right length: the common key if both parts of the
ciphertext are those that the message of the object gives, else the key made from the secret value S. -/
theorem c109_decapsulate (hP : Supported P) (f : Fld) (d : MultiKEM) (hd : MkemOf f d) (prv : PrivateKey) (pub : PublicKey) (hk : KeyPair f prv pub)
    (ct secret : List Byte) (hl : ct.length = msgLen f) (hs : msgLen f ≤ secret.length) :
    ∃ d' s, d.decapsulate P secret prv pub ct = some (d', s, true) ∧ s.drop (msgLen f) = secret.drop (msgLen f) ∧
      s.take (msgLen f) = if d.ct0.take (6 * fieldBytes f) = Mkem.ct0 (sike f) d.kem.msg ∧ ct = Mkem.ct (sike f) d.kem.msg (bytesOf f pub)
        then Mkem.key (sike f) d.kem.msg else Mkem.key (sike f) prv.S := by
  have hpub := keyPair_pub hk
  have hsk := hk.1.scalar
  rw [if_neg (by decide)] at hsk
  obtain ⟨d', e, _⟩ := decaps_spec hP hd hk.1 hpub ct secret hl hs
  have lk : ∀ x, (Mkem.key (sike f) x).length = msgLen f := fun x => H_length _ _
  refine ⟨d', _, e, List.drop_left' (lk _), ?_⟩
  rw [List.take_left' (lk _), picked_pair f _ _ _ _ _ hsk hd.kem.msg, bytesOf_eq hpub]
  split <;> rfl

/-- C109. After `Encapsulate`, and after any number of decapsulations on the same object, each recipient has exactly one good ciphertext, the one made for it.
It gives the common secret; every other string of this length, as the ciphertext of another recipient or a damaged one, gives the key made from the
secret value S of the private key, the same for all of them. -/
theorem c109_reject (hP : Supported P) (f : Fld) (c : MultiKEM) (hc : MkemOf f c) (keys : List (PrivateKey × PublicKey))
    (hk : ∀ k ∈ keys, KeyPair f k.1 k.2) (hl : keys.length ≤ c.cts.length) (hr : msgLen f ≤ c.kem.rng.length)
    (secret : List Byte) (hs : msgLen f ≤ secret.length) :
    ∃ c' s, c.encapsulate P secret (keys.map (·.2)) = some (c', s, true) ∧ ∀ d, Decapsulated P f c' d →
      ∀ (i : Nat) prv pub, keys[i]? = some (prv, pub) → ∃ x, d.cts[i]? = some x ∧ ∀ ct secret2 : List Byte, ct.length = msgLen f → msgLen f ≤ secret2.length →
        ∃ d' s2, d.decapsulate P secret2 prv pub ct = some (d', s2, true) ∧ s2.drop (msgLen f) = secret2.drop (msgLen f) ∧
          s2.take (msgLen f) = if ct = x.take (msgLen f) then s.take (msgLen f) else Keccak.shake256 (3 :: prv.S) (msgLen f) := by
  have hp : ∀ p ∈ keys.map (·.2), ∃ X Y Z, PubOf f variantSike p X Y Z := by
    intro p hp
    obtain ⟨k, hk1, rfl⟩ := List.mem_map.mp hp
    exact ⟨_, _, _, keyPair_pub (hk k hk1)⟩
  obtain ⟨c', a1, a2, a3, a4, a5, a6, a7⟩ := (encaps_spec hP hc _ hp secret hs).2.2 hr (by simpa using hl)
  refine ⟨c', _, a1, ?_⟩
  intro d hd i prv pub hi
  obtain ⟨i1, i2, i3, i4⟩ := decapsulated_inv hP a2 hd
  obtain ⟨x, x1, x2⟩ := a7 i pub (by rw [List.getElem?_map, hi]; rfl)
  refine ⟨x, by rw [i4]; exact x1, ?_⟩
  intro ct secret2 hct hs2
  obtain ⟨d', s2, e1, e2, e3⟩ := c109_decapsulate hP f d i1 prv pub (hk _ (List.mem_of_getElem? hi)) ct secret2 hct hs2
  refine ⟨d', s2, e1, e2, ?_⟩
  rw [e3, i2, a3, i3, a5, x2]
  have lk : ∀ x, (Mkem.key (sike f) x).length = msgLen f := fun x => H_length _ _
  rw [List.take_left' (lk _)]
  simp only [true_and]
  rfl

/-- The secret for a wrong ciphertext and the common one are different in a case: S is zero and the first random byte is 1 (the second part of `c59_false`). -/
example : Mkem.key (sike .p434) (1 :: List.replicate 15 0) ≠ Mkem.key (sike .p434) (List.replicate 16 0) := key_ne

end Props.Mkem
