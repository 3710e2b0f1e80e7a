import Verif.Props.Mkem
import Verif.Model.MkemSteps
import Verif.Lemmas.SikeSteps
/-! Helper lemmas: two runs of `MultiKEM` see the same. -/
namespace Lemmas.MkemSteps
open Model Model.Sidh Model.Sidh.Tr Model.Sha3 Model.Sike Model.Mkem Spec Spec.Sidh Lemmas.SidhSteps Lemmas.SikeSteps Lemmas.SidhBytes Lemmas.SidhGood Lemmas.Sike Lemmas.Sha3
open Props.SidhFp2 Props.SidhKeys Props.SidhCurve Props.Sike Props.Mkem

/-! ### The results are those of the model -/

theorem encryptOneT_val (P : Plat) (c : MultiKEM) (sk : PrivateKey) (i : Nat) (pk : PublicKey) : (c.encryptOneT P sk i pk).1 = c.encryptOne P sk i pk := by
  rw [MultiKEM.encryptOneT, MultiKEM.encryptOne, val_bind, val_tell, Option.bind_some]
  split
  · rfl
  simp only [val_bind, val_lift, val_pure, hashT_val, deriveSecretT_val]
  rfl

theorem encryptAllT_val (P : Plat) (sk : PrivateKey) : ∀ (l : List PublicKey) (c : MultiKEM) (i : Nat), (c.encryptAllT P sk i l).1 = c.encryptAll P sk i l
  | [], c, i => rfl
  | pk :: l, c, i => by
    rw [MultiKEM.encryptAllT, MultiKEM.encryptAll, val_bind, val_tell, Option.bind_some, val_bind, encryptOneT_val]
    change _ = Option.bind _ _
    congr 1; funext c
    exact encryptAllT_val P sk l c (i + 1)

theorem encapsulateT_val (P : Plat) (c : MultiKEM) (ss : List Byte) (pub : List PublicKey) : (c.encapsulateT P ss pub).1 = c.encapsulate P ss pub := by
  rw [MultiKEM.encapsulateT, MultiKEM.encapsulate, val_bind, val_tell, Option.bind_some]
  split
  · rfl
  rw [val_bind, val_tell, Option.bind_some]
  split
  · rfl
  dsimp only
  rw [val_bind, val_tell, Option.bind_some]
  split
  · rfl
  simp only [val_bind, val_lift, val_pure, hashT_val, generatePublicKeyT_val, exportKeyT_val, encryptAllT_val]
  change _ = Option.bind _ _
  congr 1

theorem decapsulateT_val (P : Plat) (c : MultiKEM) (ss : List Byte) (prv : PrivateKey) (pub : PublicKey) (ct : List Byte) :
    (c.decapsulateT P ss prv pub ct).1 = c.decapsulate P ss prv pub ct := by
  rw [MultiKEM.decapsulateT, MultiKEM.decapsulate, val_bind, val_tell, Option.bind_some]
  split
  · rfl
  rw [val_bind, val_tell, Option.bind_some]
  split
  · rfl
  rw [val_bind, val_tell, Option.bind_some]
  split
  · rfl
  rw [val_bind, val_tell, Option.bind_some]
  split
  · rfl
  rw [val_bind, val_tell, Option.bind_some]
  split
  · rfl
  simp only [val_bind, val_lift, val_tell, Option.bind_some, importKeyT_val]
  change _ = Option.bind _ _
  congr 1; funext pkA
  change _ = Option.bind _ _
  congr 1; funext ct0
  change _ = Option.bind _ _
  congr 1; funext i
  obtain ⟨pk, ok⟩ := i
  dsimp only
  split
  · rfl
  rw [val_bind, deriveSecretT_val]
  change _ = Option.bind _ _
  congr 1; funext x0
  rw [val_bind, val_lift]
  change _ = Option.bind _ _
  congr 1; funext x1
  rw [val_bind, val_lift]
  change _ = Option.bind _ _
  congr 1; funext x2
  rw [val_bind, hashT_val]
  change _ = Option.bind _ _
  congr 1; funext x3
  rw [val_bind, val_lift]
  change _ = Option.bind _ _
  congr 1; funext x4
  rw [val_bind, val_lift]
  change _ = Option.bind _ _
  congr 1; funext x5
  rw [val_bind, val_lift]
  change _ = Option.bind _ _
  congr 1; funext x6
  rw [val_bind, hashT_val]
  change _ = Option.bind _ _
  congr 1; funext x7
  rw [val_bind, val_lift]
  change _ = Option.bind _ _
  congr 1; funext x8
  rw [val_bind, generatePublicKeyT_val]
  change _ = Option.bind _ _
  congr 1; funext x9
  rw [val_bind, val_lift]
  change _ = Option.bind _ _
  congr 1; funext x10
  rw [val_bind, exportKeyT_val]
  change _ = Option.bind _ _
  congr 1; funext x11
  rw [val_bind, deriveSecretT_val]
  change _ = Option.bind _ _
  congr 1; funext x12
  rw [val_bind, val_lift]
  change _ = Option.bind _ _
  congr 1; funext x13
  rw [val_bind, val_lift]
  change _ = Option.bind _ _
  congr 1; funext x14
  rw [val_bind, hashT_val]
  change _ = Option.bind _ _
  congr 1; funext x15
  rw [val_bind, val_lift]
  change _ = Option.bind _ _
  congr 1; funext x16
  rw [val_bind, val_lift]
  change _ = Option.bind _ _
  congr 1; funext x17
  rw [val_bind, val_lift]
  change _ = Option.bind _ _
  congr 1; funext x18
  rw [val_bind, val_lift]
  change _ = Option.bind _ _
  congr 1; funext x19
  rw [val_bind, val_tell, Option.bind_some]
  rw [val_bind, val_lift]
  change _ = Option.bind _ _
  congr 1; funext x21
  rw [val_bind, val_lift]
  change _ = Option.bind _ _
  congr 1; funext x22
  rw [val_bind, val_lift]
  change _ = Option.bind _ _
  congr 1; funext x23
  rw [val_bind, hashT_val]
  change _ = Option.bind _ _
  congr 1

/-! ### Two runs -/

variable {f : Fld} {P : Plat}

/-- Two objects for field f, with room for n recipients. -/
def Mkems (f : Fld) (n : Nat) (c c' : MultiKEM) : Prop := (MkemOf f c ∧ c.cts.length = n) ∧ MkemOf f c' ∧ c'.cts.length = n

theorem encryptOneT_rel (hP : Supported P) {n : Nat} {c c' : MultiKEM} (hc : Mkems f n c c') {sk sk' : PrivateKey} (hk : PrivOf f variantA sk)
    (hk' : PrivOf f variantA sk') {i : Nat} (hi : i < n) {p p' : PublicKey} (hp : Pubs f variantSike p p') :
    Rel (Mkems f n) (c.encryptOneT P sk i p) (c'.encryptOneT P sk' i p') := by
  obtain ⟨k1, k2, k3, k4, k5, k6, k7, k8, k9, k10, k11⟩ := kemParams f
  obtain ⟨s1, s2, s3, s4, s5, s6⟩ := sizes f
  obtain ⟨⟨hc, hn⟩, hc', hn'⟩ := hc
  simp only [MultiKEM.encryptOneT, hk.params, hk'.params, k1, s1, hp.1.2, hp.2.2]
  refine Rel.seq rfl (rel_neg (by simp) (by simp) ?_)
  refine (deriveSecretT_rel (by decide) hk hk' hp (N := maxSharedSecretBsz) ⟨hc.j, hc'.j⟩ k9).bind fun j j' hj => ?_
  refine (sliceTo_rel hj k9 _).bind fun j1 j1' hj1 => ?_
  refine (Rel.lift (R := Len maxMsgBsz) rfl (List.getElem?_eq_getElem (by omega)) (List.getElem?_eq_getElem (by omega))
    ⟨hc.cts _ (List.getElem_mem _), hc'.cts _ (List.getElem_mem _)⟩).bind fun ct ct' hct => ?_
  refine (sliceTo_rel hct k7 _).bind fun ct1 ct1' hct1 => ?_
  refine (hashT_rel hP ⟨hc.kem, hc'.kem⟩ (by simp [hj1.1, hj1.2, g2]) hct1).bind fun h h' hh => ?_
  refine (sliceTo_rel ⟨hh.2.1.1.msg, hh.2.1.2.msg⟩ (le_refl _) _).bind fun m m' hm => ?_
  have a1 := hct.1
  have a2 := hct.2
  refine (xorInto_rel (N := maxMsgBsz) ⟨by simp [hh.2.2.1, a1]; omega, by simp [hh.2.2.2, a2]; omega⟩ hm k7 _).bind fun x x' hx => ?_
  refine Rel.pure ⟨⟨⟨hh.2.1.1, hc.ct0, ?_, hj.1⟩, by simp [hn]⟩, ⟨hh.2.1.2, hc'.ct0, ?_, hj.2⟩, by simp [hn']⟩
  · intro y hy
    rcases List.mem_or_eq_of_mem_set hy with h | h
    · exact hc.cts y h
    · rw [h]; exact hx.1
  · intro y hy
    rcases List.mem_or_eq_of_mem_set hy with h | h
    · exact hc'.cts y h
    · rw [h]; exact hx.2

theorem encryptAllT_rel (hP : Supported P) {n : Nat} {sk sk' : PrivateKey} (hk : PrivOf f variantA sk) (hk' : PrivOf f variantA sk') :
    ∀ (l l' : List PublicKey), l'.length = l.length → (∀ p ∈ l, PubAny f variantSike p) → (∀ p ∈ l', PubAny f variantSike p) → ∀ (i : Nat), i + l.length ≤ n →
    ∀ {c c' : MultiKEM}, Mkems f n c c' → Rel (Mkems f n) (c.encryptAllT P sk i l) (c'.encryptAllT P sk' i l')
  | [], [], _, _, _, i, _, c, c', hc => Rel.seq rfl (Rel.pure hc)
  | [], _ :: _, h, _, _, _, _, _, _, _ => by simp at h
  | _ :: _, [], h, _, _, _, _, _, _, _ => by simp at h
  | p :: l, p' :: l', h, hl, hl', i, hi, c, c', hc => by
    refine Rel.seq rfl ?_
    have hi : i + (l.length + 1) ≤ n := hi
    refine (encryptOneT_rel hP hc hk hk' (by omega) ⟨hl p List.mem_cons_self, hl' p' List.mem_cons_self⟩).bind fun d d' hd => ?_
    exact encryptAllT_rel hP hk hk' l l' (by simpa using h) (fun q hq => hl q (List.mem_cons_of_mem _ hq)) (fun q hq => hl' q (List.mem_cons_of_mem _ hq)) (i + 1) (by omega) hd

theorem encapsulateT_rel (hP : Supported P) {n : Nat} {c c' : MultiKEM} (hc : Mkems f n c c') (hr : c.kem.rng.length = c'.kem.rng.length) {ss ss' : List Byte} {M : Nat}
    (hss : Len M ss ss') (hM : msgLen f ≤ M) {l l' : List PublicKey} (hl : l'.length = l.length) (hp : ∀ p ∈ l, PubAny f variantSike p) (hp' : ∀ p ∈ l', PubAny f variantSike p)
    (hn : l.length ≤ n) : Rel Any (c.encapsulateT P ss l) (c'.encapsulateT P ss' l') := by
  obtain ⟨k1, k2, k3, k4, k5, k6, k7, k8, k9, k10, k11⟩ := kemParams f
  obtain ⟨s1, s2, s3, s4, s5, s6⟩ := sizes f
  obtain ⟨⟨hc, hn1⟩, hc', hn1'⟩ := hc
  simp only [MultiKEM.encapsulateT, hc.kem.allocated, hc'.kem.allocated, hc.kem.params, hc'.kem.params, k1, k2, k6, hss.1, hss.2,
    hc.kem.msg, hc'.kem.msg, readFull, hr]
  refine Rel.seq rfl (rel_neg (by simp) (by simp) ?_)
  refine Rel.seq rfl (rel_neg (by omega) (by omega) ?_)
  refine Rel.seq rfl ?_
  by_cases hb : decide (msgLen f ≤ c'.kem.rng.length) = false
  · rw [if_pos hb]
    rw [if_pos hb]; exact Rel.pureAny _ _
  refine rel_neg hb hb ?_
  have hb' : msgLen f ≤ c'.kem.rng.length := by simpa using hb
  have hm : (goCopy c.kem.msg c.kem.rng).length = msgLen f := by simp [goCopy, hc.kem.msg]; omega
  have hm' : (goCopy c'.kem.msg c'.kem.rng).length = msgLen f := by simp [goCopy, hc'.kem.msg]; omega
  refine (newPublicKey_rel f variantA _).bind fun pk pk' hpk => ?_
  refine (sliceTo_rel ⟨hm, hm'⟩ (le_refl _) _).bind fun m1 m1' hm1 => ?_
  refine Rel.bind (hashT_rel hP (f := f) ?_ ?_ ⟨hc.kem.secretBytes, hc'.kem.secretBytes⟩) fun h h' hh => ?_
  · exact ⟨⟨rfl, rfl, hm, hc.kem.secretBytes, hc.kem.shake⟩, ⟨rfl, rfl, hm', hc'.kem.secretBytes, hc'.kem.shake⟩⟩
  · simp [hm1.1, hm1.2, g1]
  obtain ⟨hc1, sc⟩ := h
  obtain ⟨hc1', sc'⟩ := h'
  obtain ⟨-, hk1, hsc⟩ := hh
  dsimp only at hk1 hsc
  simp only [hk1.1.params, hk1.2.params]
  refine (maskLast_rel _ hsc (by omega) _).bind fun sc2 sc2' hsc2 => ?_
  refine (generatePublicKeyT_rel (privA f sc2 hsc2.1) (privA f sc2' hsc2.2) hpk).bind fun pkA pkA' hpkA => ?_
  refine (exportKeyT_rel hpkA (N := maxPublicKeySz) ⟨hc.ct0, hc'.ct0⟩ (pk_fits f)).bind fun ct0 ct0' hct0 => ?_
  refine Rel.bind (encryptAllT_rel hP (f := f) (n := n) (privA f sc2 hsc2.1) (privA f sc2' hsc2.2) l l' hl hp hp' 0 (by omega) ?_) fun d d' hd => ?_
  · exact ⟨⟨⟨⟨hk1.1.allocated, rfl, hk1.1.msg, hsc2.1, hk1.1.shake⟩, hct0.1, hc.cts, hc.j⟩, hn1⟩,
      ⟨⟨hk1.2.allocated, rfl, hk1.2.msg, hsc2.2, hk1.2.shake⟩, hct0.2, hc'.cts, hc'.j⟩, hn1'⟩
  obtain ⟨⟨hd, -⟩, hd', -⟩ := hd
  simp only [hd.kem.params, hd'.kem.params, k2]
  refine (sliceTo_rel hss hM _).bind fun s s' hs => ?_
  refine (hashT_rel hP ⟨hd.kem, hd'.kem⟩ (by simp [hd.kem.msg, hd'.kem.msg]) hs).bind fun _ _ _ => Rel.pureAny _ _

theorem decapsulateT_rel (hP : Supported P) {c c' : MultiKEM} (hc : MkemOf f c) (hc' : MkemOf f c') {ct ct' ss ss' : List Byte} {M : Nat}
    (hct : Len (msgLen f) ct ct') (hss : Len M ss ss') {p p' : PublicKey} (hp : Pubs f variantSike p p') {k k' : PrivateKey}
    (hk : PrivOf f variantSike k) (hk' : PrivOf f variantSike k') (hM : msgLen f ≤ M) :
    Rel Any (c.decapsulateT P ss k p ct) (c'.decapsulateT P ss' k' p' ct') := by
  obtain ⟨k1, k2, k3, k4, k5, k6, k7, k8, k9, k10, k11⟩ := kemParams f
  obtain ⟨s1, s2, s3, s4, s5, s6⟩ := sizes f
  have pf := pk_fits f
  have gS := hk.S
  have gS' := hk'.S
  rw [if_pos (show variantSike = 6 from rfl), k1] at gS gS'
  simp only [MultiKEM.decapsulateT, hc.kem.allocated, hc'.kem.allocated, hc.kem.params, hc'.kem.params, hp.1.2, hp.2.2, hk.variant, hk'.variant,
    hk.params, hk'.params, k1, k2, k6, s1, s3, hct.1, hct.2, hss.1, hss.2]
  refine Rel.seq rfl (rel_neg (by simp) (by simp) ?_)
  refine Rel.seq rfl (rel_neg (by simp) (by simp) ?_)
  refine Rel.seq rfl (rel_neg (by simp) (by simp) ?_)
  refine Rel.seq rfl (rel_neg (by omega) (by omega) ?_)
  refine Rel.seq rfl (rel_neg (by simp) (by simp) ?_)
  refine (newPublicKey_rel f variantA _).bind fun pk pk' hpk => ?_
  refine (sliceTo_rel ⟨hc.ct0, hc'.ct0⟩ pf _).bind fun c0 c0' hc0 => ?_
  refine (importKeyT_rel hpk hc0).bind fun i i' hi => ?_
  obtain ⟨pi, oi⟩ := i
  obtain ⟨pi', oi'⟩ := i'
  obtain ⟨hpi, e, e'⟩ := hi
  dsimp only at hpi e e'
  subst e; subst e'
  refine Rel.seq rfl (rel_neg (by simp) (by simp) ?_)
  refine (deriveSecretT_rel (by decide) hk hk' hpi (N := maxSharedSecretBsz) ⟨hc.j, hc'.j⟩ k9).bind fun j j' hj => ?_
  refine (sliceTo_rel hj k9 _).bind fun j1 j1' hj1 => ?_
  refine (sliceTo_rel (N := maxMsgBsz) ⟨by simp, by simp⟩ k7 _).bind fun m1 m1' hm1 => ?_
  refine (hashT_rel hP ⟨hc.kem, hc'.kem⟩ (by simp [hj1.1, hj1.2]) hm1).bind fun h h' hh => ?_
  obtain ⟨c1, n1⟩ := h
  obtain ⟨c1', n1'⟩ := h'
  obtain ⟨-, hc1, hn1⟩ := hh
  dsimp only at hc1 hn1
  simp only [hc1.1.params, hc1.2.params, k1]
  refine (sliceTo_rel hct (le_refl _) _).bind fun ct1 ct1' hct1 => ?_
  refine (xorInto_rel (N := maxMsgBsz) ⟨by simp [hn1.1]; omega, by simp [hn1.2]; omega⟩ hct1 k7 _).bind fun m m' hm => ?_
  refine (sliceTo_rel hm k7 _).bind fun m2 m2' hm2 => ?_
  refine (hashT_rel hP hc1 (by simp [hm2.1, hm2.2]) ⟨hc1.1.secretBytes, hc1.2.secretBytes⟩).bind fun h h' hh => ?_
  obtain ⟨c2, sc⟩ := h
  obtain ⟨c2', sc'⟩ := h'
  obtain ⟨-, hc2, hsc⟩ := hh
  dsimp only at hc2 hsc
  simp only [hc2.1.params, hc2.2.params, k1, s1, s3]
  refine (maskLast_rel _ hsc (by omega) _).bind fun sc2 sc2' hsc2 => ?_
  refine (generatePublicKeyT_rel (privA f sc2 hsc2.1) (privA f sc2' hsc2.2) hpi).bind fun pkA pkA' hpkA => ?_
  refine (sliceTo_rel (N := maxPublicKeySz) ⟨by simp, by simp⟩ pf _).bind fun r1 r1' hr1 => ?_
  refine (exportKeyT_rel hpkA hr1 (le_refl _)).bind fun r2 r2' hr2 => ?_
  refine (deriveSecretT_rel (by decide) (privA f sc2 hsc2.1) (privA f sc2' hsc2.2) hp hj k9).bind fun j2 j2' hj2 => ?_
  refine (sliceTo_rel hj2 k9 _).bind fun j3 j3' hj3 => ?_
  refine (sliceTo_rel (N := maxMsgBsz) ⟨by simp, by simp⟩ k7 _).bind fun t1 t1' ht1 => ?_
  refine Rel.bind (hashT_rel hP (f := f) ?_ ?_ ht1) fun h h' hh => ?_
  · exact ⟨⟨hc2.1.allocated, rfl, hc2.1.msg, hsc2.1, hc2.1.shake⟩, ⟨hc2.2.allocated, rfl, hc2.2.msg, hsc2.2, hc2.2.shake⟩⟩
  · simp [hj3.1, hj3.2]
  obtain ⟨c3, t2⟩ := h
  obtain ⟨c3', t2'⟩ := h'
  obtain ⟨-, hc3, ht2⟩ := hh
  dsimp only at hc3 ht2
  simp only [hc3.1.params, hc3.2.params, k1, k2]
  refine (sliceTo_rel ⟨hc3.1.msg, hc3.2.msg⟩ (le_refl _) _).bind fun g g' hg => ?_
  refine (xorInto_rel (N := maxMsgBsz) ⟨by simp [ht2.1]; omega, by simp [ht2.2]; omega⟩ hg k7 _).bind fun t3 t3' ht3 => ?_
  refine (sliceTo_rel hct (le_refl _) _).bind fun ct2 ct2' hct2 => ?_
  refine (sliceTo_rel ht3 k7 _).bind fun t4 t4' ht4 => ?_
  refine Rel.seq (by rw [hr2.1, hr2.2, hc0.1, hc0.2, hct2.1, hct2.2, ht4.1, ht4.2]) ?_
  refine (sliceTo_rel hm k7 _).bind fun m3 m3' hm3 => ?_
  refine (cpick_rel _ _ hm3 ⟨gS, gS'⟩ _).bind fun m4 m4' hm4 => ?_
  refine (sliceTo_rel hss hM _).bind fun s s' hs => ?_
  exact (hashT_rel hP hc3 (by simp [hm4.1, hm4.2]) hs).bind fun _ _ _ => Rel.pureAny _ _

end Lemmas.MkemSteps
