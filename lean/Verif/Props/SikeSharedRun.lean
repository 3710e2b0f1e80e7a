import Verif.Props.SikeRun
import Verif.Props.SikeSharedDec
/-!
C131 on the first test vector of dh/sidh/testdata (SIKEp434), calculated by the kernel: the vector's ciphertext and the same with one
bit of the last byte changed, decapsulated on one KEM object.
-/
namespace Props.SikeSharedRun
open Model Model.Sidh Model.Sha3 Model.Sike Spec Spec.Sidh Spec.Sike Spec.Sha3 Lemmas.Sha3 Lemmas.Sike Lemmas.SidhBytes Lemmas.SidhGood Lemmas.SidhNat
open Props.SidhFp2 Props.SidhKeys Props.SidhCurve Props.Sike Lemmas.SidhRun Lemmas.SidhBase Lemmas.SikeKat Props.SikeRun Props.SikeSharedDec
open Model.SikeSharedDec (Args Gor)

/-- the ciphertext of the vector with one bit of the last byte changed -/
def forged : List Byte := ct.take 345 ++ [210]

/-- what `forged` decrypts to -/
def m2 : List Byte := m.take 15 ++ [87]

/-- the scalar made from it -/
def r2 : List Byte := [38, 51, 202, 68, 22, 29, 153, 14, 234, 41, 16, 142, 220, 184, 88, 210, 73, 65, 190, 41, 101, 182, 88, 36, 2, 88, 122, 0]

/-- its public key -/
def r2N : Tri N2 := ⟨(6291264429119979224194382351683197536758527353404647192033579505688689751470480068590099046830090169563649726904356724892954432733,
   19386314518106398316143296347254165940013247381501725498192720095292327316229777423795468619037700985637565457026209029156147119272),
  (11196721459985783312173039833503642762108816563304236237167017866805094270557497506950343188298317424567034920026796973750988987722,
   20301838167206627022109827972706239023758040839500580685572001165747511567290048744724951431904652429535172656425753849341122101965),
  (14137075607029077891636119588781469614476016659172109830381801302991270023008608605908975476890539450210183536897750449814640686712,
   16515695558154316029080845873305894453560916157332160116420616373061244511504903414191661354181944756153750099689214713151679677809)⟩

theorem run_r2 : same3 (keyAS (rOps Lemmas.SikeKat.p) (nparams .p434) r2) r2N = true := by decide +kernel

set_option maxRecDepth 20000

theorem coins_m2 : (sike .p434).coins m2 pk = r2 := by
  have e : ∀ x y, (sike .p434).coins x y = leBytes 28 (bval (Keccak.shake256 (x ++ y) 28) % 2 ^ 216) := fun _ _ => rfl
  rw [e, shake_eval _ _ (by decide)]
  decide +kernel

theorem gen_r2 : (sike .p434).gen r2 ≠ ct.take 330 := by
  have h := same3_eq run_r2
  rw [SikeRun.p_eq] at h
  change publicBytes .p434 r2 ≠ _
  rw [gen_eq .p434 r2 (by decide), genA_of h, enc3_el]
  decide +kernel

/-- any message encrypted with the scalar of the vector -/
theorem enc_r (x : List Byte) : (sike .p434).enc r pk x = ct.take 330 ++ Spec.Sike.xor x (Spec.Sike.xor m (ct.drop 330)) := by
  have h := run_j
  rw [SikeRun.p_eq] at h
  have e : (sike .p434).exA r pk = bytes1 .p434 jN := by
    have hp := same3_eq run_pk
    rw [SikeRun.p_eq] at hp
    rw [← pk_eq, genB_of hp, exA_eq (by decide), exA_of h, enc1_el]
  rw [Scheme.enc, gen_r, e]
  change ct.take 330 ++ Spec.Sike.xor x (Keccak.shake256 (bytes1 .p434 jN) 16) = _
  rw [mask_eq]

theorem dec_ct : (sike .p434).dec sk ct = m := by
  have e : (sike .p434).enc r pk m = ct := by rw [enc_r]; decide +kernel
  rw [← e, ← pk_eq]
  exact dec_enc_scheme .p434 sk r m (by decide) (by decide) (by decide)

theorem dec_forged : (sike .p434).dec sk forged = m2 := by
  have e : (sike .p434).enc r pk m2 = forged := by rw [enc_r]; decide +kernel
  rw [← e, ← pk_eq]
  exact dec_enc_scheme .p434 sk r m2 (by decide) (by decide) (by decide)

theorem take_forged : forged.take 330 = ct.take 330 := by decide +kernel

theorem accepts_ct : (sike .p434).Accepts sk pk ct := by
  rw [Scheme.Accepts, dec_ct, coins_eq]
  exact gen_r

theorem rejects_forged : ¬ (sike .p434).Accepts sk pk forged := by
  rw [Scheme.Accepts, dec_forged, coins_m2]
  change ¬ (sike .p434).gen r2 = forged.take 330
  rw [take_forged]
  exact gen_r2

theorem s_ne : Keccak.shake256 (S ++ ct) 16 ≠ ss := by
  rw [shake_eval _ _ (by decide)]
  decide +kernel

theorem s_forged_ne : Keccak.shake256 (m2 ++ forged) 16 ≠ Keccak.shake256 (S ++ forged) 16 := by
  rw [shake_eval _ _ (by decide), shake_eval _ _ (by decide)]
  decide +kernel

/-- The arguments of a decapsulation with the key of the vector. -/
def call (pub : PublicKey) (x : List Byte) : Args := ⟨List.replicate 16 0, prv, pub, x⟩

/-- C131 is false of the code when calls overlap.  With the key of the first test vector, its ciphertext `ct` and the forged one:
called alone, `Decapsulate` gives the secret of the vector for `ct` and the hash of S for the forged one.  Two goroutines with one new
KEM object: there is a schedule under which the one with the forged ciphertext gets the hash of what it decrypts to, which is
another secret; and one under which the one with `ct` gets the hash of S, which isn't the secret of the vector. -/
theorem c131_false : ∃ (pub : PublicKey) (c : KEM), pub.exportKey (List.replicate 330 0) = some pk ∧ allocate fp434 [] = some c ∧
    forged ≠ ct ∧ forged.take 330 = ct.take 330 ∧
    (∃ c', c.decapsulate platGeneric (List.replicate 16 0) prv pub ct = some (c', ss, true)) ∧
    (∃ c', c.decapsulate platGeneric (List.replicate 16 0) prv pub forged = some (c', Keccak.shake256 (S ++ forged) 16, true)) ∧
    (∃ sched c' s0 r1, SikeSharedDec.run platGeneric c [.called (call pub forged), .called (call pub ct)] sched = some (c', [.done (s0, true), .done r1]) ∧
      s0 = Keccak.shake256 (m2 ++ forged) 16 ∧ s0 ≠ Keccak.shake256 (S ++ forged) 16) ∧
    ∃ sched c' s0 r1, SikeSharedDec.run platGeneric c [.called (call pub ct), .called (call pub forged)] sched = some (c', [.done (s0, true), .done r1]) ∧
      s0 = Keccak.shake256 (S ++ ct) 16 ∧ s0 ≠ ss := by
  obtain ⟨c, h1, h2, h3⟩ := kem_new .p434 []
  obtain ⟨pub, g1, g2⟩ := gen_spec prv_ok ⟨paramsOf .p434, variantSike, ⟨zeroFp2 Fld.p434.words, zeroFp2 Fld.p434.words, zeroFp2 Fld.p434.words⟩⟩ rfl rfl
  have g2 : Pub .p434 variantSike pub (genF .p434 false sk) := g2
  have gp : PubOf .p434 variantSike pub (genF .p434 false sk).p (genF .p434 false sk).q (genF .p434 false sk).r := g2
  have gb : bytesOf .p434 pub = pk := by rw [bytesOf_eq g2, pk_eq]
  have d3 : (List.replicate 16 (0 : Byte)).drop (msgLen .p434) = [] := by decide
  have l1 : ct.length = ctLen .p434 := by decide
  have l2 : forged.length = ctLen .p434 := by decide
  have l3 : msgLen .p434 ≤ (List.replicate 16 (0 : Byte)).length := by decide
  obtain ⟨c1, _, _, e1⟩ := c54_decapsulate .generic .p434 c h2 prv prv_ok pub _ _ _ gp ct (List.replicate 16 0) l1 l3
  obtain ⟨c2, _, _, e2⟩ := c54_decapsulate .generic .p434 c h2 prv prv_ok pub _ _ _ gp forged (List.replicate 16 0) l2 l3
  have f1 : (sike .p434).decaps sk S pk ct = ss := by
    rw [Scheme.decaps, if_pos accepts_ct, dec_ct]; exact ss_eq
  have f2 : (sike .p434).decaps sk S pk forged = Keccak.shake256 (S ++ forged) 16 := by
    rw [Scheme.decaps, if_neg rejects_forged]; rfl
  rw [gb, d3, List.append_nil] at e1 e2
  have e1 : c.decapsulate platGeneric (List.replicate 16 0) prv pub ct = some (c1, (sike .p434).decaps sk S pk ct, true) := e1
  have e2 : c.decapsulate platGeneric (List.replicate 16 0) prv pub forged = some (c2, (sike .p434).decaps sk S pk forged, true) := e2
  rw [f1] at e1
  rw [f2] at e2
  obtain ⟨sch1, k1, r1⟩ := c131_check .generic h2 (call pub forged) (call pub ct) prv_ok prv_ok gp gp l2 l3 l1 l3
  obtain ⟨sch2, k2, r2'⟩ := c131_check .generic h2 (call pub ct) (call pub forged) prv_ok prv_ok gp gp l1 l3 l2 l3
  refine ⟨pub, c, ?_, h1, by decide +kernel, take_forged, ⟨c1, e1⟩, ⟨c2, e2⟩, ⟨sch1, k1, _, _, r1, ?_⟩, sch2, k2, _, _, r2', ?_⟩
  · rw [export_long g2 _ (by decide), pk_eq]; rfl
  · have t : (if (sike .p434).gen ((sike .p434).coins ((sike .p434).dec (call pub ct).prv.scalar (call pub ct).ciphertext) (bytesOf .p434 (call pub ct).pub)) =
        (call pub forged).ciphertext.take (sike .p434).pkLen then (sike .p434).dec (call pub forged).prv.scalar (call pub forged).ciphertext
        else (call pub forged).prv.S) = m2 := by
      change (if (sike .p434).gen ((sike .p434).coins ((sike .p434).dec sk ct) (bytesOf .p434 pub)) = forged.take 330 then (sike .p434).dec sk forged else S) = m2
      rw [dec_ct, gb, coins_eq, gen_r, take_forged, if_pos rfl, dec_forged]
    rw [t, show (call pub forged).secret.drop (msgLen .p434) = [] from d3, List.append_nil]
    exact ⟨rfl, s_forged_ne⟩
  · have t : (if (sike .p434).gen ((sike .p434).coins ((sike .p434).dec (call pub forged).prv.scalar (call pub forged).ciphertext) (bytesOf .p434 (call pub forged).pub)) =
        (call pub ct).ciphertext.take (sike .p434).pkLen then (sike .p434).dec (call pub ct).prv.scalar (call pub ct).ciphertext
        else (call pub ct).prv.S) = S := by
      change (if (sike .p434).gen ((sike .p434).coins ((sike .p434).dec sk forged) (bytesOf .p434 pub)) = ct.take 330 then (sike .p434).dec sk ct else S) = S
      rw [dec_forged, gb, coins_m2, if_neg gen_r2]
    rw [t, show (call pub ct).secret.drop (msgLen .p434) = [] from d3, List.append_nil]
    exact ⟨rfl, s_ne⟩

end Props.SikeSharedRun
