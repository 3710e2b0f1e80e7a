import Verif.Lemmas.SidhArm503
import Verif.Props.SikeRun
namespace Lemmas.SidhArm503
open Model Model.Limb Model.Asm Model.Sidh Spec Spec.Sidh Lemmas.Limb Lemmas.SidhArith Lemmas.SidhGood Lemmas.SidhFp2 Lemmas.SidhNat Lemmas.SidhBuild Lemmas.SidhRun
open Lemmas.SidhBytes Props.AsmArm Props.SidhKeys Props.SidhFp2

/-! ### a key whose import the two builds agree on, and the secrets they derive with it -/

def vv (x : Fp2) : N2 := (val x.A, val x.B)

/-- the constants, as numbers -/
def aparams : CParams N2 :=
  let c := (paramsOf .p503).curve
  ⟨vv c.one, vv c.half, vv c.initA, vv c.initC, vv c.pA, vv c.qA, vv c.rA, vv c.pB, vv c.qB, vv c.rB, c.stratA, c.stratB, c.bitsA, c.bitsB⟩

theorem nn_vv {x : Fp2} (h : V2 .p503 x) : NN x (vv x) := ⟨⟨h.A, rfl⟩, ⟨h.B, rfl⟩⟩

theorem params_NN : RCParams NN (paramsOf .p503).curve aparams := by
  have h := params_rel .p503
  exact ⟨nn_vv h.one.2, nn_vv h.half.2, nn_vv h.initA.2, nn_vv h.initC.2, nn_vv h.pA.2, nn_vv h.qA.2, nn_vv h.rA.2, nn_vv h.pB.2, nn_vv h.qB.2, nn_vv h.rB.2,
    rfl, rfl, rfl, rfl⟩

/-- the coordinates of the key -/
def pubX : Tri N2 :=
  ⟨(1000, 5937519171404530752366548014078755523915317075747984153548123609457188581069331166496773186313437488482049413120054533195856027646932326333696566534606),
   (5937519171404530752366548014078755523915317075747984153548123609457188581069331166496773186313437488482049413120054533195856027646932326333696566536606, 3000),
   (5, 7)⟩

/-- the same in Montgomery form, as both builds have them -/
def pubM : Tri N2 :=
  ⟨(4054258129917245097034416811615514104104970812281085262061172704065629560241766858889603111317371355178913780900669586172977969376033593291224290133765,
    4054258129917245097034416811615514104104970812281085264197159739986539642636788565059155225923214428403259891229629088706801528364714944742876932704005),
   (12162774389751735291103250434846542312314912436843255788319505148117798763120322282838361448557957138761087453030968261052757467116782131325325512971535,
    12162774389751735291103250434846542312314912436843255786183518112196888680725300576668809333952114065536741342702008758518933908128100779873672870401295),
   (349667369572264160006153406963061196582829523250864526271447450446224246101727865132420888345237465566109747664255539355439447505155657815484977386464,
    3124702948782593300176465352988154683714398686066883136469159126031882730946571257889172225992537322114275076807975286494211687773421839733909815827411)⟩

/-- the scalar -/
def scal : List Byte := List.replicate 32 1

/-- the j-invariant of the arm64 build, in Montgomery form -/
def jArm : N2 :=
  (20885643407769340680893810873465885553494987548334403080546599248831979644191402989540405855151262184227720906399931359003919092850465508069370940176729,
    4704583285052790984718334585156246267926581032057631580287975269969011805609884886189170757465843476057191565614437323926150386520394015853857285380109)

/-- the j-invariant of the portable build -/
def jPort : N2 :=
  (6296510552929848978252388791718215704041737742372958447774938220721878934693429053712580061864916923280782717966188843684086192482241910383368346554402,
    10604251084901331285939014034439799777204301171374040866318157428118857833123652624947996700308168268663248313882470147856297972020284759006660740482916)

/-- the bytes of the key -/
def bytesX : List Byte := Props.SikeRun.bytes1 .p503 pubX.p ++ Props.SikeRun.bytes1 .p503 pubX.q ++ Props.SikeRun.bytes1 .p503 pubX.r

theorem run_arm : secAS (aOps arm (primeOf .p503)) aparams scal pubM = some jArm := by decide +kernel
theorem run_port : secAS (rOps p) (nparams .p503) scal pubX = some jPort := by decide +kernel

/-- a coordinate, and what becomes of it -/
def okX (a m : Nat) : Bool := Nat.blt a (2 * p) && Nat.beq (mulN a (val (primeOf .p503).r2)) (a * val (primeOf .p503).r2) && Nat.beq (rdcN (mulN a (val (primeOf .p503).r2))) m

theorem r2_N : N (primeOf .p503).r2 (val (primeOf .p503).r2) := by
  obtain ⟨r, rl⟩ := r2_val .p503
  refine ⟨⟨rl, ?_⟩, rfl⟩
  have : Fld.p503.R * Fld.p503.R % Fld.p503.p < Fld.p503.p := Nat.mod_lt _ (by have := p_gt .p503; omega)
  omega

theorem mont_N {x : List W64} {a m : Nat} (lx : x.length = 8) (vx : val x = a) (h : okX a m = true) (e : List W64 → List W64 → Env) :
    (arm64 .p503 e).rdc ((arm64 .p503 e).mul x (primeOf .p503).r2) = rdcP (primeOf .p503) (mulW (primeOf .p503) x (primeOf .p503).r2) ∧
      N (rdcP (primeOf .p503) (mulW (primeOf .p503) x (primeOf .p503).r2)) m := by
  simp only [okX, Bool.and_eq_true] at h
  obtain ⟨⟨h1, h2⟩, h3⟩ := h
  have h1 : a < 2 * p := Nat.le_of_ble_eq_true h1
  have h2 := Nat.eq_of_beq_eq_true h2
  have h3 := Nat.eq_of_beq_eq_true h3
  have hx : N x a := ⟨⟨lx, by rw [vx, ← p_eq]; exact h1⟩, vx⟩
  have hy := r2_N
  have l2 : (mulW (primeOf .p503) x (primeOf .p503).r2).length = 16 := len_mul (f := .p503) lx hy.v.len
  have rr : ∀ s : List W64, s.length = 16 → (arm64 .p503 e).rdc s = rdcP (primeOf .p503) s := fun s hs => (rest e).rdc hs
  obtain ⟨m1, m2, m3⟩ := mul_N (e := e) hx hy
  have hm : (arm64 .p503 e).mul x (primeOf .p503).r2 = mulW (primeOf .p503) x (primeOf .p503).r2 := by
    apply Lemmas.Limb.val_inj (m1.trans l2.symm)
    rw [m2, h2, (mulW_V hx.v hy.v).1, vx]
  have hn := mp_N (e := e) hx hy
  rw [hm] at hn ⊢
  rw [rr _ l2] at hn ⊢
  rw [h3] at hn
  exact ⟨rfl, hn⟩

theorem okXs : (okX pubX.p.1 pubM.p.1 = true ∧ okX pubX.p.2 pubM.p.2 = true) ∧ (okX pubX.q.1 pubM.q.1 = true ∧ okX pubX.q.2 pubM.q.2 = true) ∧
    okX pubX.r.1 pubM.r.1 = true ∧ okX pubX.r.2 pubM.r.2 = true := by
  decide +kernel

attribute [local irreducible] okX mulN rdcN p pR

theorem bytes1_len (x : N2) : (Props.SikeRun.bytes1 .p503 x).length = 126 := by
  rw [Props.SikeRun.bytes1, List.length_append, leBytes_length, leBytes_length]; rfl

theorem read_eq {x : Nat} (hx : x % Fld.p503.p = x) : bval (leBytes 63 (x % Fld.p503.p)) = x := by
  have h0 : 0 < Fld.p503.p := by have := p_gt .p503; omega
  have h1 : x < Fld.p503.p := by rw [← hx]; exact Nat.mod_lt _ h0
  have h2 : x < 256 ^ 63 := lt_trans h1 (sizes .p503).2.2.2.2.2
  rw [bval_leBytes, hx]
  exact Nat.mod_eq_of_lt h2

/-- any machine -/
def env0 : List W64 → List W64 → Env := fun _ _ => ⟨fun _ => .w 0, fun _ => .w 0, 0, 0, fun _ => 0, fun _ => 0⟩

theorem NN_of {u v : List W64} {m : N2} (hu : N u m.1) (hv : N v m.2) : NN ⟨u, v⟩ m := ⟨hu, hv⟩

theorem toM_mk (P : Prime) (y : Fp2) : toMontgomery P y = ⟨rdcP P (mulW P y.A P.r2), rdcP P (mulW P y.B P.r2)⟩ := rfl

theorem toM_mk_on (M : Arith) (P : Prime) (y : Fp2) : M.toMontgomery P y = ⟨M.rdc (M.mul y.A P.r2), M.rdc (M.mul y.B P.r2)⟩ := rfl

theorem mont2 {y : Fp2} {x m : N2} (lA : y.A.length = 8) (lB : y.B.length = 8) (vA : val y.A = x.1) (vB : val y.B = x.2) (h : okX x.1 m.1 = true ∧ okX x.2 m.2 = true) :
    NN (toMontgomery (primeOf .p503) y) m ∧ ∀ e, (arm64 .p503 e).toMontgomery (primeOf .p503) y = toMontgomery (primeOf .p503) y := by
  have hA := fun e => mont_N lA vA h.1 e
  have hB := fun e => mont_N lB vB h.2 e
  rw [toM_mk]
  refine ⟨?_, fun e => ?_⟩
  · have h1 := (hA env0).2
    have h2 := (hB env0).2
    generalize rdcP (primeOf .p503) (mulW (primeOf .p503) y.A (primeOf .p503).r2) = u at *
    generalize rdcP (primeOf .p503) (mulW (primeOf .p503) y.B (primeOf .p503).r2) = v at *
    exact NN_of h1 h2
  · have h1 := (hA e).1
    have h2 := (hB e).1
    rw [toM_mk_on, h1, h2]

theorem bytes1_read {x m : N2} (h : okX x.1 m.1 = true ∧ okX x.2 m.2 = true) (hx : x.1 % Fld.p503.p = x.1 ∧ x.2 % Fld.p503.p = x.2) :
    ∃ y, bytesToFp2 (zeroFp2 8) (Props.SikeRun.bytes1 .p503 x) 63 = some y ∧ NN (toMontgomery (primeOf .p503) y) m ∧
      ∀ e, (arm64 .p503 e).toMontgomery (primeOf .p503) y = toMontgomery (primeOf .p503) y := by
  have lx := bytes1_len x
  obtain ⟨y, h1, h2, h3, h4, h5⟩ := (c32_fromBytes 8 63 (by decide) (Props.SikeRun.bytes1 .p503 x)).2 (by omega)
  rw [Props.SikeRun.bytes1, show fieldBytes .p503 = 63 from rfl] at h4 h5
  rw [List.take_left' (leBytes_length _ _), read_eq hx.1] at h4
  rw [List.drop_left' (leBytes_length _ _), List.take_of_length_le (by rw [leBytes_length]), read_eq hx.2] at h5
  exact ⟨y, h1, mont2 h2 h3 h4 h5 h⟩

theorem small_X : (pubX.p.1 % Fld.p503.p = pubX.p.1 ∧ pubX.p.2 % Fld.p503.p = pubX.p.2) ∧ (pubX.q.1 % Fld.p503.p = pubX.q.1 ∧ pubX.q.2 % Fld.p503.p = pubX.q.2) ∧
    (pubX.r.1 % Fld.p503.p = pubX.r.1 ∧ pubX.r.2 % Fld.p503.p = pubX.r.2) := by decide +kernel

theorem import_X (v : W64) : ∃ k, (⟨paramsOf .p503, v, ⟨zeroFp2 8, zeroFp2 8, zeroFp2 8⟩⟩ : PublicKey).importKey bytesX = some (k, true) ∧
    (∀ e, (⟨paramsOf .p503, v, ⟨zeroFp2 8, zeroFp2 8, zeroFp2 8⟩⟩ : PublicKey).importKeyOn (arm64Build e) bytesX = some (k, true)) ∧
    k.params = paramsOf .p503 ∧ k.variant = v ∧ RTri NN k.pts pubM := by
  obtain ⟨x1, x2, x3⟩ := okXs
  obtain ⟨c1, c2, c3⟩ := small_X
  obtain ⟨y0, a0, b0, d0⟩ := bytes1_read x1 c1
  obtain ⟨y1, a1, b1, d1⟩ := bytes1_read x2 c2
  obtain ⟨y2, a2, b2, d2⟩ := bytes1_read x3 c3
  obtain ⟨s1, s2, s3, s4, s5, s6⟩ := sizes .p503
  have s1 : (paramsOf .p503).sharedSecretSize = 126 := s1
  have s2 : (paramsOf .p503).bytelen = 63 := s2
  have t0 : bytesX.take 126 = Props.SikeRun.bytes1 .p503 pubX.p := by
    rw [bytesX, List.append_assoc, List.take_left' (bytes1_len _)]
  have t1 : (bytesX.drop 126).take 126 = Props.SikeRun.bytes1 .p503 pubX.q := by
    rw [bytesX, List.append_assoc, List.drop_left' (bytes1_len _), List.take_left' (bytes1_len _)]
  have t2 : (bytesX.drop (2 * 126)).take 126 = Props.SikeRun.bytes1 .p503 pubX.r := by
    rw [bytesX, List.drop_left' (by rw [List.length_append, bytes1_len, bytes1_len]), List.take_of_length_le (by rw [bytes1_len])]
  have hl : bytesX.length = (paramsOf .p503).publicKeySize := by
    rw [bytesX, List.length_append, List.length_append, bytes1_len, bytes1_len, bytes1_len]; rfl
  refine ⟨⟨paramsOf .p503, v, ⟨toMontgomery (primeOf .p503) y0, toMontgomery (primeOf .p503) y1, toMontgomery (primeOf .p503) y2⟩⟩, ?_, ?_, rfl, rfl, ⟨b0, b1, b2⟩⟩
  · rw [PublicKey.importKey, if_neg (by rw [PublicKey.size]; simpa using hl)]
    simp only [s1, s2, t0, t1, t2, a0, a1, a2, pkg_of, s4, Option.bind_eq_bind, Option.bind_some]
  · intro e
    have hB : arm64Build e (paramsOf .p503) = arm64 .p503 e := rfl
    rw [PublicKey.importKeyOn, if_neg (by rw [PublicKey.size]; simpa using hl)]
    simp only [s1, s2, t0, t1, t2, a0, a1, a2, pkg_of, s4, hB, d0, d1, d2, Option.bind_eq_bind, Option.bind_some]

/-- what the arm64 build derives -/
theorem derive_arm (e : List W64 → List W64 → Env) {prv : PrivateKey} {k : PublicKey} (hp : prv.params = paramsOf .p503) (hv : isA prv.variant = true) (hs : prv.scalar = scal)
    (kp : k.params = paramsOf .p503) (kv : k.variant ≠ prv.variant) (hk : RTri NN k.pts pubM) (ss : List Byte) (hss : 126 ≤ ss.length) :
    prv.deriveSecretOn (arm64Build e) ss k = some (leBytes 63 (rdcN jArm.1 % p) ++ leBytes 63 (rdcN jArm.2 % p) ++ ss.drop 126) := by
  obtain ⟨s1, s2, s3, s4, s5, s6⟩ := sizes .p503
  have s2 : (paramsOf .p503).bytelen = 63 := s2
  have hB : arm64Build e (paramsOf .p503) = arm64 .p503 e := rfl
  have h := run_arm
  rw [secAS_eq] at h
  have hr := deriveA_rel (ops_arm e) params_NN scal hk
  rw [h] at hr
  cases hd : deriveA ((arm64 .p503 e).ops (primeOf .p503)) (paramsOf .p503).curve scal k.pts with
  | none => rw [hd] at hr; cases hr
  | some j =>
    rw [hd] at hr
    cases hr with
    | some hj =>
      have one : ∀ {x : List W64} {a : Nat}, N x a → val ((arm64 .p503 e).mod ((arm64 .p503 e).rdc (x ++ List.replicate (primeOf .p503).n 0))) = rdcN a % p := by
        intro x a hx
        have hn : (primeOf .p503).n = 8 := n_eq .p503
        have l : (x ++ List.replicate (primeOf .p503).n (0 : W64)).length = 16 := by rw [List.length_append, hx.v.len, List.length_replicate, hn, words_eq]
        have hv : val (x ++ List.replicate (primeOf .p503).n (0 : W64)) = a := by rw [val_append, val_replicate_zero, Nat.mul_zero, Nat.add_zero, hx.e]
        have la : a < pR := by
          have h1 := hx.v.lt
          rw [hx.e, ← p_eq] at h1
          have h2 : 2 * p < pR := by decide +kernel
          omega
        have hr := rdc_N (e := e) l hv la
        have hm : ∀ s : List W64, s.length = 8 → (arm64 .p503 e).mod s = modP (primeOf .p503) s := fun s hs => (rest e).mod hs
        have hp : val (primeOf .p503).p = Fld.p503.p := Lemmas.SidhGood.p_eq .p503
        rw [hm _ hr.v.len, (modP_spec (good .p503) _ (by rw [hr.v.len, n_eq]) (by rw [hp]; exact hr.v.lt)).1, hp, hr.e, p_eq]
      rw [PrivateKey.deriveSecretOn, if_neg (by rw [kp, hp]; simp [kv]), hp, pkg_of]
      simp only [Option.bind_eq_bind, Option.bind_some]
      rw [hv, hs, deriveSecretPkgOn, if_pos rfl, hB, s4, hd]
      simp only [Option.bind_eq_bind, Option.bind_some]
      rw [s2, (c32_toBytes _ _ _).2 (by omega)]
      simp only [Arith.fromMontgomery]
      rw [one hj.a, one hj.b]

theorem bytesX_eq : bytesX = Lemmas.Sike.enc3 (Props.SikeRun.elT .p503 pubX) := by
  rw [Props.SikeRun.enc3_el, bytesX]

/-- what the portable build derives -/
theorem derive_port {w v : W64} {prv : PrivateKey} {k : PublicKey} (hp : PrivOf .p503 v prv) (hv : v.getLsbD 0 = true) (hs : prv.scalar = scal)
    (hk : (⟨paramsOf .p503, w, ⟨zeroFp2 8, zeroFp2 8, zeroFp2 8⟩⟩ : PublicKey).importKey bytesX = some (k, true)) (kv : w ≠ v) (ss : List Byte) (hss : 126 ≤ ss.length) :
    prv.deriveSecret ss k = some (leBytes 63 (jPort.1 % p) ++ leBytes 63 (jPort.2 % p) ++ ss.drop 126) := by
  have hl : bytesX.length = 6 * fieldBytes .p503 := by
    rw [bytesX, List.length_append, List.length_append, bytes1_len, bytes1_len, bytes1_len]; rfl
  obtain ⟨k0, k', e1, e2, e3⟩ := Lemmas.Sike.import_new (f := .p503) w bytesX hl
  rw [newPublicKey_eq, Option.some.injEq] at e1
  have e0 : k0 = ⟨paramsOf .p503, w, ⟨zeroFp2 8, zeroFp2 8, zeroFp2 8⟩⟩ := e1.symm
  rw [e0, hk, Option.some.injEq, Prod.mk.injEq] at e2
  rw [← e2.1, bytesX_eq, Props.Sike.dec_enc] at e3
  rw [Lemmas.Sike.derive_spec hp e3 kv ss hss, hv, hs]
  have hr := run_port
  rw [p_eq] at hr
  rw [Props.SikeRun.exA_of (f := .p503) hr, Props.SikeRun.enc1_el, Props.SikeRun.bytes1, ← p_eq]
  rfl

theorem j_ne : leBytes 63 (rdcN jArm.1 % p) ≠ leBytes 63 (jPort.1 % p) := by decide +kernel

/-- The two builds import the same key and derive different secrets. -/
theorem wrong (e : List W64 → List W64 → Env) : ∃ (k0 k : PublicKey) (prv0 prv : PrivateKey) (bytes scalar s₁ s₂ : List Byte),
    newPublicKey (idOf .p503) 0 = some k0 ∧ k0.importKey bytes = some (k, true) ∧ k0.importKeyOn (arm64Build e) bytes = some (k, true) ∧
    newPrivateKey (idOf .p503) 1 = some prv0 ∧ prv0.importKey scalar = some (prv, true) ∧
    prv.deriveSecretOn (arm64Build e) (List.replicate 126 0) k = some s₁ ∧ prv.deriveSecret (List.replicate 126 0) k = some s₂ ∧ s₁ ≠ s₂ := by
  obtain ⟨k, h1, h2, h3, h4, h5⟩ := import_X 0
  have hss : 126 ≤ (List.replicate 126 (0 : Byte)).length := by rw [List.length_replicate]
  have hpr : PrivOf .p503 1 ⟨paramsOf .p503, 1, scal, []⟩ := ⟨rfl, rfl, by decide, by decide⟩
  refine ⟨_, k, ⟨paramsOf .p503, 1, List.replicate 32 0, []⟩, ⟨paramsOf .p503, 1, scal, []⟩, bytesX, scal, _, _, newPublicKey_eq .p503 0, h1, h2 e, by rfl, by rfl,
    derive_arm e rfl (by decide) rfl h3 (by rw [h4]; decide) h5 _ hss, derive_port hpr (by decide) rfl h1 (by decide) _ hss, ?_⟩
  intro h
  rw [List.append_assoc, List.append_assoc] at h
  exact j_ne (List.append_inj_left h (by rw [leBytes_length, leBytes_length]))

end Lemmas.SidhArm503
