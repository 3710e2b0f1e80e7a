import Verif.Lemmas.CsidhRun
import Verif.Lemmas.CsidhCof
import Verif.Lemmas.CsidhZero

/-!
Runs of the group action by calculation with numbers modulo p, for private keys with a single exponent 1 or -1.
-/

namespace Lemmas.CsidhRunAct
open Model Model.Limb Model.Csidh Lemmas.CsidhNat Spec Spec.Csidh Lemmas.CsidhLadder Lemmas.CsidhField Lemmas.CsidhCurve
  Lemmas.CsidhValidate Lemmas.CsidhAction Lemmas.CsidhRun Lemmas.CsidhCof Lemmas.CsidhZero Lemmas.CsidhKeys

local notation "𝕡" => Spec.Csidh.p

/-- the words of a number modulo p -/
def lit (n : Nat) : Fp := orBytes (leBytes 64 (n * 2 ^ 512 % pl)) 0 fp0

theorem lit_rn {n : Nat} (h : n < 𝕡) : RN (lit n) n := by
  obtain ⟨h1, h2⟩ := import_val (leBytes 64 (n * 2 ^ 512 % pl)) (Lemmas.SidhBytes.leBytes_length _ _)
  have hlt : n * 2 ^ 512 % pl < 𝕡 := mod_lt _
  have hv : val (lit n) = n * 2 ^ 512 % pl := by
    rw [lit, h2, Lemmas.SidhBytes.bval_leBytes, Nat.mod_eq_of_lt (lt_trans hlt (by decide +kernel))]
  refine ⟨⟨h1, by rw [hv]; exact hlt, ?_⟩, h⟩
  rw [hv, cast_mod, Nat.cast_mul, Nat.cast_pow, Nat.cast_ofNat]

/-- one isogeny of degree number i from the curve a, with the points over x: the new coefficient, projective, and the
last coordinate of the kernel -/
def isoN (a x i : Nat) : Coef Nat × Nat :=
  let P := mulN ⟨x, 1⟩ a ((pl + 1) / el i)
  force P.x fun px => force P.z fun pz =>
  let K := mulN ⟨px, pz⟩ a 1
  force K.x fun kx => force K.z fun kz =>
  let A := (xIso natOps ⟨px, pz⟩ ⟨a, 1⟩ ⟨kx, kz⟩ (word primes i)).2
  force A.a fun na => force A.c fun nc => (⟨na, nc⟩, kz)

theorem isoN_eq (a x i : Nat) : isoN a x i = (
    (xIso natOps (mulN ⟨x, 1⟩ a ((pl + 1) / el i)) ⟨a, 1⟩ (mulN (mulN ⟨x, 1⟩ a ((pl + 1) / el i)) a 1) (word primes i)).2,
    (mulN (mulN ⟨x, 1⟩ a ((pl + 1) / el i)) a 1).z) := by
  rw [isoN]
  simp only [force_eq]

/-- the only exponent is 1, at prime number i -/
structure Only (h : Half) (i : Nat) : Prop where
  e : ∀ j, h.e.getD j 0 = if j = i then 1 else 0
  len : h.e.length = 74
  ki : KI h.k h.e

theorem Only.k {h : Half} {i : Nat} (o : Only h i) (hi : i < 74) : val h.k = (pl + 1) / el i := by
  have h1 := o.ki.val
  have h2 : todo h.e 0 = el i := by
    rw [todo, ← Finset.mul_prod_erase _ _ (Finset.mem_Ico.mpr ⟨Nat.zero_le i, hi⟩), fac, o.e, if_pos rfl, if_pos (by decide)]
    rw [Finset.prod_eq_one, mul_one]
    intro j hj
    have hz : h.e.getD j 0 = 0 := by rw [o.e, if_neg (Finset.mem_erase.mp hj).1]
    rw [fac, if_neg (not_not.mpr hz)]
  rw [h2] at h1
  rw [pl_eq, ← h1]
  exact (Nat.mul_div_cancel _ (el_prime hi).pos).symm

theorem Only.cof {h : Half} {i : Nat} (o : Only h i) (hi : i < 74) : val (cofactor h.e i) = 1 := by
  rw [(cofactor_val _ hi).2, todo]
  refine Finset.prod_eq_one fun j hj => ?_
  have := Finset.mem_Ico.mp hj
  have hz : h.e.getD j 0 = 0 := by rw [o.e, if_neg (by omega)]
  rw [fac, if_neg (not_not.mpr hz)]

theorem actStep_skip (sg : Bool) (st x : Fp) (v : W64) (i : Nat) (s : ActSt) (h : s.half.e.getD i 0 = 0) : actStep sg st x v i s = s := by
  rw [actStep]
  have h0 : ¬ s.half.e.getD i 0 ≠ 0 := not_not.mpr h
  have hd : decide (s.half.e.getD i 0 = 0) = true := decide_eq_true h
  simp only [if_neg h0, hd, Bool.and_true]

theorem actLoop_skip (sg : Bool) (st x : Fp) (i : Nat) (hi : i < 74) : ∀ (n j : Nat) (s : ActSt), j + n = i → (∀ j < i, s.half.e.getD j 0 = 0) →
    actLoop sg st x (primes.drop j) j s = actLoop sg st x (primes.drop i) i s
  | 0, j, s, h, _ => by
    obtain rfl : j = i := by omega
    rfl
  | n + 1, j, s, h, he => by
    rw [primes_drop (by omega : j < 74), actLoop, actStep_skip _ _ _ _ _ _ (he j (by omega))]
    exact actLoop_skip sg st x i hi n (j + 1) s (by omega) he

theorem half_single {sg : Bool} {la lx : Fp} {a x : Nat} (ha : RN la a) (hx : RN lx x) {h : Half} {i : Nat} (hi : i < 74) (o : Only h i) (log : List Event)
    (hk : (isoN a x i).2 ≠ 0) : ∃ P A k e log', roundHalf sg la lx h log = ⟨P, A, ⟨k, e, true⟩, log'⟩ ∧ RCoef RN A (isoN a x i).1 ∧ ∀ j, e.getD j 0 = 0 := by
  rw [isoN_eq] at hk ⊢
  simp only at hk ⊢
  have hP := mul_rn ha (P := ⟨lx, one⟩) (P' := ⟨x, 1⟩) ⟨hx, nat_rel.one⟩ h.k
  rw [o.k hi] at hP
  generalize mulN ⟨x, 1⟩ a ((pl + 1) / el i) = P' at hP hk ⊢
  obtain ⟨P, hPe⟩ : ∃ P, xMul limbOps ⟨lx, one⟩ ⟨la, one⟩ h.k = P := ⟨_, rfl⟩
  rw [hPe] at hP
  have hK := mul_rn ha hP (cofactor h.e i)
  rw [o.cof hi] at hK
  obtain ⟨K, hKe⟩ : ∃ K, xMul limbOps P ⟨la, one⟩ (cofactor h.e i) = K := ⟨_, rfl⟩
  rw [hKe] at hK
  have hI := xIso_rel nat_rel hP (A := ⟨la, one⟩) (A' := ⟨a, 1⟩) ⟨ha, nat_rel.one⟩ hK (word primes i)
  obtain ⟨PA, hPA⟩ : ∃ PA, xIso limbOps P ⟨la, one⟩ K (word primes i) = PA := ⟨_, rfl⟩
  rw [hPA] at hI
  have hz : isZero K.z = false := by rw [isZero_rn hK.z]; exact decide_eq_false hk
  have hskip := actLoop_skip sg la lx i hi i 0 ⟨P, ⟨la, one⟩, {h with done := true}, log⟩ (by omega) (by
    intro j hj
    show h.e.getD j 0 = 0
    rw [o.e, if_neg (by omega)])
  rw [List.drop_zero] at hskip
  have h1 : h.e.getD i 0 ≠ 0 := by rw [o.e, if_pos rfl]; decide
  have h2 : ∀ j, (h.e.set i (h.e.getD i 0 - 1)).getD j 0 = 0 := by
    intro j
    have := getD_set h.e i j (h.e.getD i 0 - 1) (by rw [o.len]; exact hi)
    rw [this]
    split
    · rw [o.e, if_pos rfl]; decide
    · rw [o.e, if_neg (by omega)]
  have hs : actStep sg la lx (word primes i) i ⟨P, ⟨la, one⟩, {h with done := true}, log⟩ =
      ⟨PA.1, PA.2, ⟨mul512 h.k (word primes i), h.e.set i (h.e.getD i 0 - 1), true⟩, log ++ [⟨word primes i, sg, la, lx, ⟨la, one⟩, K⟩]⟩ := by
    rw [actStep]
    have h1' : (h.e.getD i 0 = 0) = False := eq_false h1
    simp only [ne_eq, h1', not_false_eq_true, if_true, hKe, hz, Bool.not_false, hPA, h2, decide_true, Bool.and_true]
  refine ⟨PA.1, PA.2, mul512 h.k (word primes i), h.e.set i (h.e.getD i 0 - 1), log ++ [⟨word primes i, sg, la, lx, ⟨la, one⟩, K⟩], ?_, hI.2, h2⟩
  · rw [roundHalf, hPe]
    rw [hskip, primes_drop hi, actLoop, hs, actLoop_zero]
    exact h2

theorem kind {la lx : Fp} {a x : Nat} (ha : RN la a) (hx : RN lx x) (sg : Bool) (w : Nat) (hw : w % pl ≠ 0)
    (h : (if sg then (x ^ 3 + a * x ^ 2 + x + w * w) % pl = 0 else (x ^ 3 + a * x ^ 2 + x) % pl = w * w % pl)) :
    decide (isNonQuadRes (montEval limbOps la lx) ≠ 0) = sg := by
  have hm := montEval_rel limb_rel ha.elt hx.elt
  have he : montEval (fieldOps (ZMod 𝕡)) (a : ZMod 𝕡) (x : ZMod 𝕡) = ((x ^ 3 + a * x ^ 2 + x : Nat) : ZMod 𝕡) := by
    show ((x : ZMod 𝕡) * x + a * x + 1) * x = _
    push_cast
    ring
  rw [he] at hm
  have hw' : (w : ZMod 𝕡) ≠ 0 := by
    intro h0
    apply hw
    rw [pl_eq]
    exact Nat.mod_eq_zero_of_dvd ((ZMod.natCast_eq_zero_iff _ _).mp h0)
  rw [isNonQuadRes_elt hm]
  cases sg with
  | false =>
    rw [if_neg (by simp)] at h
    have h' : ((x ^ 3 + a * x ^ 2 + x : Nat) : ZMod 𝕡) = w * w := by
      rw [← cast_mod, h, cast_mod, Nat.cast_mul]
    rw [if_pos ⟨by rw [h']; exact mul_ne_zero hw' hw', by rw [h']; exact ⟨_, rfl⟩⟩]
    rfl
  | true =>
    rw [if_pos rfl] at h
    have h' : ((x ^ 3 + a * x ^ 2 + x : Nat) : ZMod 𝕡) = -(w * w) := by
      have : ((x ^ 3 + a * x ^ 2 + x + w * w : Nat) : ZMod 𝕡) = 0 := by rw [← cast_mod, h, Nat.cast_zero]
      rw [Nat.cast_add, Nat.cast_mul] at this
      exact eq_neg_of_add_eq_zero_left this
    rw [if_neg]
    · rfl
    · rintro ⟨-, hs⟩
      rw [h'] at hs
      obtain ⟨v, hv⟩ := hs
      have hm1 : IsSquare (-1 : ZMod 𝕡) := ⟨v / w, by field_simp; linear_combination hv⟩
      rw [ZMod.exists_sq_eq_neg_one_iff] at hm1
      exact hm1 Lemmas.CsidhPrime.p_mod4

/-- the exponents of a private key for one half -/
def halfExp (prv : PrivateKey) (sg : Bool) (j : Nat) : Byte := let t := if sg then -expAt prv.e j else expAt prv.e j; if (0 : Int) < t.toInt then t else 0

theorem norm_rn {A : Coef Fp} {na nc b : Nat} (hA : RCoef RN A ⟨na, nc⟩) (hc : nc % pl ≠ 0) (hb : b * nc % pl = na % pl) {lb : Fp} (hlb : RN lb b) :
    mulRdc A.a (modExpRdc512 A.c pMin1) = lb := by
  have hi := inv_elt hA.c.elt
  generalize modExpRdc512 A.c pMin1 = ci at hi
  have h := mul_elt hA.a.elt hi
  have hc' : (nc : ZMod 𝕡) ≠ 0 := by
    intro h0
    apply hc
    rw [pl_eq]
    exact Nat.mod_eq_zero_of_dvd ((ZMod.natCast_eq_zero_iff _ _).mp h0)
  have e : (na : ZMod 𝕡) = b * nc := by rw [← cast_mod, ← hb, cast_mod, Nat.cast_mul]
  simp only at h
  rw [e, mul_assoc, mul_inv_cancel₀ hc', mul_one] at h
  exact elt_unique h hlb.elt

/-- One isogeny is enough for a key with a single exponent, and one number of the other kind ends the other half. -/
theorem single_act (prv : PrivateKey) (sg : Bool) (i : Nat) (hi : i < 74) (h1 : ∀ j < 74, halfExp prv sg j = if j = i then 1 else 0)
    (h2 : ∀ j < 74, halfExp prv (!sg) j = 0) {a b x y w u : Nat} (ha : a < pl) (hx : x < pl) (hb : b < pl) (hy : y < pl)
    (hw : w % pl ≠ 0) (hu : u % pl ≠ 0) (kx : (if sg then (x ^ 3 + a * x ^ 2 + x + w * w) % pl = 0 else (x ^ 3 + a * x ^ 2 + x) % pl = w * w % pl))
    (ky : (if !sg then (y ^ 3 + b * y ^ 2 + y + u * u) % pl = 0 else (y ^ 3 + b * y ^ 2 + y) % pl = u * u % pl))
    (hk : (isoN a x i).2 ≠ 0) (hc : (isoN a x i).1.c % pl ≠ 0) (hn : b * (isoN a x i).1.c % pl = (isoN a x i).1.a % pl) (rest : List Byte) :
    groupAction (lit a) prv (fpBytes (lit x) ++ (fpBytes (lit y) ++ rest)) = some (lit b, rest) := by
  rw [pl_eq] at ha hx hb hy
  obtain ⟨ra, rx, rb, ry⟩ := (⟨lit_rn ha, lit_rn hx, lit_rn hb, lit_rn hy⟩ : RN (lit a) a ∧ RN (lit x) x ∧ RN (lit b) b ∧ RN (lit y) y)
  generalize lit a = la at *
  generalize lit b = lb at *
  generalize lit x = lx at *
  generalize lit y = ly at *
  have sx := kind ra rx sg w hw kx
  have sy := kind rb ry (!sg) u hu ky
  have start : ∀ s, ∃ H, splitKey prv.e s primes 0 ⟨fpw 4, List.replicate 74 0, false⟩ = H ∧ H.done = false ∧ H.e.length = 74 ∧ KI H.k H.e ∧ ∀ j < 74, H.e.getD j 0 = halfExp prv s j := by
    intro s
    obtain ⟨d, l, -, e⟩ := splitKey_spec prv.e s 74 0 rfl ⟨fpw 4, List.replicate 74 0, false⟩ (by simp) _ (by rw [List.drop_zero])
    exact ⟨_, rfl, d, l, start_cof prv.e s, fun j hj => e j (Nat.zero_le _) hj⟩
  have far : ∀ {l : List Byte} {j : Nat}, l.length = 74 → ¬ j < 74 → l.getD j 0 = 0 := by
    intro l j hl hj
    rw [List.getD_eq_getElem?_getD, List.getElem?_eq_none (by omega)]; rfl
  have key : ∀ H0 H1 : Half, (if sg then H1 else H0).done = false → Only (if sg then H1 else H0) i → (if sg then H0 else H1).done = false → Z (if sg then H0 else H1) →
      ∃ s, actRounds actRound ⟨la, H0, H1, []⟩ (fpBytes lx ++ (fpBytes ly ++ rest)) = some (s, rest) ∧ s.A = lb := by
    intro H0 H1 d1 o d0 z
    obtain ⟨P, A, k, e, log', hr, hA, he⟩ := half_single (sg := sg) ra rx hi o [] hk
    have hnorm := norm_rn hA hc hn rb
    have e1 : actRound ⟨la, H0, H1, []⟩ lx = some ⟨lb, if sg then H0 else ⟨k, e, true⟩, if sg then ⟨k, e, true⟩ else H1, log'⟩ := by
      rw [actRound]
      simp only [sx, d1, hr, hnorm]
      rfl
    cases sg with
    | false =>
      simp only [Bool.false_eq_true, if_false] at e1 d0 d1 z
      have e2 := actRound_zero (s := ⟨lb, ⟨k, e, true⟩, H1, log'⟩) rb.elt he z ly true sy
      simp only [if_true, d0, Bool.false_eq_true, if_false] at e2
      exact ⟨_, two_rounds actRound (rand_elt rx.elt _) (rand_elt ry.elt rest) e1 e2 (by rw [d0]; rfl) rfl, rfl⟩
    | true =>
      simp only [if_true] at e1 d0 d1 z
      have e2 := actRound_zero (s := ⟨lb, H0, ⟨k, e, true⟩, log'⟩) rb.elt z he ly false sy
      simp only [if_true, d0, Bool.false_eq_true, if_false] at e2
      exact ⟨_, two_rounds actRound (rand_elt rx.elt _) (rand_elt ry.elt rest) e1 e2 (by rw [d0]; rfl) rfl, rfl⟩
  obtain ⟨H0, q0, d0, l0, c0, f0⟩ := start false
  obtain ⟨H1, q1, d1, l1, c1, f1⟩ := start true
  have : ∃ s, actRounds actRound ⟨la, H0, H1, []⟩ (fpBytes lx ++ (fpBytes ly ++ rest)) = some (s, rest) ∧ s.A = lb := by
    cases sg with
    | false =>
      refine key H0 H1 d0 ⟨fun j => ?_, l0, c0⟩ d1 fun j => ?_
      · by_cases hj : j < 74
        · exact (f0 j hj).trans (h1 j hj)
        · rw [if_neg (fun hji : j = i => hj (hji ▸ hi))]; exact far l0 hj
      · by_cases hj : j < 74
        · exact (f1 j hj).trans (h2 j hj)
        · exact far l1 hj
    | true =>
      refine key H0 H1 d1 ⟨fun j => ?_, l1, c1⟩ d0 fun j => ?_
      · by_cases hj : j < 74
        · exact (f1 j hj).trans (h1 j hj)
        · rw [if_neg (fun hji : j = i => hj (hji ▸ hi))]; exact far l1 hj
      · by_cases hj : j < 74
        · exact (f0 j hj).trans (h2 j hj)
        · exact far l0 hj
  obtain ⟨s, hs, hA⟩ := this
  have hg : groupActionLog la prv (fpBytes lx ++ (fpBytes ly ++ rest)) = some (s, rest) := by
    rw [groupActionLog, q0, q1]
    exact hs
  rw [groupAction, hg, Option.map_some, hA]

end Lemmas.CsidhRunAct
