import Verif.Lemmas.CsidhCurve
import Verif.Lemmas.CsidhKeys
import Verif.Lemmas.CsidhAction
import Mathlib.GroupTheory.OrderOfElement
/-
The batch cofactor multiplication of csidh.go computes the order of a point.
-/
namespace Lemmas.CsidhValidate
open Model Model.Limb Model.Csidh Lemmas.CsidhNat Verif.XOnly Spec Spec.Csidh Lemmas.CsidhLadder Lemmas.CsidhField Lemmas.CsidhCurve
  Lemmas.CsidhAction Lemmas.CsidhKeys

local notation "𝕡" => Spec.Csidh.p

/-! ### Groups -/

section Group
variable {G : Type*} [AddCommGroup G]

theorem order_split {u v : Nat} (hu : u ≠ 0) (hv : v ≠ 0) (h : Nat.Coprime u v) {Q : G} (hQ : (u * v) • Q = 0) :
    addOrderOf (u • Q) * addOrderOf (v • Q) = addOrderOf Q := by
  have ho : addOrderOf Q ∣ u * v := addOrderOf_dvd_of_nsmul_eq_zero hQ
  have hpos : 0 < addOrderOf Q := Nat.pos_of_dvd_of_pos ho (Nat.mul_pos (Nat.pos_of_ne_zero hu) (Nat.pos_of_ne_zero hv))
  rw [addOrderOf_nsmul' Q hu, addOrderOf_nsmul' Q hv]
  have e : (addOrderOf Q).gcd u * (addOrderOf Q).gcd v = addOrderOf Q := by
    rw [← Nat.Coprime.gcd_mul _ h]
    exact Nat.gcd_eq_left ho
  have hgu : 0 < (addOrderOf Q).gcd u := Nat.gcd_pos_of_pos_left _ hpos
  have hgv : 0 < (addOrderOf Q).gcd v := Nat.gcd_pos_of_pos_left _ hpos
  have e1 : addOrderOf Q / (addOrderOf Q).gcd u = (addOrderOf Q).gcd v := by
    conv_lhs => lhs; rw [← e]
    exact Nat.mul_div_cancel_left _ hgu
  have e2 : addOrderOf Q / (addOrderOf Q).gcd v = (addOrderOf Q).gcd u := by
    conv_lhs => lhs; rw [← e]
    exact Nat.mul_div_cancel _ hgv
  rw [e1, e2, mul_comm, e]

theorem odd_smul {T : G} (hT : T + T = 0) {n : Nat} (hn : n % 2 = 1) : n • T = T := by
  have : n = 2 * (n / 2) + 1 := by omega
  rw [this, add_smul, one_smul, mul_comm, mul_smul, two_smul, hT, smul_zero, zero_add]

end Group

/-! ### Products of the primes -/

/-- the product of the primes with indices `lo`, …, `lo + n − 1` -/
def prodL (lo n : Nat) : Nat := (((primes.drop lo).take n).map BitVec.toNat).prod

theorem prodL_one {lo : Nat} (h : lo < 74) : prodL lo 1 = (word primes lo).toNat := by
  rw [prodL, word_primes h, List.drop_eq_getElem_cons (by rw [primes_len]; exact h), List.take_succ_cons, List.take_zero,
    List.map_cons, List.prod_cons, List.map_nil, List.prod_nil, mul_one]

theorem prodL_split (lo h n : Nat) : prodL lo (h + n) = prodL lo h * prodL (lo + h) n := by
  rw [prodL, prodL, prodL, List.take_add, List.map_append, List.prod_append, List.drop_drop]

theorem primes_odd : ∀ v ∈ primes, v.toNat % 2 = 1 := by
  intro v hv
  exact (by decide +kernel : ∀ n ∈ primes.map BitVec.toNat, n % 2 = 1) _ (List.mem_map.mpr ⟨v, hv, rfl⟩)

theorem primes_pos : ∀ v ∈ primes, 0 < v.toNat := by
  intro v hv
  have := primes_odd v hv
  omega

theorem primes_prime : ∀ v ∈ primes, Nat.Prime v.toNat := by
  intro v hv
  have h : v.toNat ∈ primes.map BitVec.toNat := List.mem_map.mpr ⟨v, hv, rfl⟩
  generalize v.toNat = n at h
  have := (by decide +kernel : ∀ n ∈ primes.map BitVec.toNat, 2 ≤ n ∧ ∀ d < 25, 2 ≤ d → n % d = 0 → n = d) n h
  have hlt := (by decide +kernel : ∀ n ∈ primes.map BitVec.toNat, n < 625) n h
  rw [Nat.prime_def_le_sqrt]
  refine ⟨this.1, fun m h2 hm hd => ?_⟩
  have hm' : m < 25 := by
    have h1 : m * m ≤ n := Nat.le_sqrt.mp hm
    by_contra hc
    have : 25 * 25 ≤ m * m := Nat.mul_le_mul (by omega) (by omega)
    omega
  have := this.2 m hm' h2 (Nat.mod_eq_zero_of_dvd hd)
  subst this
  have h1 : n * n ≤ n := Nat.le_sqrt.mp hm
  have : n * 2 ≤ n * n := Nat.mul_le_mul_left _ h2
  omega

theorem prod_odd (l : List Nat) (h : ∀ v ∈ l, v % 2 = 1) : l.prod % 2 = 1 := by
  induction l with
  | nil => rfl
  | cons a l ih =>
    rw [List.prod_cons, Nat.mul_mod, h a (by simp), ih (fun v hv => h v (by simp [hv]))]

theorem mem_part {lo n : Nat} {v : W64} (h : v ∈ (primes.drop lo).take n) : v ∈ primes :=
  List.mem_of_mem_drop (List.mem_of_mem_take h)

theorem prodL_odd (lo n : Nat) : prodL lo n % 2 = 1 := by
  apply prod_odd
  intro v hv
  obtain ⟨w, hw, rfl⟩ := List.mem_map.mp hv
  exact primes_odd w (mem_part hw)

theorem prodL_pos (lo n : Nat) : 0 < prodL lo n := by
  have := prodL_odd lo n
  omega

theorem prodL_coprime (lo h n : Nat) : Nat.Coprime (prodL lo h) (prodL (lo + h) n) := by
  rw [prodL, prodL]
  rw [Nat.coprime_list_prod_left_iff]
  intro a ha
  rw [Nat.coprime_list_prod_right_iff]
  intro b hb
  obtain ⟨v, hv, rfl⟩ := List.mem_map.mp ha
  obtain ⟨w, hw, rfl⟩ := List.mem_map.mp hb
  refine (Nat.coprime_primes (primes_prime v (mem_part hv)) (primes_prime w (mem_part hw))).mpr ?_
  intro e
  have e : v = w := BitVec.eq_of_toNat_eq e
  subst e
  have hd : (primes.drop lo).Nodup := primes_nodup.sublist (List.drop_sublist _ _)
  rw [← List.drop_drop] at hw
  rw [← List.take_append_drop h (primes.drop lo)] at hd
  exact (List.nodup_append.mp hd).2.2 v hv v (List.mem_of_mem_take hw) rfl

theorem prodL_all : 4 * prodL 0 74 = 𝕡 + 1 := by decide +kernel

theorem prodL_le {lo n : Nat} (h : lo + n ≤ 74) : prodL lo n ≤ prodL 0 74 := by
  have e1 : prodL 0 74 = prodL 0 lo * (prodL lo n * prodL (lo + n) (74 - (lo + n))) := by
    have : 74 = lo + (n + (74 - (lo + n))) := by omega
    conv_lhs => rw [this]
    rw [prodL_split, prodL_split, Nat.zero_add]
  rw [e1]
  have := prodL_pos 0 lo
  have := prodL_pos (lo + n) (74 - (lo + n))
  calc prodL lo n ≤ prodL lo n * prodL (lo + n) (74 - (lo + n)) := Nat.le_mul_of_pos_right _ (by assumption)
    _ ≤ _ := Nat.le_mul_of_pos_left _ (by assumption)

theorem prodL_lt {lo n : Nat} (h : lo + n ≤ 74) : prodL lo n < 2 ^ 512 :=
  lt_of_le_of_lt (prodL_le h) (by decide +kernel)

theorem fold_mul512 : ∀ (l : List W64) (m : Fp), m.length = 8 → val m * (l.map BitVec.toNat).prod < 2 ^ 512 → (∀ v ∈ l, 0 < v.toNat) →
    (l.foldl mul512 m).length = 8 ∧ val (l.foldl mul512 m) = val m * (l.map BitVec.toNat).prod
  | [], m, hm, _, _ => ⟨hm, by simp⟩
  | v :: l, m, hm, h, hp => by
    rw [List.map_cons, List.prod_cons, ← mul_assoc] at h ⊢
    have hs := Lemmas.CsidhArith.mul512_spec m v hm
    have hpos : 0 < (l.map BitVec.toNat).prod := by
      apply List.prod_pos
      intro x hx
      obtain ⟨w, hw, rfl⟩ := List.mem_map.mp hx
      exact hp w (by simp [hw])
    have hlt : val m * v.toNat < 2 ^ 512 := lt_of_le_of_lt (Nat.le_mul_of_pos_right _ hpos) h
    rw [Nat.mod_eq_of_lt hlt] at hs
    have := fold_mul512 l (mul512 m v) hs.1 (by rw [hs.2]; exact h) (fun w hw => hp w (by simp [hw]))
    rw [hs.2] at this
    exact this

theorem fpw_val (w : W64) : (fpw w).length = 8 ∧ val (fpw w) = w.toNat := by
  refine ⟨by simp [fpw], ?_⟩
  simp [fpw, val, List.replicate]

theorem mulPrimes_val {lo n : Nat} (h : lo + n ≤ 74) : (mulPrimes lo n (fpw 1)).length = 8 ∧ val (mulPrimes lo n (fpw 1)) = prodL lo n := by
  have h1 := fpw_val 1
  have := fold_mul512 ((primes.drop lo).take n) (fpw 1) h1.1 (by
    rw [h1.2]
    show 1 * prodL lo n < _
    rw [one_mul]; exact prodL_lt h) (fun v hv => primes_pos v (mem_part hv))
  rw [h1.2] at this
  exact ⟨this.1, this.2.trans (one_mul _)⟩

/-! ### Points -/

variable {K : Type} [Field K] [Algebra (ZMod 𝕡) K] [DecidableEq K] {a : ZMod 𝕡}

/-- the point (0, 0) -/
def Tp (A : K) : (W A).Point := .some 0 0 nonsing0

/-- the words hold the x-coordinate of `Q` -/
def At {A : K} (P : Pt Fp) (Q : (W A).Point) : Prop :=
  ∃ x z : ZMod 𝕡, IsElt P.x x ∧ IsElt P.z z ∧ IsX Q (algebraMap (ZMod 𝕡) K x) (algebraMap (ZMod 𝕡) K z)

theorem Tp_ne {A : K} : Tp A ≠ 0 := WeierstrassCurve.Affine.Point.some_ne_zero nonsing0

theorem Tp_two {A : K} : Tp A + Tp A = 0 := (two_torsion Lemmas.CsidhCurve.two_ne Tp_ne).mpr rfl

theorem ne_Tp {A : K} {Q : (W A).Point} (h : Q ≠ Tp A) : Q = 0 ∨ xc Q ≠ 0 := by
  by_contra hc
  push Not at hc
  obtain ⟨h1, h2⟩ := hc
  apply h
  have := point_curve Q h1
  rw [h2] at this
  have hy : yc Q = 0 := pow_eq_zero_iff two_ne_zero |>.mp (this.trans (by ring))
  exact point_ext h1 Tp_ne h2 hy

theorem at_mul {la : Fp} (ha : IsElt la a) (hA : (algebraMap (ZMod 𝕡) K a) ^ 2 ≠ 4) {P : Pt Fp} {Q : (W (algebraMap (ZMod 𝕡) K a)).Point}
    (h : At P Q) (hT : Q ≠ Tp _) {k : Fp} (hk : k.length = 8) (h0 : 0 < val k) : At (xMul limbOps P ⟨la, one⟩ k) (val k • Q) := by
  obtain ⟨x, z, h1, h2, h3⟩ := h
  obtain ⟨x', z', k1, k2, k3⟩ := mul_up (K := K) h1 h2 (co := ⟨la, one⟩) ha one_elt k
  have := xMul_isX hA (q := ⟨_, _⟩) h3 (ne_Tp hT) (c := ⟨algebraMap (ZMod 𝕡) K a, algebraMap (ZMod 𝕡) K 1⟩)
    ⟨by rw [map_one]; exact one_ne_zero, by show _ = _ * algebraMap (ZMod 𝕡) K 1; rw [map_one, mul_one]⟩ k hk h0
  rw [k3] at this
  exact ⟨x', z', k1, k2, this⟩

theorem at_dbl {la : Fp} (ha : IsElt la a) (hA : (algebraMap (ZMod 𝕡) K a) ^ 2 ≠ 4) {P : Pt Fp} {Q : (W (algebraMap (ZMod 𝕡) K a)).Point}
    (h : At P Q) : At (xDbl limbOps P ⟨la, one⟩) (Q + Q) := by
  obtain ⟨x, z, h1, h2, h3⟩ := h
  obtain ⟨⟨x', k1, k2⟩, ⟨z', k3, k4⟩⟩ := xDbl_rel (up_rel (K := K)) (P := P) (P' := ⟨algebraMap (ZMod 𝕡) K x, algebraMap (ZMod 𝕡) K z⟩)
    (A := ⟨la, one⟩) (A' := ⟨algebraMap (ZMod 𝕡) K a, algebraMap (ZMod 𝕡) K 1⟩) ⟨⟨x, h1, rfl⟩, ⟨z, h2, rfl⟩⟩ ⟨⟨a, ha, rfl⟩, ⟨1, one_elt, rfl⟩⟩
  have := xDbl_isX hA (q := ⟨_, _⟩) h3 (c := ⟨algebraMap (ZMod 𝕡) K a, algebraMap (ZMod 𝕡) K 1⟩)
    ⟨by rw [map_one]; exact one_ne_zero, by show _ = _ * algebraMap (ZMod 𝕡) K 1; rw [map_one, mul_one]⟩
  refine ⟨x', z', k1, k3, ?_⟩
  rw [k2, k4]
  exact this

omit [DecidableEq K] in
theorem at_zero {A : K} {P : Pt Fp} {Q : (W A).Point} (h : At P Q) : isZero P.z = true ↔ Q = 0 := by
  obtain ⟨x, z, h1, h2, h3⟩ := h
  rw [isZero_elt h2]
  constructor
  · intro hz
    by_contra hQ
    exact (h3.2 hQ).1 (by rw [hz, map_zero])
  · intro hQ
    exact inj (K := K) ((h3.1 hQ).trans (map_zero _).symm)

/-- What `cofactorMul` returns on the point `Q` when [∏ l]Q is not (0, 0). -/
theorem cofactorMul_spec {la : Fp} (ha : IsElt la a) (hA : (algebraMap (ZMod 𝕡) K a) ^ 2 ≠ 4) :
    ∀ (n lo : Nat) (P : Pt Fp) (Q : (W (algebraMap (ZMod 𝕡) K a)).Point) (order : Fp), n ≠ 0 → lo + n ≤ 74 → At P Q → order.length = 8 →
    val order * prodL lo n < 2 ^ 512 → prodL lo n • Q ≠ Tp _ →
    (cofactorMul P ⟨la, one⟩ lo n order).2.2.length = 8 ∧
    (prodL lo n • Q = 0 → val (cofactorMul P ⟨la, one⟩ lo n order).2.2 = val order * addOrderOf Q ∧
      (cofactorMul P ⟨la, one⟩ lo n order).1 = (cofactorMul P ⟨la, one⟩ lo n order).2.1 ∧
      ((cofactorMul P ⟨la, one⟩ lo n order).2.1 = true → val fourSqrtP < val (cofactorMul P ⟨la, one⟩ lo n order).2.2) ∧
      (val order ≤ val fourSqrtP → val fourSqrtP < val (cofactorMul P ⟨la, one⟩ lo n order).2.2 →
        (cofactorMul P ⟨la, one⟩ lo n order).2.1 = true)) ∧
    (prodL lo n • Q ≠ 0 → (cofactorMul P ⟨la, one⟩ lo n order).2.2 = order ∧
      (cofactorMul P ⟨la, one⟩ lo n order).1 = true ∧ (cofactorMul P ⟨la, one⟩ lo n order).2.1 = false) := by
  intro n
  induction n using Nat.strong_induction_on with
  | _ n ih =>
  intro lo P Q order hn hlo hP ho hlt hT
  have hQT : Q ≠ Tp _ := by
    rintro rfl
    exact hT (odd_smul Tp_two (prodL_odd lo n))
  rw [cofactorMul, if_neg hn]
  by_cases h1 : n = 1
  · subst h1
    rw [if_pos rfl]
    rw [prodL_one (by omega)] at hlt hT ⊢
    have hmem : word primes lo ∈ primes := by rw [word_primes (by omega)]; exact List.getElem_mem _
    obtain ⟨l, hl⟩ : ∃ l, word primes lo = l := ⟨_, rfl⟩
    rw [hl] at hmem hlt hT
    simp only [hl]
    have hprime := primes_prime l hmem
    have hv := fpw_val l
    have hM := at_mul ha hA hP hQT hv.1 (by rw [hv.2]; exact hprime.pos)
    rw [hv.2] at hM
    obtain ⟨P', hP'⟩ : ∃ P', xMul limbOps P ⟨la, one⟩ (fpw l) = P' := ⟨_, rfl⟩
    simp only [hP'] at hM ⊢
    have hms := Lemmas.CsidhArith.mul512_spec order l ho
    rw [Nat.mod_eq_of_lt hlt] at hms
    obtain ⟨o', ho'⟩ : ∃ o', mul512 order l = o' := ⟨_, rfl⟩
    simp only [ho'] at hms ⊢
    have hless : isLess fourSqrtP o' = true ↔ val fourSqrtP < val o' := Lemmas.CsidhArith.isLess_spec _ _ (by rw [hms.1]; rfl)
    by_cases hQ : Q = 0
    · have hz : isZero P.z = true := (at_zero hP).mpr hQ
      simp only [hz, Bool.not_true, Bool.false_eq_true, if_false]
      refine ⟨ho, fun _ => ⟨?_, trivial, fun h => absurd h (by simp), fun h h' => absurd h' (by omega)⟩, fun h => absurd (by rw [hQ, smul_zero]) h⟩
      rw [hQ, addOrderOf_zero, mul_one]
    · have hz : isZero P.z = false := by
        rw [← Bool.not_eq_true]
        exact fun h => hQ ((at_zero hP).mp h)
      simp only [hz, Bool.not_false, if_true]
      by_cases hR : l.toNat • Q = 0
      · have hz' : isZero P'.z = true := (at_zero hM).mpr hR
        simp only [hz', Bool.not_true, Bool.false_eq_true, if_false]
        have hord : addOrderOf Q = l.toNat := by
          have := addOrderOf_dvd_of_nsmul_eq_zero hR
          rcases (Nat.dvd_prime hprime).mp this with h | h
          · exact absurd (AddMonoid.addOrderOf_eq_one_iff.mp h) hQ
          · exact h
        by_cases hb : isLess fourSqrtP o' = true
        · simp only [hb, if_true]
          exact ⟨hms.1, fun _ => ⟨by rw [hms.2, hord], trivial, fun _ => hless.mp hb, fun _ _ => trivial⟩, fun h => absurd hR h⟩
        · rw [if_neg hb]
          exact ⟨hms.1, fun _ => ⟨by rw [hms.2, hord], rfl, fun h => absurd h (by simp), fun _ h => absurd (hless.mpr h) hb⟩, fun h => absurd hR h⟩
      · have hz' : isZero P'.z = false := by
          rw [← Bool.not_eq_true]
          exact fun h => hR ((at_zero hM).mp h)
        simp only [hz', Bool.not_false, if_true]
        exact ⟨ho, fun h => absurd h hR, fun _ => ⟨trivial, trivial, trivial⟩⟩
  · rw [if_neg h1]
    obtain ⟨h, hh⟩ : ∃ h, (n + 1) / 2 = h := ⟨_, rfl⟩
    obtain ⟨m, hm⟩ : ∃ m, n - h = m := ⟨_, rfl⟩
    have hnm : n = h + m := by omega
    simp only [hh, hm]
    have hsplit : prodL lo n = prodL lo h * prodL (lo + h) m := by rw [hnm, prodL_split]
    have hR := mulPrimes_val (lo := lo) (n := h) (by omega)
    have hL := mulPrimes_val (lo := lo + h) (n := m) (by omega)
    obtain ⟨mR, hmR⟩ : ∃ x, mulPrimes lo h (fpw 1) = x := ⟨_, rfl⟩
    obtain ⟨mL, hmL⟩ : ∃ x, mulPrimes (lo + h) m (fpw 1) = x := ⟨_, rfl⟩
    simp only [hmR] at hR ⊢
    simp only [hmL] at hL ⊢
    have hAR := at_mul ha hA hP hQT hR.1 (by rw [hR.2]; exact prodL_pos _ _)
    have hAL := at_mul ha hA hP hQT hL.1 (by rw [hL.2]; exact prodL_pos _ _)
    rw [hR.2] at hAR
    rw [hL.2] at hAL
    obtain ⟨PR, hPR⟩ : ∃ x, xMul limbOps P ⟨la, one⟩ mR = x := ⟨_, rfl⟩
    obtain ⟨PL, hPL⟩ : ∃ x, xMul limbOps P ⟨la, one⟩ mL = x := ⟨_, rfl⟩
    simp only [hPR] at hAR ⊢
    simp only [hPL] at hAL ⊢
    have e1 : prodL (lo + h) m • prodL lo h • Q = prodL lo n • Q := by rw [hsplit, ← mul_smul, mul_comm]
    have e2 : prodL lo h • prodL (lo + h) m • Q = prodL lo n • Q := by rw [hsplit, ← mul_smul]
    have hp1 := prodL_pos lo h
    have hp2 := prodL_pos (lo + h) m
    have b1 : val order * prodL (lo + h) m < 2 ^ 512 := lt_of_le_of_lt (by
      rw [hsplit]
      exact Nat.mul_le_mul_left _ (Nat.le_mul_of_pos_left _ hp1)) hlt
    obtain ⟨i1, i2, i3⟩ := ih m (by omega) (lo + h) PR (prodL lo h • Q) order (by omega) (by omega) hAR ho b1 (by rw [e1]; exact hT)
    rw [e1] at i2 i3
    obtain ⟨r1, hr1⟩ : ∃ x, cofactorMul PR ⟨la, one⟩ (lo + h) m order = x := ⟨_, rfl⟩
    simp only [hr1] at i1 i2 i3 ⊢
    have b2 : val r1.2.2 * prodL lo h < 2 ^ 512 := by
      by_cases h0 : prodL lo n • Q = 0
      · rw [(i2 h0).1]
        refine lt_of_le_of_lt ?_ hlt
        rw [hsplit, mul_assoc]
        apply Nat.mul_le_mul_left
        rw [mul_comm]
        apply Nat.mul_le_mul_left
        exact Nat.le_of_dvd hp2 (addOrderOf_dvd_of_nsmul_eq_zero (by rw [e1]; exact h0))
      · rw [(i3 h0).1]
        exact lt_of_le_of_lt (by rw [hsplit]; exact Nat.mul_le_mul_left _ (Nat.le_mul_of_pos_right _ hp2)) hlt
    obtain ⟨j1, j2, j3⟩ := ih h (by omega) lo PL (prodL (lo + h) m • Q) r1.2.2 (by omega) (by omega) hAL i1 b2 (by rw [e2]; exact hT)
    rw [e2] at j2 j3
    obtain ⟨r2, hr2⟩ : ∃ x, cofactorMul PL ⟨la, one⟩ lo h r1.2.2 = x := ⟨_, rfl⟩
    simp only [hr2] at j1 j2 j3 ⊢
    refine ⟨j1, fun h0 => ?_, fun h0 => ?_⟩
    · obtain ⟨k1, k2, k3, k4⟩ := i2 h0
      obtain ⟨l1, l2, l3, l4⟩ := j2 h0
      have hs := order_split hp1.ne' hp2.ne' (prodL_coprime lo h m) (Q := Q) (by rw [← hsplit]; exact h0)
      have hle : val r1.2.2 ≤ val r2.2.2 := by
        rw [l1]
        apply Nat.le_mul_of_pos_right
        exact Nat.pos_of_dvd_of_pos (addOrderOf_dvd_of_nsmul_eq_zero (by rw [e2]; exact h0)) hp1
      refine ⟨?_, by rw [k2, l2], ?_, ?_⟩
      · rw [l1, k1, mul_assoc, hs]
      · intro hb
        rcases (Bool.or_eq_true _ _).mp hb with hb | hb
        · exact lt_of_lt_of_le (k3 hb) hle
        · exact l3 hb
      · intro c1 c2
        rw [Bool.or_eq_true]
        by_cases hc : val fourSqrtP < val r1.2.2
        · exact Or.inl (k4 c1 hc)
        · exact Or.inr (l4 (by omega) c2)
    · obtain ⟨k1, k2, k3⟩ := i3 h0
      obtain ⟨l1, l2, l3⟩ := j3 h0
      exact ⟨by rw [l1, k1], by rw [k2]; rfl, by rw [k3, l3]; rfl⟩

/-! ### Validate -/

theorem fourSqrtP_spec (n : Nat) : val fourSqrtP < n ↔ 16 * 𝕡 < n ^ 2 := by
  have h1 : val fourSqrtP ^ 2 ≤ 16 * 𝕡 := by decide +kernel
  have h2 : 16 * 𝕡 < (val fourSqrtP + 1) ^ 2 := by decide +kernel
  constructor
  · intro h
    exact lt_of_lt_of_le h2 (Nat.pow_le_pow_left h 2)
  · intro h
    by_contra hc
    have := Nat.pow_le_pow_left (not_lt.mp hc) 2
    omega

theorem validateLoop_def {la : Fp} {rng rest : List Byte} {lx : Fp} (hr : randFp rng = some (lx, rest)) :
    validateLoop la rng = if (cofactorMul (xDbl limbOps (xDbl limbOps ⟨lx, one⟩ ⟨la, one⟩) ⟨la, one⟩) ⟨la, one⟩ 0 74 (fpw 1)).1 then
      some ((cofactorMul (xDbl limbOps (xDbl limbOps ⟨lx, one⟩ ⟨la, one⟩) ⟨la, one⟩) ⟨la, one⟩ 0 74 (fpw 1)).2.1, rest) else validateLoop la rest := by
  rw [validateLoop]
  split
  · rename_i h; rw [hr] at h; exact absurd h (by simp)
  · rename_i x' rest' h
    rw [hr] at h
    have h := Option.some.inj h
    rw [Prod.mk.injEq] at h
    obtain ⟨e1, e2⟩ := h
    subst e1; subst e2
    rfl

/-- the last round of `Validate` -/
theorem validateLoop_last {la : Fp} {b : Bool} {rest : List Byte} : ∀ (n : Nat) (rng : List Byte), rng.length ≤ n → validateLoop la rng = some (b, rest) →
    rest.length < rng.length ∧ ∃ rng' lx, randFp rng' = some (lx, rest) ∧ validateLoop la rng' = some (b, rest) := by
  intro n
  induction n with
  | zero =>
    intro rng hn h
    cases hr : randFp rng with
    | none => rw [validateLoop] at h; split at h <;> simp_all
    | some r => exact absurd (randFp_length rng r.1 r.2 hr) (by omega)
  | succ n ih =>
    intro rng hn h
    cases hr : randFp rng with
    | none =>
      exfalso
      rw [validateLoop] at h
      split at h
      · simp at h
      · rename_i h'; rw [hr] at h'; simp at h'
    | some r =>
      obtain ⟨lx, rest'⟩ := r
      have hlen := randFp_length rng lx rest' hr
      have hd := validateLoop_def (la := la) hr
      have h' := h
      rw [hd] at h
      obtain ⟨c, hc⟩ : ∃ c, cofactorMul (xDbl limbOps (xDbl limbOps ⟨lx, one⟩ ⟨la, one⟩) ⟨la, one⟩) ⟨la, one⟩ 0 74 (fpw 1) = c := ⟨_, rfl⟩
      rw [hc] at h
      by_cases hb : c.1 = true
      · rw [if_pos hb] at h
        have h := (Prod.mk.injEq _ _ _ _).mp (Option.some.inj h)
        obtain ⟨-, e⟩ := h
        subst e
        exact ⟨hlen, rng, lx, hr, h'⟩
      · rw [if_neg hb] at h
        obtain ⟨k1, k2⟩ := ih rest' (by omega) h
        exact ⟨by omega, k2⟩

/-- one round of `Validate` -/
theorem validateLoop_round {la : Fp} (ha : IsElt la a) (hA : (algebraMap (ZMod 𝕡) K a) ^ 2 ≠ 4) {rng rest : List Byte} {lx : Fp} {x : ZMod 𝕡}
    (hr : randFp rng = some (lx, rest)) (hx : IsElt lx x) {S : (W (algebraMap (ZMod 𝕡) K a)).Point} (hS : S ≠ 0) (hSx : xc S = algebraMap (ZMod 𝕡) K x)
    (hT : (𝕡 + 1) • S ≠ Tp _) :
    ((𝕡 + 1) • S ≠ 0 → validateLoop la rng = some (false, rest)) ∧
    ((𝕡 + 1) • S = 0 → 16 * 𝕡 < addOrderOf (4 • S) ^ 2 → validateLoop la rng = some (true, rest)) ∧
    ((𝕡 + 1) • S = 0 → ¬ 16 * 𝕡 < addOrderOf (4 • S) ^ 2 → validateLoop la rng = validateLoop la rest) := by
  have h1 : At (⟨lx, one⟩ : Pt Fp) S := ⟨x, 1, hx, one_elt, fun h => absurd h hS, fun _ => ⟨by rw [map_one]; exact one_ne_zero, by rw [map_one, mul_one, hSx]⟩⟩
  have h2 := at_dbl ha hA (at_dbl ha hA h1)
  have e4 : S + S + (S + S) = 4 • S := by rw [← two_smul ℕ S, ← two_smul ℕ (2 • S), ← mul_smul]; rfl
  rw [e4] at h2
  have e : prodL 0 74 • 4 • S = (𝕡 + 1) • S := by rw [← mul_smul, mul_comm, prodL_all]
  have hf := fpw_val 1
  obtain ⟨-, h3, h4⟩ := cofactorMul_spec ha hA 74 0 _ (4 • S) (fpw 1) (by decide) (by decide) h2 hf.1 (by
    rw [hf.2]
    show 1 * prodL 0 74 < _
    rw [one_mul]; exact prodL_lt (by decide)) (by rw [e]; exact hT)
  rw [e] at h3 h4
  have hdef := validateLoop_def (la := la) hr
  obtain ⟨r, hrr⟩ : ∃ r, cofactorMul (xDbl limbOps (xDbl limbOps ⟨lx, one⟩ ⟨la, one⟩) ⟨la, one⟩) ⟨la, one⟩ 0 74 (fpw 1) = r := ⟨_, rfl⟩
  rw [hrr] at hdef h3 h4
  have hone : val (fpw 1) = 1 := hf.2
  refine ⟨fun h0 => ?_, fun h0 hb => ?_, fun h0 hb => ?_⟩
  · obtain ⟨-, k2, k3⟩ := h4 h0
    rw [hdef, k2, k3]; rfl
  · obtain ⟨k1, k2, -, k4⟩ := h3 h0
    rw [hone, one_mul] at k1
    have := k4 (by rw [hone]; decide +kernel) (by rw [k1, fourSqrtP_spec]; exact hb)
    rw [hdef, k2, this]; rfl
  · obtain ⟨k1, k2, k3, -⟩ := h3 h0
    rw [hone, one_mul] at k1
    have hf : r.2.1 = false := by
      rw [← Bool.not_eq_true]
      intro h
      have := k3 h
      rw [k1, fourSqrtP_spec] at this
      exact hb this
    rw [hdef, k2, hf]; rfl

end Lemmas.CsidhValidate
