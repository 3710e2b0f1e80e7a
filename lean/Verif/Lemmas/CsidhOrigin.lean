import Verif.Lemmas.CsidhValidate
import Verif.Spec.CsidhCredit
/-
The batch cofactor multiplication of csidh.go on a point Q with [∏ l]Q = (0, 0).
-/
namespace Lemmas.CsidhOrigin
open Model Model.Limb Model.Csidh Lemmas.CsidhNat Verif.XOnly Spec Spec.Csidh Lemmas.CsidhLadder Lemmas.CsidhField Lemmas.CsidhCurve
  Lemmas.CsidhAction Lemmas.CsidhKeys Lemmas.CsidhValidate

local notation "𝕡" => Spec.Csidh.p

theorem ell_word {i : Nat} (h : i < 74) : ell.getD i 0 = (word primes i).toNat := by
  have e : primes.map BitVec.toNat = ell := by decide +kernel
  rw [word_primes h, ← e, List.getD_eq_getElem?_getD, List.getElem?_map, List.getElem?_eq_getElem (by rw [primes_len]; exact h)]
  rfl

theorem all_iff {D : Nat → Bool} {lo n : Nat} : (List.range' lo n).all (fun i => !D i) = true ↔ ∀ i, lo ≤ i → i < lo + n → D i = false := by
  simp only [List.all_eq_true, List.mem_range'_1, Bool.not_eq_true']
  exact ⟨fun h i h1 h2 => h i ⟨h1, h2⟩, fun h i hi => h i hi.1 hi.2⟩

theorem credit_dvd (D : Nat → Bool) : ∀ n lo, lo + n ≤ 74 → credit D lo n ∣ prodL lo n := by
  intro n
  induction n using Nat.strong_induction_on with
  | _ n ih =>
  intro lo hlo
  rw [credit]
  split
  · split
    · rename_i h1
      subst h1
      rw [prodL_one (by omega), ell_word (by omega)]
    · exact one_dvd _
  · split
    · exact one_dvd _
    · have : n = (n + 1) / 2 + (n - (n + 1) / 2) := by omega
      conv_rhs => rw [this, prodL_split]
      exact mul_dvd_mul (ih _ (by omega) _ (by omega)) (ih _ (by omega) _ (by omega))

theorem prime_prodL {l : Nat} (hl : l.Prime) {lo n : Nat} : l ∣ prodL lo n ↔ ∃ v ∈ (primes.drop lo).take n, l = v.toNat := by
  rw [prodL]
  constructor
  · intro h
    obtain ⟨m, hm, hd⟩ := (Nat.Prime.prime hl).dvd_prod_iff.mp h
    obtain ⟨v, hv, rfl⟩ := List.mem_map.mp hm
    exact ⟨v, hv, (Nat.prime_dvd_prime_iff_eq hl (primes_prime v (mem_part hv))).mp hd⟩
  · rintro ⟨v, hv, rfl⟩
    exact List.dvd_prod (List.mem_map.mpr ⟨v, hv, rfl⟩)

theorem mem_range {lo n : Nat} (h : lo + n ≤ 74) {v : W64} : v ∈ (primes.drop lo).take n ↔ ∃ i, lo ≤ i ∧ i < lo + n ∧ v = word primes i := by
  rw [List.mem_iff_getElem]
  have hlen : ((primes.drop lo).take n).length = n := by rw [List.length_take, List.length_drop, primes_len]; omega
  constructor
  · rintro ⟨j, hj, rfl⟩
    rw [hlen] at hj
    refine ⟨lo + j, by omega, by omega, ?_⟩
    rw [word_primes (by omega), List.getElem_take, List.getElem_drop]
  · rintro ⟨i, h1, h2, rfl⟩
    refine ⟨i - lo, by rw [hlen]; omega, ?_⟩
    rw [word_primes (by omega), List.getElem_take, List.getElem_drop]
    congr 1
    omega

variable {K : Type} [Field K] [Algebra (ZMod 𝕡) K] [DecidableEq K] {a : ZMod 𝕡}

/-- a point with [∏ l]Q = (0, 0) is (0, 0) itself if none of the primes divides its order -/
theorem eq_Tp {A : K} {Q : (W A).Point} {lo n : Nat} (hlo : lo + n ≤ 74) (hT : prodL lo n • Q = Tp A) :
    Q = Tp A ↔ ∀ i, lo ≤ i → i < lo + n → ¬ (word primes i).toNat ∣ addOrderOf Q := by
  have hmem : ∀ i, i < 74 → word primes i ∈ primes := fun i hi => by rw [word_primes hi]; exact List.getElem_mem _
  constructor
  · rintro rfl i h1 h2 hd
    have h : addOrderOf (Tp A) ∣ 2 := addOrderOf_dvd_of_nsmul_eq_zero (by rw [two_smul, Tp_two])
    have hp := primes_prime _ (hmem i (by omega))
    have ho := primes_odd _ (hmem i (by omega))
    have := (Nat.prime_dvd_prime_iff_eq hp Nat.prime_two).mp (hd.trans h)
    omega
  · intro h
    have hd : addOrderOf Q ∣ prodL lo n * 2 := by
      apply addOrderOf_dvd_of_nsmul_eq_zero
      rw [mul_comm, mul_smul, hT, two_smul, Tp_two]
    have hc : Nat.Coprime (addOrderOf Q) (prodL lo n) := by
      apply Nat.Coprime.symm
      rw [prodL, Nat.coprime_list_prod_left_iff]
      intro m hm
      obtain ⟨v, hv, rfl⟩ := List.mem_map.mp hm
      obtain ⟨i, h1, h2, rfl⟩ := (mem_range hlo).mp hv
      exact (Nat.Prime.coprime_iff_not_dvd (primes_prime _ (hmem i (by omega)))).mpr (h i h1 h2)
    have h2 : Q + Q = 0 := by
      rw [← two_smul ℕ]
      exact addOrderOf_dvd_iff_nsmul_eq_zero.mp (hc.dvd_of_dvd_mul_left hd)
    rw [odd_smul h2 (prodL_odd lo n)] at hT
    exact hT

/-- the primes that divide the order stay the same when the point is multiplied by the others -/
theorem dvd_order {G : Type*} [AddCommGroup G] {Q : G} {u l : Nat} (hu : u ≠ 0) (hl : l.Prime) (hc : ¬ l ∣ u) : l ∣ addOrderOf (u • Q) ↔ l ∣ addOrderOf Q := by
  rw [addOrderOf_nsmul' Q hu]
  have hg : (addOrderOf Q).gcd u ∣ addOrderOf Q := Nat.gcd_dvd_left _ _
  constructor
  · intro h
    exact h.trans (Nat.div_dvd_of_dvd hg)
  · intro h
    have e : addOrderOf Q / (addOrderOf Q).gcd u * (addOrderOf Q).gcd u = addOrderOf Q := Nat.div_mul_cancel hg
    rw [← e] at h
    rcases hl.dvd_mul.mp h with h | h
    · exact h
    · exact absurd (h.trans (Nat.gcd_dvd_right _ _)) hc

/-- the ladder on (0, 0) answers with the point at infinity -/
theorem at_Tp {la : Fp} (ha : IsElt la a) {P : Pt Fp} (h : At P (Tp (algebraMap (ZMod 𝕡) K a))) {k : Fp} (hk : k.length = 8) (h0 : 2 ≤ val k) :
    At (xMul limbOps P ⟨la, one⟩ k) (0 : (W (algebraMap (ZMod 𝕡) K a)).Point) := by
  obtain ⟨x, z, h1, h2, h3⟩ := h
  obtain ⟨x', z', k1, k2, k3⟩ := mul_up (K := K) h1 h2 (co := ⟨la, one⟩) ha one_elt k
  have hx := (h3.2 Tp_ne).2
  have hx0 : algebraMap (ZMod 𝕡) K x = 0 := by
    rw [hx]
    show 0 * _ = _
    rw [zero_mul]
  have := xMul_T (p := ⟨algebraMap (ZMod 𝕡) K x, algebraMap (ZMod 𝕡) K z⟩) hx0 ⟨algebraMap (ZMod 𝕡) K a, algebraMap (ZMod 𝕡) K 1⟩ k hk h0
  rw [k3] at this
  exact ⟨x', z', k1, k2, fun _ => this, fun h => absurd rfl h⟩

theorem prodL_two {lo n : Nat} (hn : n ≠ 0) (hlo : lo + n ≤ 74) : 2 ≤ prodL lo n := by
  have hd : prodL lo 1 ∣ prodL lo n := by
    have : n = 1 + (n - 1) := by omega
    rw [this, prodL_split]
    exact dvd_mul_right _ _
  have hp := primes_prime (word primes lo) (by rw [word_primes (by omega)]; exact List.getElem_mem _)
  rw [prodL_one (by omega)] at hd
  exact hp.two_le.trans (Nat.le_of_dvd (prodL_pos _ _) hd)

/-- What `cofactorMul` returns on the point `Q` when [∏ l]Q is (0, 0). -/
theorem cofactorMul_origin {la : Fp} (ha : IsElt la a) (hA : (algebraMap (ZMod 𝕡) K a) ^ 2 ≠ 4) (D : Nat → Bool) :
    ∀ (n lo : Nat) (P : Pt Fp) (Q : (W (algebraMap (ZMod 𝕡) K a)).Point) (order : Fp), n ≠ 0 → lo + n ≤ 74 → At P Q → order.length = 8 →
    val order * prodL lo n < 2 ^ 512 → prodL lo n • Q = Tp _ →
    (∀ i, lo ≤ i → i < lo + n → (D i = true ↔ (word primes i).toNat ∣ addOrderOf Q)) →
    (cofactorMul P ⟨la, one⟩ lo n order).2.2.length = 8 ∧
    val (cofactorMul P ⟨la, one⟩ lo n order).2.2 = val order * credit D lo n ∧
    ((cofactorMul P ⟨la, one⟩ lo n order).1 = true ↔ (cofactorMul P ⟨la, one⟩ lo n order).2.1 = true ∨ ∃ i, lo ≤ i ∧ i < lo + n ∧ D i = true) ∧
    ((cofactorMul P ⟨la, one⟩ lo n order).2.1 = true → val fourSqrtP < val (cofactorMul P ⟨la, one⟩ lo n order).2.2) ∧
    (val order ≤ val fourSqrtP → val fourSqrtP < val (cofactorMul P ⟨la, one⟩ lo n order).2.2 →
        (cofactorMul P ⟨la, one⟩ lo n order).2.1 = true) := by
  intro n
  induction n using Nat.strong_induction_on with
  | _ n ih =>
  intro lo P Q order hn hlo hP ho hlt hT hD
  have hQ0 : Q ≠ 0 := by
    rintro rfl
    rw [smul_zero] at hT
    exact Tp_ne hT.symm
  have hall : (List.range' lo n).all (fun i => !D i) = true ↔ Q = Tp _ := by
    rw [all_iff, eq_Tp hlo hT]
    refine forall_congr' fun i => forall_congr' fun h1 => forall_congr' fun h2 => ?_
    rw [← hD i h1 h2, Bool.not_eq_true]
  have hDn : Q = Tp _ → ¬ ∃ i, lo ≤ i ∧ i < lo + n ∧ D i = true := by
    rintro h ⟨i, h1, h2, h3⟩
    have := all_iff.mp (hall.mpr h) i h1 h2
    rw [this] at h3
    exact absurd h3 (by simp)
  have hDy : Q ≠ Tp _ → ∃ i, lo ≤ i ∧ i < lo + n ∧ D i = true := by
    intro h
    by_contra hc
    apply h
    rw [← hall, all_iff]
    intro i h1 h2
    rw [← Bool.not_eq_true]
    exact fun h3 => hc ⟨i, h1, h2, h3⟩
  rw [cofactorMul, if_neg hn, credit]
  by_cases h1 : n = 1
  · subst h1
    rw [if_pos rfl, if_pos rfl, if_pos le_rfl]
    rw [prodL_one (by omega)] at hlt hT
    rw [ell_word (by omega)]
    have hmem : word primes lo ∈ primes := by rw [word_primes (by omega)]; exact List.getElem_mem _
    obtain ⟨l, hl⟩ : ∃ l, word primes lo = l := ⟨_, rfl⟩
    rw [hl] at hmem hlt hT
    simp only [hl]
    have hprime := primes_prime l hmem
    have hv := fpw_val l
    have hz : isZero P.z = false := by
      rw [← Bool.not_eq_true]
      exact fun h => hQ0 ((at_zero hP).mp h)
    simp only [hz, Bool.not_false, if_true]
    have hms := Lemmas.CsidhArith.mul512_spec order l ho
    rw [Nat.mod_eq_of_lt hlt] at hms
    obtain ⟨o', ho'⟩ : ∃ o', mul512 order l = o' := ⟨_, rfl⟩
    simp only [ho'] at hms ⊢
    have hless : isLess fourSqrtP o' = true ↔ val fourSqrtP < val o' := Lemmas.CsidhArith.isLess_spec _ _ (by rw [hms.1]; rfl)
    by_cases hQT : Q = Tp _
    · rw [if_pos (hall.mpr hQT)]
      subst hQT
      have hM := at_Tp ha hP hv.1 (by rw [hv.2]; exact hprime.two_le)
      have hz' := (at_zero hM).mpr rfl
      simp only [hz', Bool.not_true, Bool.false_eq_true, if_false]
      by_cases hb : isLess fourSqrtP o' = true
      · rw [if_pos hb]
        exact ⟨hms.1, hms.2, ⟨fun _ => Or.inl rfl, fun _ => rfl⟩, fun _ => hless.mp hb, fun _ _ => rfl⟩
      · rw [if_neg hb]
        exact ⟨hms.1, hms.2, ⟨fun h => absurd h (by simp), fun h => h.elim (fun h => absurd h (by simp)) (fun h => absurd h (hDn rfl))⟩,
          fun h => absurd h (by simp), fun _ h => absurd (hless.mpr h) hb⟩
    · rw [if_neg (fun h => hQT (hall.mp h))]
      have hM := at_mul ha hA hP hQT hv.1 (by rw [hv.2]; exact hprime.pos)
      rw [hv.2, hT] at hM
      have hz' : isZero (xMul limbOps P ⟨la, one⟩ (fpw l)).z = false := by
        rw [← Bool.not_eq_true]
        exact fun h => Tp_ne ((at_zero hM).mp h)
      simp only [hz', Bool.not_false, if_true]
      exact ⟨ho, by rw [mul_one], ⟨fun _ => Or.inr (hDy hQT), fun _ => trivial⟩, fun h => absurd h (by simp), fun h h' => absurd h' (by omega)⟩
  · rw [if_neg h1, if_neg h1, if_neg (by omega : ¬ n ≤ 1)]
    obtain ⟨h, hh⟩ : ∃ h, (n + 1) / 2 = h := ⟨_, rfl⟩
    obtain ⟨m, hm⟩ : ∃ m, n - h = m := ⟨_, rfl⟩
    have hnm : n = h + m := by omega
    simp only [hh, hm]
    have hsplit : prodL lo n = prodL lo h * prodL (lo + h) m := by rw [hnm, prodL_split]
    have hR := mulPrimes_val (lo := lo) (n := h) (by omega)
    have hL := mulPrimes_val (lo := lo + h) (n := m) (by omega)
    obtain ⟨mR, hmR⟩ : ∃ x, mulPrimes lo h (fpw 1) = x := ⟨_, rfl⟩
    obtain ⟨mL, hmL⟩ : ∃ x, mulPrimes (lo + h) m (fpw 1) = x := ⟨_, rfl⟩
    simp only [hmR] at hR ⊢
    simp only [hmL] at hL ⊢
    have hp1 := prodL_pos lo h
    have hp2 := prodL_pos (lo + h) m
    have b1 : val order * prodL (lo + h) m < 2 ^ 512 := lt_of_le_of_lt (by
      rw [hsplit]
      exact Nat.mul_le_mul_left _ (Nat.le_mul_of_pos_left _ hp1)) hlt
    have b2' : val order * prodL lo h < 2 ^ 512 := lt_of_le_of_lt (by
      rw [hsplit]
      exact Nat.mul_le_mul_left _ (Nat.le_mul_of_pos_right _ hp2)) hlt
    by_cases hQT : Q = Tp _
    · rw [if_pos (hall.mpr hQT), mul_one]
      have hno := hDn hQT
      subst hQT
      have hAR := at_Tp ha hP hR.1 (by rw [hR.2]; exact prodL_two (by omega) (by omega))
      have hAL := at_Tp ha hP hL.1 (by rw [hL.2]; exact prodL_two (by omega) (by omega))
      obtain ⟨PR, hPR⟩ : ∃ x, xMul limbOps P ⟨la, one⟩ mR = x := ⟨_, rfl⟩
      obtain ⟨PL, hPL⟩ : ∃ x, xMul limbOps P ⟨la, one⟩ mL = x := ⟨_, rfl⟩
      simp only [hPR] at hAR ⊢
      simp only [hPL] at hAL ⊢
      obtain ⟨i1, i2, -⟩ := cofactorMul_spec ha hA m (lo + h) PR 0 order (by omega) (by omega) hAR ho b1 (by rw [smul_zero]; exact Tp_ne.symm)
      obtain ⟨i2, i3, i4, -⟩ := i2 (smul_zero _)
      obtain ⟨r1, hr1⟩ : ∃ x, cofactorMul PR ⟨la, one⟩ (lo + h) m order = x := ⟨_, rfl⟩
      simp only [hr1] at i1 i2 i3 i4 ⊢
      rw [addOrderOf_zero, mul_one] at i2
      obtain ⟨j1, j2, -⟩ := cofactorMul_spec ha hA h lo PL 0 r1.2.2 (by omega) (by omega) hAL i1 (by rw [i2]; exact b2') (by rw [smul_zero]; exact Tp_ne.symm)
      obtain ⟨j2, j3, j4, -⟩ := j2 (smul_zero _)
      obtain ⟨r2, hr2⟩ : ∃ x, cofactorMul PL ⟨la, one⟩ lo h r1.2.2 = x := ⟨_, rfl⟩
      simp only [hr2] at j1 j2 j3 j4 ⊢
      rw [addOrderOf_zero, mul_one, i2] at j2
      refine ⟨j1, j2, ?_, ?_, fun c1 c2 => absurd (lt_of_lt_of_eq c2 j2) (not_lt.mpr c1)⟩
      · rw [i3, j3]
        exact ⟨Or.inl, fun h => h.elim id (fun h => absurd h hno)⟩
      · intro hb
        rcases (Bool.or_eq_true _ _).mp hb with hb | hb
        · exact lt_of_lt_of_eq (i4 hb) (i2.trans j2.symm)
        · exact j4 hb
    · rw [if_neg (fun h => hQT (hall.mp h))]
      have hAR := at_mul ha hA hP hQT hR.1 (by rw [hR.2]; exact prodL_pos _ _)
      have hAL := at_mul ha hA hP hQT hL.1 (by rw [hL.2]; exact prodL_pos _ _)
      rw [hR.2] at hAR
      rw [hL.2] at hAL
      obtain ⟨PR, hPR⟩ : ∃ x, xMul limbOps P ⟨la, one⟩ mR = x := ⟨_, rfl⟩
      obtain ⟨PL, hPL⟩ : ∃ x, xMul limbOps P ⟨la, one⟩ mL = x := ⟨_, rfl⟩
      simp only [hPR] at hAR ⊢
      simp only [hPL] at hAL ⊢
      have e1 : prodL (lo + h) m • prodL lo h • Q = Tp _ := by rw [← hT, hsplit, ← mul_smul, mul_comm]
      have e2 : prodL lo h • prodL (lo + h) m • Q = Tp _ := by rw [← hT, hsplit, ← mul_smul]
      have hco := prodL_coprime lo h m
      have hpr : ∀ i, i < 74 → (word primes i).toNat.Prime := fun i hi => primes_prime _ (by rw [word_primes hi]; exact List.getElem_mem _)
      have d1 : ∀ i, lo + h ≤ i → i < lo + h + m → (D i = true ↔ (word primes i).toNat ∣ addOrderOf (prodL lo h • Q)) := by
        intro i k1 k2
        rw [hD i (by omega) (by omega), dvd_order hp1.ne' (hpr i (by omega))]
        intro hd
        have hd' : (word primes i).toNat ∣ prodL (lo + h) m := (prime_prodL (hpr i (by omega))).mpr ⟨_, (mem_range (by omega)).mpr ⟨i, k1, k2, rfl⟩, rfl⟩
        have := Nat.dvd_gcd hd hd'
        rw [Nat.coprime_iff_gcd_eq_one.mp hco] at this
        exact (hpr i (by omega)).one_lt.ne' (Nat.dvd_one.mp this)
      have d2 : ∀ i, lo ≤ i → i < lo + h → (D i = true ↔ (word primes i).toNat ∣ addOrderOf (prodL (lo + h) m • Q)) := by
        intro i k1 k2
        rw [hD i (by omega) (by omega), dvd_order hp2.ne' (hpr i (by omega))]
        intro hd
        have hd' : (word primes i).toNat ∣ prodL lo h := (prime_prodL (hpr i (by omega))).mpr ⟨_, (mem_range (by omega)).mpr ⟨i, k1, k2, rfl⟩, rfl⟩
        have := Nat.dvd_gcd hd' hd
        rw [Nat.coprime_iff_gcd_eq_one.mp hco] at this
        exact (hpr i (by omega)).one_lt.ne' (Nat.dvd_one.mp this)
      obtain ⟨i1, i2, i3, i4, i5⟩ := ih m (by omega) (lo + h) PR (prodL lo h • Q) order (by omega) (by omega) hAR ho b1 e1 d1
      obtain ⟨r1, hr1⟩ : ∃ x, cofactorMul PR ⟨la, one⟩ (lo + h) m order = x := ⟨_, rfl⟩
      simp only [hr1] at i1 i2 i3 i4 i5 ⊢
      have hc1 := credit_dvd D m (lo + h) (by omega)
      have b2 : val r1.2.2 * prodL lo h < 2 ^ 512 := by
        rw [i2]
        refine lt_of_le_of_lt ?_ hlt
        rw [hsplit, mul_assoc]
        apply Nat.mul_le_mul_left
        rw [mul_comm]
        exact Nat.mul_le_mul_left _ (Nat.le_of_dvd hp2 hc1)
      obtain ⟨j1, j2, j3, j4, j5⟩ := ih h (by omega) lo PL (prodL (lo + h) m • Q) r1.2.2 (by omega) (by omega) hAL i1 b2 e2 d2
      obtain ⟨r2, hr2⟩ : ∃ x, cofactorMul PL ⟨la, one⟩ lo h r1.2.2 = x := ⟨_, rfl⟩
      simp only [hr2] at j1 j2 j3 j4 j5 ⊢
      have hle : val r1.2.2 ≤ val r2.2.2 := by
        rw [j2]
        exact Nat.le_mul_of_pos_right _ (Nat.pos_of_dvd_of_pos (credit_dvd D h lo (by omega)) hp1)
      refine ⟨j1, by rw [j2, i2, mul_assoc, mul_comm (credit D (lo + h) m)], ?_, ?_, ?_⟩
      · rw [Bool.or_eq_true, Bool.or_eq_true, i3, j3]
        constructor
        · rintro ((h' | ⟨i, k1, k2, k3⟩) | (h' | ⟨i, k1, k2, k3⟩))
          · exact Or.inl (Or.inl h')
          · exact Or.inr ⟨i, by omega, by omega, k3⟩
          · exact Or.inl (Or.inr h')
          · exact Or.inr ⟨i, by omega, by omega, k3⟩
        · rintro ((h' | h') | ⟨i, k1, k2, k3⟩)
          · exact Or.inl (Or.inl h')
          · exact Or.inr (Or.inl h')
          · by_cases hi : i < lo + h
            · exact Or.inr (Or.inr ⟨i, k1, hi, k3⟩)
            · exact Or.inl (Or.inr ⟨i, by omega, by omega, k3⟩)
      · intro hb
        rcases (Bool.or_eq_true _ _).mp hb with hb | hb
        · exact lt_of_lt_of_le (i4 hb) hle
        · exact j4 hb
      · intro c1 c2
        rw [Bool.or_eq_true]
        by_cases hc : val fourSqrtP < val r1.2.2
        · exact Or.inl (i5 c1 hc)
        · exact Or.inr (j5 (by omega) c2)

/-- one round of `Validate` with [p+1]S = (0, 0) -/
theorem validateLoop_origin {la : Fp} (ha : IsElt la a) (hA : (algebraMap (ZMod 𝕡) K a) ^ 2 ≠ 4) {rng rest : List Byte} {lx : Fp} {x : ZMod 𝕡}
    (hr : randFp rng = some (lx, rest)) (hx : IsElt lx x) {S : (W (algebraMap (ZMod 𝕡) K a)).Point} (hS : S ≠ 0) (hSx : xc S = algebraMap (ZMod 𝕡) K x)
    (hT : (𝕡 + 1) • S = Tp _) :
    (addOrderOf (4 • S) = 2 → validateLoop la rng = validateLoop la rest) ∧
    (addOrderOf (4 • S) ≠ 2 → validateLoop la rng = some (decide (16 * 𝕡 < credit (fun i => decide (ell.getD i 0 ∣ addOrderOf (4 • S))) 0 74 ^ 2), rest)) := by
  have h1 : At (⟨lx, one⟩ : Pt Fp) S := ⟨x, 1, hx, one_elt, fun h => absurd h hS, fun _ => ⟨by rw [map_one]; exact one_ne_zero, by rw [map_one, mul_one, hSx]⟩⟩
  have h2 := at_dbl ha hA (at_dbl ha hA h1)
  have e4 : S + S + (S + S) = 4 • S := by rw [← two_smul ℕ S, ← two_smul ℕ (2 • S), ← mul_smul]; rfl
  rw [e4] at h2
  have e : prodL 0 74 • 4 • S = Tp _ := by rw [← hT, ← mul_smul, mul_comm, prodL_all]
  have hf := fpw_val 1
  obtain ⟨D, hD⟩ : ∃ D, D = fun i => decide (ell.getD i 0 ∣ addOrderOf (4 • S)) := ⟨_, rfl⟩
  have hD' : ∀ i, 0 ≤ i → i < 0 + 74 → (D i = true ↔ (word primes i).toNat ∣ addOrderOf (4 • S)) := by
    intro i _ h
    rw [hD]
    simp only [decide_eq_true_eq]
    rw [ell_word (by omega)]
  obtain ⟨-, h4, h5, h6, h7⟩ := cofactorMul_origin ha hA D 74 0 _ (4 • S) (fpw 1) (by decide) (by decide) h2 hf.1 (by
    rw [hf.2]
    show 1 * prodL 0 74 < _
    rw [one_mul]; exact prodL_lt (by decide)) e hD'
  rw [← hD]
  have hdef := validateLoop_def (la := la) hr
  obtain ⟨r, hrr⟩ : ∃ r, cofactorMul (xDbl limbOps (xDbl limbOps ⟨lx, one⟩ ⟨la, one⟩) ⟨la, one⟩) ⟨la, one⟩ 0 74 (fpw 1) = r := ⟨_, rfl⟩
  rw [hrr] at hdef h4 h5 h6 h7
  have hone : val (fpw 1) = 1 := hf.2
  rw [hone, one_mul] at h4
  have hT2 : 4 • S = Tp _ ↔ addOrderOf (4 • S) = 2 := by
    constructor
    · intro h
      rw [h]
      exact addOrderOf_eq_prime (by rw [two_smul, Tp_two]) Tp_ne
    · intro h
      have : 4 • S + 4 • S = 0 := by rw [← two_smul ℕ (4 • S), ← h, addOrderOf_nsmul_eq_zero]
      rw [odd_smul this (prodL_odd 0 74)] at e
      exact e
  have hex : addOrderOf (4 • S) = 2 ↔ ¬ ∃ i, 0 ≤ i ∧ i < 0 + 74 ∧ D i = true := by
    rw [← hT2, eq_Tp (lo := 0) (n := 74) (by decide) e]
    constructor
    · rintro h ⟨i, k1, k2, k3⟩
      exact h i k1 k2 ((hD' i k1 k2).mp k3)
    · intro h i k1 k2 k3
      exact h ⟨i, k1, k2, (hD' i k1 k2).mpr k3⟩
  have hres : r.2.1 = decide (16 * 𝕡 < credit D 0 74 ^ 2) := by
    have hi : val fourSqrtP < val r.2.2 ↔ 16 * 𝕡 < credit D 0 74 ^ 2 := by rw [h4]; exact fourSqrtP_spec _
    by_cases hb : val fourSqrtP < val r.2.2
    · rw [h7 (by rw [hone]; decide +kernel) hb, decide_eq_true (hi.mp hb)]
    · rw [decide_eq_false (fun h => hb (hi.mpr h)), ← Bool.not_eq_true]
      exact fun h => hb (h6 h)
  refine ⟨fun h => ?_, fun h => ?_⟩
  · have hno := hex.mp h
    have hc : credit D 0 74 = 1 := by
      rw [credit, if_pos, if_neg (by decide)]
      rw [all_iff]
      intro i k1 k2
      rw [← Bool.not_eq_true]
      exact fun k3 => hno ⟨i, k1, k2, k3⟩
    have hres' : r.2.1 = false := by
      rw [hres, hc]
      exact decide_eq_false (by decide +kernel)
    have hd : r.1 = false := by
      rw [← Bool.not_eq_true, h5, hres']
      rintro (h' | h')
      · exact absurd h' (by simp)
      · exact hno h'
    rw [hdef, hd]; rfl
  · have hd : r.1 = true := h5.mpr (Or.inr (not_not.mp (fun h' => h (hex.mpr h'))))
    rw [hdef, hd, if_pos rfl, hres]

/-! ### How much is counted -/

/-- the product of the primes with `D i` -/
def part (D : Nat → Bool) (lo n : Nat) : Nat := ((List.range' lo n).map fun i => if D i then ell.getD i 0 else 1).prod

theorem part_split (D : Nat → Bool) (lo h m : Nat) : part D lo (h + m) = part D lo h * part D (lo + h) m := by
  rw [part, part, part, ← List.range'_append_1, List.map_append, List.prod_append]

theorem credit_one (D : Nat → Bool) (lo : Nat) : credit D lo 1 = if D lo then 1 else ell.getD lo 0 := by
  rw [credit]
  cases h : D lo <;> simp [List.range'_succ, h]

theorem credit_two (D : Nat → Bool) (lo : Nat) : credit D lo 2 = if D lo || D (lo + 1) then credit D lo 1 * credit D (lo + 1) 1 else 1 := by
  rw [credit]
  cases h : D lo <;> cases h' : D (lo + 1) <;> simp [List.range'_succ, h, h']

theorem credit_three (D : Nat → Bool) (lo : Nat) : credit D lo 3 = if D lo || D (lo + 1) || D (lo + 2) then credit D lo 2 * credit D (lo + 2) 1 else 1 := by
  rw [credit]
  cases h : D lo <;> cases h' : D (lo + 1) <;> cases h'' : D (lo + 2) <;> simp [List.range'_succ, h, h', h'']

theorem part_two (D : Nat → Bool) (lo : Nat) : part D lo 2 = (if D lo then ell.getD lo 0 else 1) * (if D (lo + 1) then ell.getD (lo + 1) 0 else 1) := by
  simp only [part, List.range'_succ, List.range'_zero, List.map_cons, List.map_nil, List.prod_cons, List.prod_nil, mul_one]

theorem part_three (D : Nat → Bool) (lo : Nat) : part D lo 3 = (if D lo then ell.getD lo 0 else 1) * ((if D (lo + 1) then ell.getD (lo + 1) 0 else 1) *
    (if D (lo + 2) then ell.getD (lo + 2) 0 else 1)) := by
  simp only [part, List.range'_succ, List.range'_zero, List.map_cons, List.map_nil, List.prod_cons, List.prod_nil, mul_one]

theorem credit_le4 (D : Nat → Bool) : ∀ n lo, 2 ≤ n → lo + n ≤ 74 → credit D lo n ≤ part D lo n ^ 4 := by
  have hb : ∀ i < 74, 1 ≤ ell.getD i 0 ∧ (i + 1 < 74 → ell.getD (i + 1) 0 ≤ ell.getD i 0 ^ 2) ∧
      (i + 1 < 74 → ell.getD i 0 ≤ ell.getD (i + 1) 0) ∧
      (i + 2 < 74 → ell.getD (i + 1) 0 * ell.getD (i + 2) 0 ≤ ell.getD i 0 ^ 4) := by decide +kernel
  intro n
  induction n using Nat.strong_induction_on with
  | _ n ih =>
  intro lo h2 hlo
  have pw : ∀ x : Nat, 1 ≤ x → x ≤ x ^ 4 ∧ x ^ 2 ≤ x ^ 4 := fun x hx => ⟨by simpa using Nat.pow_le_pow_right hx (by decide : 1 ≤ 4), Nat.pow_le_pow_right hx (by decide)⟩
  by_cases hn2 : n = 2
  · subst hn2
    obtain ⟨a1, a2, a3, -⟩ := hb lo (by omega)
    obtain ⟨b1, -⟩ := hb (lo + 1) (by omega)
    have a2 := a2 (by omega)
    have a3 := a3 (by omega)
    rw [credit_two, credit_one, credit_one, part_two]
    generalize ell.getD lo 0 = x at *
    generalize ell.getD (lo + 1) 0 = y at *
    have p1 := (pw _ a1).2
    have p2 := (pw _ b1).1
    have p3 := Nat.one_le_pow 4 _ (Nat.mul_pos a1 b1)
    cases e0 : D lo <;> cases e1 : D (lo + 1) <;> simp <;> omega
  by_cases hn3 : n = 3
  · subst hn3
    obtain ⟨a1, a2, a3, a4⟩ := hb lo (by omega)
    obtain ⟨b1, b2, b3, -⟩ := hb (lo + 1) (by omega)
    obtain ⟨c1, -⟩ := hb (lo + 2) (by omega)
    have a2 := a2 (by omega)
    have a3 := a3 (by omega)
    have a4 := a4 (by omega)
    have b2 := b2 (by omega)
    have b3 := b3 (by omega)
    rw [credit_three, credit_two, credit_one, credit_one, credit_one, part_three]
    simp only [show lo + 1 + 1 = lo + 2 from rfl] at b2 b3
    generalize ell.getD lo 0 = x at *
    generalize ell.getD (lo + 1) 0 = y at *
    generalize ell.getD (lo + 2) 0 = z at *
    have p1 := pw _ a1
    have p2 := pw _ b1
    have p3 := pw _ c1
    have p4 := Nat.one_le_pow 4 _ a1
    have p5 := Nat.one_le_pow 4 _ b1
    have p6 := Nat.one_le_pow 4 _ c1
    have x1 : x * z ≤ y ^ 4 := by
      calc _ ≤ y * y ^ 2 := Nat.mul_le_mul (by omega) (by omega)
        _ = y ^ 3 := by ring
        _ ≤ _ := Nat.pow_le_pow_right b1 (by decide)
    have x2 : z ≤ (x * y) ^ 4 := by
      rw [mul_pow]
      exact le_trans (by omega : _ ≤ 1 * y ^ 4) (Nat.mul_le_mul_right _ p4)
    have x3 : y ≤ (x * z) ^ 4 := by
      rw [mul_pow]
      exact le_trans (by omega : _ ≤ 1 * z ^ 4) (Nat.mul_le_mul_right _ p4)
    have x4 : x ≤ (y * z) ^ 4 := by
      rw [mul_pow]
      exact le_trans (by omega : _ ≤ y ^ 4 * 1) (Nat.mul_le_mul_left _ p6)
    have x5 := Nat.one_le_pow 4 _ (Nat.mul_pos a1 (Nat.mul_pos b1 c1))
    cases e0 : D lo <;> cases e1 : D (lo + 1) <;> cases e2 : D (lo + 2) <;> simp <;> omega
  · rw [credit]
    obtain ⟨h, hh⟩ : ∃ h, (n + 1) / 2 = h := ⟨_, rfl⟩
    obtain ⟨m, hm⟩ : ∃ m, n - h = m := ⟨_, rfl⟩
    simp only [hh, hm]
    have hp : part D lo n = part D lo h * part D (lo + h) m := by
      rw [show n = h + m by omega, part_split]
    have i1 := ih h (by omega) lo (by omega) (by omega)
    have i2 := ih m (by omega) (lo + h) (by omega) (by omega)
    split
    · rename_i hall
      rw [if_neg (by omega)]
      apply Nat.one_le_pow
      apply List.prod_pos
      intro x hx
      obtain ⟨i, hmem, rfl⟩ := List.mem_map.mp hx
      split
      · rename_i hi
        have := all_iff.mp hall i (List.mem_range'_1.mp hmem).1 (List.mem_range'_1.mp hmem).2
        rw [this] at hi
        exact absurd hi (by simp)
      · exact Nat.one_pos
    · rw [if_neg (by omega), hp, mul_pow]
      exact Nat.mul_le_mul i1 i2

theorem part_dvd (D : Nat → Bool) (o : Nat) (hD : ∀ i, D i = true → ell.getD i 0 ∣ o) : ∀ n lo, lo + n ≤ 74 → part D lo n ∣ o ∧ part D lo n ∣ prodL lo n
  | 0, lo, _ => by
    rw [part, List.range'_zero]
    exact ⟨one_dvd _, one_dvd _⟩
  | n + 1, lo, hlo => by
    obtain ⟨h1, h2⟩ := part_dvd D o hD n lo (by omega)
    have h3 : part D (lo + n) 1 = if D (lo + n) then ell.getD (lo + n) 0 else 1 := by
      simp only [part, List.range'_succ, List.range'_zero, List.map_cons, List.map_nil, List.prod_cons, List.prod_nil, mul_one]
    have h4 : part D (lo + n) 1 ∣ o ∧ part D (lo + n) 1 ∣ prodL (lo + n) 1 := by
      rw [h3]
      split
      · rename_i hi
        exact ⟨hD _ hi, by rw [ell_word (by omega), prodL_one (by omega)]⟩
      · exact ⟨one_dvd _, one_dvd _⟩
    rw [part_split, prodL_split]
    exact ⟨Nat.Coprime.mul_dvd_of_dvd_of_dvd (Nat.Coprime.of_dvd h2 h4.2 (prodL_coprime lo n 1)) h1 h4.1, mul_dvd_mul h2 h4.2⟩

/-- if enough is counted then the order is large all the same -/
theorem credit_order {o : Nat} (ho : o ≠ 0) (h : 16 * 𝕡 < credit (fun i => decide (ell.getD i 0 ∣ o)) 0 74 ^ 2) : 2 ^ 64 < o := by
  have h1 := credit_le4 (fun i => decide (ell.getD i 0 ∣ o)) 74 0 (by decide) (by decide)
  have h2 := (part_dvd (fun i => decide (ell.getD i 0 ∣ o)) o (fun i hi => by simpa using hi) 74 0 (by decide)).1
  have h3 := Nat.le_of_dvd (Nat.pos_of_ne_zero ho) h2
  generalize credit (fun i => decide (ell.getD i 0 ∣ o)) 0 74 = c at *
  generalize part (fun i => decide (ell.getD i 0 ∣ o)) 0 74 = q at *
  by_contra hc
  have h4 : q ≤ 2 ^ 64 := h3.trans (not_lt.mp hc)
  have h5 : c ^ 2 ≤ ((2 ^ 64) ^ 4) ^ 2 := Nat.pow_le_pow_left (h1.trans (Nat.pow_le_pow_left h4 4)) 2
  have h6 : ((2 ^ 64) ^ 4) ^ 2 ≤ 16 * 𝕡 := by decide +kernel
  exact absurd (h.trans_le (h5.trans h6)) (lt_irrefl _)

end Lemmas.CsidhOrigin
