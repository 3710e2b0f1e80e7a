import Verif.Lemmas.HasseStep
import Mathlib.NumberTheory.LegendreSymbol.QuadraticChar.Basic
import Mathlib.FieldTheory.Finite.Basic
import Mathlib.FieldTheory.RatFunc.AsPolynomial
import Mathlib.FieldTheory.IsAlgClosed.AlgebraicClosure
import Mathlib.Tactic.FieldSimp

/-!
Hasse's theorem for Montgomery curves over a prime field: the number of points differs from p + 1 by at most 2√p.
-/

namespace Verif.Hasse

open Polynomial XOnly

variable {p : ℕ} [Fact p.Prime] {A : ZMod p}

/-- the number of points with x-coordinate a -/
def nY (A a : ZMod p) : ℕ := Fintype.card {y : ZMod p // y ^ 2 = a ^ 3 + A * a ^ 2 + a}

theorem card_points (two : (2 : ZMod p) ≠ 0) (hA : A ^ 2 ≠ 4) : Nat.card (W A).Point = 1 + ∑ a, nY A a := by
  have : Nat.card (Option (Σ a : ZMod p, {y : ZMod p // y ^ 2 = a ^ 3 + A * a ^ 2 + a})) = 1 + ∑ a, nY A a := by
    rw [Finite.card_option, Nat.card_eq_fintype_card, Fintype.card_sigma, add_comm]
    rfl
  rw [← this]
  symm
  refine Nat.card_eq_of_bijective (fun o : Option (Σ a : ZMod p, {y : ZMod p // y ^ 2 = a ^ 3 + A * a ^ 2 + a}) => (match o with
    | none => 0
    | some s => .some s.1 s.2.1 (W_nonsingular two hA s.2.2) : (W A).Point)) ⟨?_, ?_⟩
  · rintro (_ | ⟨x, y, h⟩) (_ | ⟨x', y', h'⟩) e
    · rfl
    · exact absurd e.symm (WeierstrassCurve.Affine.Point.some_ne_zero _)
    · exact absurd e (WeierstrassCurve.Affine.Point.some_ne_zero _)
    · simp only [WeierstrassCurve.Affine.Point.some.injEq] at e
      obtain ⟨rfl, rfl⟩ := e
      rfl
  · rintro (_ | ⟨x, y, h⟩)
    · exact ⟨none, rfl⟩
    · exact ⟨some ⟨x, y, (W_equation _ _ _).mp h.1⟩, rfl⟩

/-- the number of square roots by Euler's criterion -/
theorem nY_cases (hp : p ≠ 2) (A a : ZMod p) :
    (nY A a = 1 ∧ a ^ 3 + A * a ^ 2 + a = 0) ∨
    (nY A a = 2 ∧ a ^ 3 + A * a ^ 2 + a ≠ 0 ∧ (a ^ 3 + A * a ^ 2 + a) ^ (p / 2) = 1) ∨
    (nY A a = 0 ∧ (a ^ 3 + A * a ^ 2 + a) ^ (p / 2) = -1) := by
  have h2 : ringChar (ZMod p) ≠ 2 := by rwa [ZMod.ringChar_zmod_n]
  have h : (nY A a : ℤ) = quadraticChar (ZMod p) (a ^ 3 + A * a ^ 2 + a) + 1 := by
    rw [← quadraticChar_card_sqrts h2, Set.toFinset_card]
    rfl
  generalize a ^ 3 + A * a ^ 2 + a = c at *
  have he := quadraticChar_eq_pow_of_char_ne_two' h2 c
  rw [ZMod.card] at he
  by_cases hc : c = 0
  · subst hc
    rw [quadraticChar_zero] at h
    exact Or.inl ⟨by omega, rfl⟩
  rcases quadraticChar_dichotomy hc with hq | hq
  · rw [hq] at h he
    exact Or.inr (Or.inl ⟨by omega, hc, by rw [← he]; simp⟩)
  · rw [hq] at h he
    exact Or.inr (Or.inr ⟨by omega, by rw [← he]; simp⟩)

theorem nY_le (hp : p ≠ 2) (A a : ZMod p) : nY A a ≤ 2 := by
  rcases nY_cases hp A a with h | h | h <;> omega

/-- the cubic of the curve -/
noncomputable def fP (A : ZMod p) : (ZMod p)[X] := X ^ 3 + C A * X ^ 2 + X

/-- the numerator of the x-coordinate of (x^p, y^p) − (x, y) -/
noncomputable def FP (A : ZMod p) : (ZMod p)[X] :=
  fP A * (fP A ^ (p / 2) + 1) ^ 2 - (C A + X ^ p + X) * (X ^ p - X) ^ 2

theorem fP_degree (A : ZMod p) : (fP A).natDegree = 3 := by
  have : fP A = C 1 * X ^ 3 + C A * X ^ 2 + C 1 * X + C 0 := by simp [fP]
  rw [this]
  exact natDegree_cubic one_ne_zero

theorem FP_degree (hp : p ≠ 2) (A : ZMod p) : (FP A).natDegree = 2 * p + 1 := by
  have hpp : p.Prime := Fact.out
  have hodd := hpp.eq_two_or_odd.resolve_left hp
  have h3 : 3 ≤ p := by have := hpp.two_le; omega
  have hfp : fP A * (fP A ^ (p / 2)) ^ 2 = (X ^ p) ^ 3 + C A * (X ^ p) ^ 2 + X ^ p := by
    have : fP A * (fP A ^ (p / 2)) ^ 2 = fP A ^ p := by
      rw [← pow_mul, ← pow_succ']
      congr 1
      omega
    rw [this, fP, add_pow_char, add_pow_char, mul_pow, ← C_pow, ZMod.pow_card]
    simp only [← pow_mul, mul_comm]
  have e : FP A = X ^ (2 * p + 1) +
      (X ^ p + (2 * (fP A * fP A ^ (p / 2)) + (fP A + (2 * ((C A + X) * (X ^ p * X)) - (C A + (X + X ^ p)) * X ^ 2)))) := by
    unfold FP
    have : (X ^ (2 * p + 1) : (ZMod p)[X]) = (X ^ p) ^ 2 * X := by rw [← pow_mul, mul_comm, ← pow_succ, mul_comm p 2]
    rw [this]
    linear_combination hfp
  have hX : ∀ n, (X ^ n : (ZMod p)[X]).natDegree ≤ n := fun n => natDegree_X_pow_le n
  have hXX : (X : (ZMod p)[X]).natDegree ≤ 1 := natDegree_X_le
  have hC : (C A).natDegree ≤ 0 := (natDegree_C A).le
  have mx : ∀ {a b : (ZMod p)[X]} {n : ℕ}, a.natDegree ≤ n → b.natDegree ≤ n → (a + b).natDegree ≤ n :=
    fun h h' => (natDegree_add_le _ _).trans (max_le h h')
  rw [e, natDegree_add_eq_left_of_natDegree_lt, natDegree_X_pow]
  rw [natDegree_X_pow]
  apply Nat.lt_succ_of_le
  refine mx ((hX p).trans (by omega)) (mx ?_ (mx ?_ ((natDegree_sub_le _ _).trans (max_le ?_ ?_))))
  · refine (natDegree_two_mul_le _).trans (natDegree_mul_le.trans ?_)
    rw [natDegree_pow, fP_degree]
    omega
  · rw [fP_degree]; omega
  · refine (natDegree_two_mul_le _).trans (natDegree_mul_le.trans ?_)
    have a1 : (C A + X).natDegree ≤ 1 := mx (hC.trans (by omega)) hXX
    have a2 : (X ^ p * X : (ZMod p)[X]).natDegree ≤ p + 1 := natDegree_mul_le.trans (Nat.add_le_add (hX p) hXX)
    omega
  · refine natDegree_mul_le.trans ?_
    have a1 : (C A + (X + X ^ p) : (ZMod p)[X]).natDegree ≤ p := mx (hC.trans (by omega)) (mx (hXX.trans (by omega)) (hX p))
    have a2 := hX 2
    omega

theorem prod_all : ∏ a : ZMod p, (X - C a) = (X ^ p - X : (ZMod p)[X]) := by
  have hpp : p.Prime := Fact.out
  have hr := FiniteField.roots_X_pow_card_sub_X (ZMod p)
  have hd := FiniteField.X_pow_card_sub_X_natDegree_eq (ZMod p) hpp.one_lt
  rw [ZMod.card] at hr
  have hm : (X ^ p - X : (ZMod p)[X]).Monic := monic_X_pow_sub (by rw [degree_X]; exact_mod_cast hpp.one_lt)
  have := prod_multiset_X_sub_C_of_monic_of_roots_card_eq hm (by
    rw [hr, hd]
    simp [ZMod.card])
  rw [hr] at this
  exact this

theorem simple_root (two : (2 : ZMod p) ≠ 0) (hA : A ^ 2 ≠ 4) {a : ZMod p} (ha : a ^ 3 + A * a ^ 2 + a = 0) :
    (X - C a) ∣ FP A ∧ ¬ (X - C a) ^ 2 ∣ FP A := by
  have hL : (X - C a) ∣ (X ^ p - X : (ZMod p)[X]) := by
    rw [← prod_all]
    exact Finset.dvd_prod_of_mem _ (Finset.mem_univ a)
  have hLL : (X - C a) ^ 2 ∣ (C A + X ^ p + X) * (X ^ p - X : (ZMod p)[X]) ^ 2 := (pow_dvd_pow_of_dvd hL 2).mul_left _
  have hq : fP A = (X - C a) * (X ^ 2 + (C a + C A) * X + (C a ^ 2 + C A * C a + 1)) := by
    have h0 : C a ^ 3 + C A * C a ^ 2 + C a = 0 := by
      rw [← C_pow, ← C_pow, ← C_mul, ← C_add, ← C_add, ha, C_0]
    unfold fP
    linear_combination h0
  have hne : (X ^ 2 + (C a + C A) * X + (C a ^ 2 + C A * C a + 1)).eval a ≠ 0 := by
    simp only [eval_add, eval_mul, eval_pow, eval_X, eval_C, eval_one]
    intro hc
    have hn := W_nonsingular two hA (x := a) (y := 0) (by rw [ha]; ring)
    rw [WeierstrassCurve.Affine.nonsingular_iff] at hn
    rcases hn.2 with h | h
    · apply h
      simp only [W]
      linear_combination -hc
    · simp [W] at h
  have hpos : p / 2 ≠ 0 := by have := (Fact.out : p.Prime).two_le; omega
  constructor
  · unfold FP
    refine dvd_sub (Dvd.dvd.mul_right ⟨_, hq⟩ _) ((dvd_pow_self _ two_ne_zero).trans hLL)
  · intro hd
    unfold FP at hd
    rw [dvd_sub_left hLL] at hd
    rw [hq, mul_assoc, pow_two, mul_dvd_mul_iff_left (X_sub_C_ne_zero a), dvd_iff_isRoot, IsRoot.def, eval_mul] at hd
    rcases mul_eq_zero.mp hd with h | h
    · exact hne h
    · rw [eval_pow, eval_add, eval_pow, eval_mul] at h
      simp [hpos] at h

theorem fP_eval (A a : ZMod p) : (fP A).eval a = a ^ 3 + A * a ^ 2 + a := by simp [fP]

theorem exists_frac (hp : p ≠ 2) (two : (2 : ZMod p) ≠ 0) (hA : A ^ 2 ≠ 4) :
    ∃ N D M : (ZMod p)[X], IsCoprime N D ∧ D.natDegree < N.natDegree ∧ N.natDegree = Nat.card (W A).Point ∧ M ≠ 0 ∧
      D * M = (X ^ p - X) ^ 2 ∧ N * M = FP A := by
  classical
  set M : (ZMod p)[X] := ∏ a, (X - C a) ^ (2 - nY A a) with hM
  set D : (ZMod p)[X] := ∏ a, (X - C a) ^ nY A a with hD
  have hL : ∀ a, (X - C a) ∣ (X ^ p - X : (ZMod p)[X]) := fun a => by
    rw [← prod_all]
    exact Finset.dvd_prod_of_mem _ (Finset.mem_univ a)
  have hLL : ∀ a, (X - C a) ^ 2 ∣ (C A + X ^ p + X) * (X ^ p - X : (ZMod p)[X]) ^ 2 := fun a => (pow_dvd_pow_of_dvd (hL a) 2).mul_left _
  have hMm : M.Monic := monic_prod_of_monic _ _ fun a _ => (monic_X_sub_C a).pow _
  have hDm : D.Monic := monic_prod_of_monic _ _ fun a _ => (monic_X_sub_C a).pow _
  have hDM : D * M = (X ^ p - X) ^ 2 := by
    rw [hM, hD, ← Finset.prod_mul_distrib, ← prod_all, ← Finset.prod_pow]
    refine Finset.prod_congr rfl fun a _ => ?_
    rw [← pow_add]
    congr 1
    have := nY_le hp A a
    omega
  have hdvd : M ∣ FP A := by
    refine Finset.prod_dvd_of_coprime ?_ ?_
    · intro a _ b _ hab
      exact (pairwise_coprime_X_sub_C Function.injective_id hab).pow
    · intro a _
      rcases nY_cases hp A a with ⟨h1, h2⟩ | ⟨h1, -⟩ | ⟨h1, h2⟩
      · rw [h1]
        simpa using (simple_root two hA h2).1
      · rw [h1]
        simp
      · rw [h1]
        unfold FP
        refine dvd_sub (Dvd.dvd.mul_left (pow_dvd_pow_of_dvd ?_ 2) _) (hLL a)
        rw [dvd_iff_isRoot, IsRoot.def, eval_add, eval_pow, fP_eval, h2]
        simp
  obtain ⟨N, hN⟩ := hdvd
  have hF : (FP A).natDegree = 2 * p + 1 := FP_degree hp A
  have hF0 : FP A ≠ 0 := by intro h0; rw [h0] at hF; simp at hF
  have hN0 : N ≠ 0 := by rintro rfl; rw [mul_zero] at hN; exact hF0 hN
  have dD : D.natDegree = ∑ a, nY A a := by
    rw [hD, natDegree_prod_of_monic _ _ fun a _ => (monic_X_sub_C a).pow _]
    simp [natDegree_pow]
  have dN : N.natDegree = 1 + ∑ a, nY A a := by
    have h1 := congrArg natDegree hN
    rw [hF, natDegree_mul hMm.ne_zero hN0] at h1
    have h2 := congrArg natDegree hDM
    rw [natDegree_mul hDm.ne_zero hMm.ne_zero, natDegree_pow,
      FiniteField.X_pow_card_sub_X_natDegree_eq (ZMod p) (Fact.out : p.Prime).one_lt, dD] at h2
    omega
  refine ⟨N, D, M, ?_, by omega, by rw [dN, card_points two hA], hMm.ne_zero, hDM, by rw [hN, mul_comm]⟩
  refine IsCoprime.prod_right fun a _ => ?_
  by_cases h0 : nY A a = 0
  · rw [h0, pow_zero]
    exact isCoprime_one_right
  refine IsCoprime.pow_right ?_
  by_contra hc
  have hr : (X - C a) ∣ N := by
    by_contra hr
    exact hc (((irreducible_X_sub_C a).coprime_iff_not_dvd.mpr hr).symm)
  rcases nY_cases hp A a with ⟨h1, h2⟩ | ⟨h1, h2, h3⟩ | ⟨h1, -⟩
  · apply (simple_root two hA h2).2
    rw [hN, pow_two]
    refine mul_dvd_mul ?_ hr
    have : (X - C a) ^ (2 - nY A a) ∣ M := Finset.dvd_prod_of_mem (fun a => (X - C a) ^ (2 - nY A a)) (Finset.mem_univ a)
    rw [h1] at this
    simpa using this
  · have hd : (X - C a) ∣ FP A := by rw [hN]; exact hr.mul_left M
    unfold FP at hd
    rw [dvd_sub_left ((dvd_pow_self _ two_ne_zero).trans (hLL a)), dvd_iff_isRoot, IsRoot.def, eval_mul, eval_pow, eval_add, eval_pow, fP_eval, h3] at hd
    rcases mul_eq_zero.mp hd with h | h
    · exact h2 h
    · rw [eval_one] at h
      apply mul_ne_zero two two
      linear_combination h
  · exact h0 h1

/-- Hasse's theorem: b = p + 1 − #E satisfies b² ≤ 4p. -/
theorem hasse (hp : p ≠ 2) (hA : A ^ 2 ≠ 4) : ((p : ℤ) + 1 - Nat.card (W A).Point) ^ 2 ≤ 4 * p := by
  classical
  have hpp : p.Prime := Fact.out
  have two : (2 : ZMod p) ≠ 0 := by
    intro h
    have h3 : ((2 : ℕ) : ZMod p) = 0 := by exact_mod_cast h
    have h2 := Nat.le_of_dvd (by decide) ((ZMod.natCast_eq_zero_iff 2 p).mp h3)
    have := hpp.two_le
    omega
  have hodd := hpp.eq_two_or_odd.resolve_left hp
  let Ω := AlgebraicClosure (RatFunc (ZMod p))
  let t : Ω := algebraMap (RatFunc (ZMod p)) Ω RatFunc.X
  have ht : Function.Injective (aeval t : (ZMod p)[X] → Ω) := by
    have h1 : Transcendental (ZMod p) t := (transcendental_algebraMap_iff (algebraMap (RatFunc (ZMod p)) Ω).injective).mpr (RatFunc.transcendental_X)
    exact transcendental_iff_injective.mp h1
  obtain ⟨s, hs⟩ := IsAlgClosed.exists_pow_nat_eq (t ^ 3 + algebraMap (ZMod p) Ω A * t ^ 2 + t) (n := 2) (by norm_num)
  have : CharP Ω p := charP_of_injective_algebraMap (algebraMap (ZMod p) Ω).injective p
  have hB : (algebraMap (ZMod p) Ω A) ^ p = algebraMap (ZMod p) Ω A := by rw [← map_pow, ZMod.pow_card]
  have hs' : (s ^ p) ^ 2 = (t ^ p) ^ 3 + algebraMap (ZMod p) Ω A * (t ^ p) ^ 2 + t ^ p := by
    rw [← pow_mul, mul_comm, pow_mul, hs, add_pow_char, add_pow_char, mul_pow, hB]
    simp only [← pow_mul, mul_comm]
  have nP := W_nonsingular (two' two) (hA' (Ω := Ω) hA) hs
  have nQ := W_nonsingular (two' two) (hA' (Ω := Ω) hA) hs'
  let P : (W (algebraMap (ZMod p) Ω A)).Point := .some t s nP
  let Q : (W (algebraMap (ZMod p) Ω A)).Point := .some (t ^ p) (s ^ p) nQ
  have hP : P ≠ 0 := WeierstrassCurve.Affine.Point.some_ne_zero nP
  have hQ : Q ≠ 0 := WeierstrassCurve.Affine.Point.some_ne_zero nQ
  have bQ : Ht t Q p := Or.inr ⟨hQ, X ^ p, 1, isCoprime_one_right, by simpa using hpp.pos, by simp, by
    show t ^ p * _ = _
    simp⟩
  have hne : xc Q ≠ xc (-P) := by
    rw [xc_neg]
    intro h
    have h' : (X ^ p : (ZMod p)[X]) = X := ht (by rw [map_pow, aeval_X]; exact h)
    have := congrArg natDegree h'
    rw [natDegree_X_pow, natDegree_X] at this
    exact hpp.one_lt.ne' this
  have hQP : Q - P ≠ 0 := by
    intro h
    exact hne (by rw [xc_neg, sub_eq_zero.mp h])
  have bQP : Ht t (Q - P) (Nat.card (W A).Point) := by
    obtain ⟨N, D, M, h1, h2, h3, h4, h5, h6⟩ := exists_frac hp two hA
    refine Or.inr ⟨hQP, N, D, h1, h2, h3, ?_⟩
    apply mul_right_cancel₀ (ae_ne ht h4)
    rw [mul_assoc, ← map_mul, ← map_mul, h5, h6, sub_eq_add_neg Q]
    have ha := xc_add hQ (neg_ne_zero.mpr hP) hne
    rw [xc_neg, yc_neg] at ha
    have e1 : aeval t (fP A) = s ^ 2 := by rw [hs]; simp [fP]
    have e2 : s ^ p = s * (s ^ 2) ^ (p / 2) := by
      rw [← pow_mul, ← pow_succ']
      congr 1
      omega
    simp only [FP, map_sub, map_mul, map_pow, map_add, map_one, aeval_X, aeval_C, e1]
    refine ha.trans ?_
    show (s ^ p - -s) ^ 2 - (algebraMap (ZMod p) Ω A + t ^ p + t) * (t ^ p - t) ^ 2 = _
    rw [e2]
    ring
  have hall := ht_all ht two hA hP rfl bQ bQP
  generalize (Nat.card (W A).Point) = c at *
  generalize hb : (p : ℤ) + 1 - c = b at *
  rcases Int.even_or_odd' b with ⟨m, rfl | rfl⟩
  · obtain ⟨e, he, -⟩ := hall (-m)
    have : (0 : ℤ) ≤ e := Int.natCast_nonneg e
    nlinarith
  · obtain ⟨e, he, -⟩ := hall (-m)
    have h0 : (0 : ℤ) ≤ e := Int.natCast_nonneg e
    have hne : (p : ℤ) ≠ m * (m + 1) := by
      intro h
      have := Int.even_mul_succ_self m
      rw [← h] at this
      have := Int.even_iff.mp this
      omega
    have hle : m * (m + 1) ≤ p := by nlinarith
    have := lt_of_le_of_ne hle hne.symm
    nlinarith

end Verif.Hasse
