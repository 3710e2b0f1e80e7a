import Verif.Lemmas.HassePoly
import Verif.Lemmas.XOnly
import Mathlib.Algebra.Polynomial.AlgebraMap
import Mathlib.Tactic.Ring

/-!
Manin's proof of Hasse's theorem: the degrees of the x-coordinates of Q + nP, for the generic point P of a Montgomery curve, form a
quadratic polynomial in n.
-/

set_option linter.unusedSectionVars false

namespace Verif.Hasse

open Polynomial XOnly

variable {k Ω : Type*} [Field k] [Field Ω] [Algebra k Ω] [DecidableEq Ω] {A : k} {t : Ω}

/-- the x-coordinate of X is a rational function of t, of degree d, without a pole of order 0 at infinity -/
def Ht (t : Ω) (X : (W (algebraMap k Ω A)).Point) (d : ℕ) : Prop :=
  (X = 0 ∧ d = 0) ∨ (X ≠ 0 ∧ ∃ N D : k[X], IsCoprime N D ∧ D.natDegree < N.natDegree ∧ N.natDegree = d ∧
    xc X * aeval t D = aeval t N)

theorem D_ne {N D : k[X]} (h : IsCoprime N D) (hd : D.natDegree < N.natDegree) : D ≠ 0 := by
  rintro rfl
  rw [isCoprime_zero_right] at h
  rw [natDegree_eq_zero_of_isUnit h] at hd
  simp at hd

theorem N_ne {N D : k[X]} (hd : D.natDegree < N.natDegree) : N ≠ 0 := by
  rintro rfl
  simp at hd

theorem ht_neg {X : (W (algebraMap k Ω A)).Point} {d : ℕ} (h : Ht t X d) : Ht t (-X) d := by
  rcases h with ⟨h, hd⟩ | ⟨h, N, D, h1, h2, h3, h4⟩
  · exact Or.inl ⟨by rw [h, neg_zero], hd⟩
  · exact Or.inr ⟨neg_ne_zero.mpr h, N, D, h1, h2, h3, by rw [xc_neg, h4]⟩

theorem ht_zero {X : (W (algebraMap k Ω A)).Point} (h : Ht t X 0) : X = 0 := by
  rcases h with ⟨h, hd⟩ | ⟨h, N, D, h1, h2, h3, h4⟩
  · exact h
  · omega

variable (ht : Function.Injective (aeval t : k[X] → Ω))

include ht

theorem ae_ne {q : k[X]} (hq : q ≠ 0) : aeval t q ≠ 0 := fun h => hq (ht (by rw [h, map_zero]))

theorem ht_unique {X : (W (algebraMap k Ω A)).Point} {d d' : ℕ} (h : Ht t X d) (h' : Ht t X d') : d = d' := by
  rcases h with ⟨h, hd⟩ | ⟨h, N, D, h1, h2, h3, h4⟩ <;> rcases h' with ⟨h', hd'⟩ | ⟨h', N', D', h1', h2', h3', h4'⟩
  · omega
  · exact absurd h h'
  · exact absurd h' h
  · have e : N * D' = N' * D := by
      apply ht
      rw [map_mul, map_mul, ← h4, ← h4']; ring
    have a1 : N ∣ N' := h1.dvd_of_dvd_mul_right ⟨D', by rw [← e]⟩
    have a2 : N' ∣ N := h1'.dvd_of_dvd_mul_right ⟨D, by rw [e]⟩
    rw [← h3, ← h3']
    exact le_antisymm (natDegree_le_of_dvd a1 (N_ne h2')) (natDegree_le_of_dvd a2 (N_ne h2))

omit ht in
theorem ht_base {P : (W (algebraMap k Ω A)).Point} (hP : P ≠ 0) (hx : xc P = t) : Ht t P 1 :=
  Or.inr ⟨hP, X, 1, isCoprime_one_right, by simp, by simp, by simp [hx]⟩

variable (two : (2 : k) ≠ 0) (hA : A ^ 2 ≠ 4)

include two hA

omit ht hA in
theorem two' : (2 : Ω) ≠ 0 := by
  intro h
  apply two
  apply (algebraMap k Ω).injective
  rw [map_ofNat, map_zero, h]

omit ht two in
theorem hA' : (algebraMap k Ω A) ^ 2 ≠ 4 := by
  intro h
  apply hA
  apply (algebraMap k Ω).injective
  rw [map_pow, h, map_ofNat]

/-- four times the cubic of the curve -/
noncomputable def cub (A : k) : k[X] := 4 * (X * (X ^ 2 + C A * X + 1))

omit hA two ht in
theorem cub_eval : aeval t (cub A) = dblDen (algebraMap k Ω A) t := by
  simp only [cub, dblDen, map_mul, map_add, map_pow, map_one, aeval_X, aeval_C, map_ofNat]

omit hA ht [DecidableEq Ω] [Algebra k Ω] [Field Ω] in
theorem cub_degree : (cub A).natDegree = 3 := by
  unfold cub
  have h4 : (4 : k) ≠ 0 := by
    intro h4
    apply mul_ne_zero two two
    linear_combination h4
  rw [show (4 : k[X]) * (X * (X ^ 2 + C A * X + 1)) = C 4 * X ^ 3 + C (4 * A) * X ^ 2 + C 4 * X + C 0 by
    rw [C_mul, map_ofNat, C_0]; ring]
  exact natDegree_cubic h4

omit ht [DecidableEq Ω] [Algebra k Ω] [Field Ω] in
theorem dbl_coprime : IsCoprime ((X ^ 2 - 1) ^ 2 : k[X]) (cub A) := by
  obtain ⟨u, v, w, e⟩ := coprime2 (A := A) two hA (N := X) (D := 1) isCoprime_one_right
  refine ⟨w, v, ?_⟩
  unfold wP sP vP at e
  unfold cub
  linear_combination e

theorem ht_dbl {P : (W (algebraMap k Ω A)).Point} (hP : P ≠ 0) (hx : xc P = t) : Ht t (P + P) 4 ∧ P + P ≠ 0 := by
  have hT : (W (algebraMap k Ω A)).Nonsingular 0 0 := W_nonsingular (two' two) (hA' hA) (by ring)
  have X0 := XRep.base (two' two) hT
  have hc : aeval t (cub A) ≠ 0 := ae_ne ht (fun h => by have := cub_degree (A := A) two; rw [h] at this; simp at this)
  have h0 : P + P ≠ 0 := by
    intro h0
    have := X0.dbl0 P (by rwa [AddSubgroup.mem_bot]) (by rwa [AddSubgroup.mem_bot])
    rw [hx, ← cub_eval] at this
    exact hc this
  refine ⟨Or.inr ⟨h0, (X ^ 2 - 1) ^ 2, cub A, dbl_coprime two hA, ?_, ?_, ?_⟩, h0⟩
  · rw [cub_degree two, natDegree_pow, show (X ^ 2 - 1 : k[X]) = X ^ 2 - C 1 by simp, natDegree_X_pow_sub_C]; norm_num
  · rw [natDegree_pow, show (X ^ 2 - 1 : k[X]) = X ^ 2 - C 1 by simp, natDegree_X_pow_sub_C]
  · rw [cub_eval]
    have := (X0.dbl P (by rwa [AddSubgroup.mem_bot]) (by rwa [AddSubgroup.mem_bot])).2
    rw [hx] at this
    rw [this]
    simp

theorem ht_step {P Z : (W (algebraMap k Ω A)).Point} (hP : P ≠ 0) (hx : xc P = t) {d d' : ℕ} (h : Ht t Z d) (h' : Ht t (Z - P) d') :
    ∃ d'', d'' + d' = 2 * d + 2 ∧ Ht t (Z + P) d'' := by
  have hb := ht_base (k := k) hP hx
  obtain ⟨hd2, h2P⟩ := ht_dbl ht two hA hP hx
  by_cases z0 : Z = 0
  · subst z0
    have a := ht_unique ht h (Or.inl ⟨rfl, rfl⟩)
    rw [zero_sub] at h'
    have b := ht_unique ht h' (ht_neg hb)
    exact ⟨1, by omega, by rwa [zero_add]⟩
  by_cases z1 : Z = P
  · subst z1
    rw [sub_self] at h'
    have a := ht_unique ht h hb
    have b := ht_unique ht h' (Or.inl ⟨rfl, rfl⟩)
    exact ⟨4, by omega, hd2⟩
  by_cases z2 : Z = -P
  · subst z2
    have a := ht_unique ht h (ht_neg hb)
    rw [show -P - P = -(P + P) by abel] at h'
    have b := ht_unique ht h' (ht_neg hd2)
    exact ⟨0, by omega, Or.inl ⟨by abel, rfl⟩⟩
  have hT : (W (algebraMap k Ω A)).Nonsingular 0 0 := W_nonsingular (two' two) (hA' hA) (by ring)
  have X0 := XRep.base (two' two) hT
  have hp0 : Z + P ≠ 0 := fun hc => z2 (eq_neg_of_add_eq_zero_left hc)
  have hm0 : Z - P ≠ 0 := fun hc => z1 (sub_eq_zero.mp hc)
  have da := X0.add Z P (by rwa [AddSubgroup.mem_bot]) (by rwa [AddSubgroup.mem_bot]) (by rwa [AddSubgroup.mem_bot]) (by rwa [AddSubgroup.mem_bot])
  rw [hx] at da
  rcases h with ⟨h, hd⟩ | ⟨h, N, D, h1, h2, h3, h4⟩
  · exact absurd h z0
  rcases h' with ⟨h', hd'⟩ | ⟨h', N', D', h1', h2', h3', h4'⟩
  · exact absurd h' hm0
  have hD := ae_ne ht (D_ne h1 h2)
  have hN' := ae_ne ht (N_ne h2')
  have hD' := ae_ne ht (D_ne h1' h2')
  have ew : aeval t (wP N D) = aeval t D * (xc Z - t) := by
    simp only [wP, map_sub, map_mul, aeval_X, ← h4]; ring
  have ev : aeval t (vP N D) = aeval t D * (xc Z * t - 1) := by
    simp only [vP, map_sub, map_mul, aeval_X, ← h4]; ring
  have es : aeval t (sP A N D) = aeval t D ^ 2 * (2 * ((xc Z * t + 1) * (xc Z + t) + 2 * algebraMap k Ω A * (xc Z * t))) := by
    simp only [sP, map_add, map_mul, aeval_X, aeval_C, map_ofNat, ← h4]; ring
  have hw : wP N D ≠ 0 := by
    intro h0
    rw [h0, map_zero] at ew
    exact mul_ne_zero hD (sub_ne_zero.mpr da.ne) ew.symm
  have hw' := ae_ne ht hw
  obtain ⟨N'', D'', h1'', hD'', e⟩ := reduce (vP N D ^ 2 * D') (mul_ne_zero (N_ne h2') (pow_ne_zero 2 hw))
  have hv' : xc (Z + P) * aeval t D'' = aeval t N'' := by
    have e' := congrArg (aeval t) e
    simp only [map_mul, map_pow] at e'
    apply mul_right_cancel₀ (mul_ne_zero hN' (pow_ne_zero 2 hw'))
    rw [← e', ev, ← h4', ew]
    linear_combination (aeval t D'' * aeval t D' * aeval t D ^ 2) * da.prod
  have e1 : N' * N'' * wP N D ^ 2 = vP N D ^ 2 * (D' * D'') := by linear_combination -e
  have e2 : (N' * D'' + N'' * D') * wP N D ^ 2 = sP A N D * (D' * D'') := by
    apply ht
    simp only [map_mul, map_add, map_pow]
    rw [← hv', ← h4', ew, es]
    linear_combination (aeval t D'' * aeval t D' * aeval t D ^ 2) * da.sum
  obtain ⟨g1, g2⟩ := degree_step two hA h1 h1' h1'' h2 h2' hw hD'' e1 e2
  exact ⟨N''.natDegree, by omega, Or.inr ⟨hp0, N'', D'', h1'', g2, rfl, hv'⟩⟩

theorem ht_all {P Q : (W (algebraMap k Ω A)).Point} (hP : P ≠ 0) (hx : xc P = t) {d d' : ℕ} (h : Ht t Q d) (h' : Ht t (Q - P) d') (n : ℤ) :
    ∃ e : ℕ, (e : ℤ) = n ^ 2 + (d + 1 - d') * n + d ∧ Ht t (Q + n • P) e := by
  suffices key : ∀ n : ℤ, (∃ e : ℕ, (e : ℤ) = n ^ 2 + (d + 1 - d') * n + d ∧ Ht t (Q + n • P) e) ∧
      ∃ e : ℕ, (e : ℤ) = (n - 1) ^ 2 + (d + 1 - d') * (n - 1) + d ∧ Ht t (Q + (n - 1) • P) e from (key n).1
  intro n
  induction n using Int.induction_on with
  | zero =>
    refine ⟨⟨d, by ring, by simpa using h⟩, d', by ring, ?_⟩
    rw [zero_sub, neg_one_zsmul, ← sub_eq_add_neg]
    exact h'
  | succ n ih =>
    obtain ⟨⟨e, he, i⟩, e', he', i'⟩ := ih
    have hs : Q + ((n : ℤ) - 1) • P = Q + (n : ℤ) • P - P := by rw [sub_zsmul, one_zsmul]; abel
    rw [hs] at i'
    obtain ⟨e'', h1, h2⟩ := ht_step ht two hA hP hx i i'
    refine ⟨⟨e'', ?_, ?_⟩, e, ?_, ?_⟩
    · have : (e'' : ℤ) + e' = 2 * e + 2 := by exact_mod_cast h1
      linear_combination this + 2 * he - he'
    · rw [add_zsmul, one_zsmul, ← add_assoc]; exact h2
    · rw [he]; ring
    · rw [add_sub_cancel_right]; exact i
  | pred n ih =>
    obtain ⟨⟨e, he, i⟩, e', he', i'⟩ := ih
    refine ⟨⟨e', he', i'⟩, ?_⟩
    have hs : Q + (-(n : ℤ)) • P = Q + (-(n : ℤ) - 1) • P - (-P) := by rw [sub_zsmul, one_zsmul]; abel
    rw [hs] at i
    obtain ⟨e'', h1, h2⟩ := ht_step ht two hA (P := -P) (neg_ne_zero.mpr hP) (by rw [xc_neg, hx]) i' i
    refine ⟨e'', ?_, ?_⟩
    · have : (e'' : ℤ) + e = 2 * e' + 2 := by exact_mod_cast h1
      linear_combination this + 2 * he' - he
    · rw [sub_zsmul, one_zsmul, sub_eq_add_neg, ← add_assoc]; exact h2

end Verif.Hasse
