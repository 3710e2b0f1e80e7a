import Mathlib.RingTheory.PrincipalIdealDomain
import Mathlib.RingTheory.EuclideanDomain
import Mathlib.Algebra.Polynomial.FieldDivision
import Mathlib.Tactic.LinearCombination

/-!
The step of Manin's proof of Hasse's theorem on polynomials: the degree of the x-coordinate of X + P, for the generic point P, from
those of X and X − P.
-/

namespace Verif.Hasse

open Polynomial

variable {k : Type*} [Field k]

theorem bezout3 {a b c : k[X]} (h : ∀ q, Irreducible q → q ∣ a → q ∣ b → q ∣ c → False) :
    ∃ u v w, u * a + v * b + w * c = 1 := by
  obtain ⟨g, hg⟩ := (IsPrincipalIdealRing.principal (Ideal.span {a, b, c}))
  have hd : ∀ x ∈ ({a, b, c} : Set k[X]), g ∣ x := by
    intro x hx
    have : x ∈ Ideal.span {g} := by rw [← Ideal.submodule_span_eq, ← hg]; exact Ideal.subset_span hx
    exact Ideal.mem_span_singleton.mp this
  have ha := hd a (by simp)
  have hb := hd b (by simp)
  have hc := hd c (by simp)
  have hu : IsUnit g := by
    by_contra hu
    by_cases h0 : g = 0
    · subst h0
      rw [zero_dvd_iff] at ha hb hc
      exact h X irreducible_X (by simp [ha]) (by simp [hb]) (by simp [hc])
    · obtain ⟨q, hq, hqg⟩ := WfDvdMonoid.exists_irreducible_factor hu h0
      exact h q hq (hqg.trans ha) (hqg.trans hb) (hqg.trans hc)
  have h1 : (1 : k[X]) ∈ Ideal.span {a, b, c} := by
    rw [hg, Ideal.submodule_span_eq, Ideal.mem_span_singleton]
    exact hu.dvd
  rw [Ideal.mem_span_insert] at h1
  obtain ⟨u, z, hz, e⟩ := h1
  rw [Ideal.mem_span_pair] at hz
  obtain ⟨v, w, rfl⟩ := hz
  exact ⟨u, v, w, by rw [e]; ring⟩

/-- the right hand sides of the differential addition law of N/D and X -/
noncomputable def wP (N D : k[X]) : k[X] := N - X * D
noncomputable def vP (N D : k[X]) : k[X] := N * X - D
noncomputable def sP (A : k) (N D : k[X]) : k[X] := 2 * ((N * X + D) * (N + X * D) + 2 * C A * (X * N * D))

theorem coprime1 {N D N' D' : k[X]} (h : IsCoprime N D) (h' : IsCoprime N' D') :
    ∃ u v w, u * (D * D') + v * (N * D' + N' * D) + w * (N * N') = 1 := by
  apply bezout3
  intro q hq h1 h2 h3
  have hp := hq.prime
  have key : ∀ {n d n' d' : k[X]}, IsCoprime n d → IsCoprime n' d' → q ∣ d → q ∣ n * d' + n' * d → q ∣ n * n' → False := by
    intro n d n' d' i i' a b c
    have hn : ¬ q ∣ n := fun hn => hp.not_isUnit (i.isUnit_of_dvd' hn a)
    have hn' : q ∣ n' := (hp.dvd_or_dvd c).resolve_left hn
    have hd' : q ∣ n * d' := (dvd_add_left (hn'.mul_right d)).mp b
    exact hp.not_isUnit (i'.isUnit_of_dvd' hn' ((hp.dvd_or_dvd hd').resolve_left hn))
  rcases hp.dvd_or_dvd h1 with h1 | h1
  · exact key h h' h1 h2 h3
  · exact key h' h h1 (by rwa [add_comm]) (by rwa [mul_comm])

theorem coprime2 (two : (2 : k) ≠ 0) {A : k} (hA : A ^ 2 ≠ 4) {N D : k[X]} (h : IsCoprime N D) :
    ∃ u v w, u * wP N D ^ 2 + v * sP A N D + w * vP N D ^ 2 = 1 := by
  apply bezout3
  intro q hq h1 h2 h3
  have hp := hq.prime
  have hw := hp.dvd_of_dvd_pow h1
  have hv := hp.dvd_of_dvd_pow h3
  have unit : ∀ c : k, c ≠ 0 → ¬ q ∣ C c := fun c hc hd => hp.not_isUnit (isUnit_of_dvd_unit hd (isUnit_C.mpr hc.isUnit))
  have hD : ¬ q ∣ D := by
    intro hD
    refine hp.not_isUnit (h.isUnit_of_dvd' ?_ hD)
    have : N = wP N D + X * D := by unfold wP; ring
    rw [this]
    exact dvd_add hw (hD.mul_left X)
  have hX : q ∣ (X - 1) * (X + 1) := by
    have : D * ((X - 1) * (X + 1)) = vP N D - X * wP N D := by unfold wP vP; ring
    have hd : q ∣ D * ((X - 1) * (X + 1)) := by rw [this]; exact dvd_sub hv (hw.mul_left X)
    exact (hp.dvd_or_dvd hd).resolve_left hD
  have hS : q ∣ 4 * X * (X ^ 2 + C A * X + 1) := by
    have : D ^ 2 * (4 * X * (X ^ 2 + C A * X + 1)) = sP A N D - wP N D * (2 * (X * (N + X * D + X * D) + D + 2 * C A * X * D)) := by
      unfold wP sP; ring
    have hd : q ∣ D ^ 2 * (4 * X * (X ^ 2 + C A * X + 1)) := by rw [this]; exact dvd_sub h2 (hw.mul_right _)
    exact (hp.dvd_or_dvd hd).resolve_left (fun hc => hD (hp.dvd_of_dvd_pow hc))
  have h4 : (4 : k) ≠ 0 := by
    intro h4
    apply mul_ne_zero two two
    linear_combination h4
  rcases hp.dvd_or_dvd hX with hX | hX
  · apply unit (4 * (2 + A)) (mul_ne_zero h4 (fun hc => hA (by linear_combination (A - 2) * hc)))
    have : C (4 * (2 + A)) = 4 * X * (X ^ 2 + C A * X + 1) - (X - 1) * (4 * (X ^ 2 + X + 1 + C A * (X + 1) + 1)) := by
      rw [C_mul, C_add, map_ofNat, map_ofNat]; ring
    rw [this]
    exact dvd_sub hS (hX.mul_right _)
  · apply unit (4 * (A - 2)) (mul_ne_zero h4 (fun hc => hA (by linear_combination (A + 2) * hc)))
    have : C (4 * (A - 2)) = 4 * X * (X ^ 2 + C A * X + 1) - (X + 1) * (4 * (X ^ 2 - X + 1 + C A * (X - 1) + 1)) := by
      rw [C_mul, C_sub, map_ofNat, map_ofNat]; ring
    rw [this]
    exact dvd_sub hS (hX.mul_right _)

theorem natDegree_two_mul_le (q : k[X]) : (2 * q).natDegree ≤ q.natDegree := by
  rw [show (2 : k[X]) = C 2 from (map_ofNat C 2).symm]
  exact natDegree_C_mul_le _ _

theorem degree_step (two : (2 : k) ≠ 0) {A : k} (hA : A ^ 2 ≠ 4) {N D N' D' N'' D'' : k[X]} (h : IsCoprime N D)
    (h' : IsCoprime N' D') (h'' : IsCoprime N'' D'') (hd : D.natDegree < N.natDegree) (hd' : D'.natDegree < N'.natDegree) (hw0 : wP N D ≠ 0)
    (hD'' : D'' ≠ 0) (e1 : N' * N'' * wP N D ^ 2 = vP N D ^ 2 * (D' * D''))
    (e2 : (N' * D'' + N'' * D') * wP N D ^ 2 = sP A N D * (D' * D'')) :
    N'.natDegree + N''.natDegree = 2 * N.natDegree + 2 ∧ D''.natDegree < N''.natDegree := by
  have hN : N ≠ 0 := by rintro rfl; simp at hd
  have hN' : N' ≠ 0 := by rintro rfl; simp at hd'
  have hD' : D' ≠ 0 := by
    rintro rfl
    rw [isCoprime_zero_right] at h'
    rw [natDegree_eq_zero_of_isUnit h'] at hd'
    simp at hd'
  have hw : wP N D ^ 2 ≠ 0 := pow_ne_zero 2 hw0
  obtain ⟨a, b, c, i1⟩ := coprime1 h' h''
  obtain ⟨u, v, w, i2⟩ := coprime2 two hA h
  have hr : wP N D ^ 2 = D' * D'' * (a * wP N D ^ 2 + b * sP A N D + c * vP N D ^ 2) := by
    linear_combination -(wP N D ^ 2) * i1 + b * e2 + c * e1
  have hs : D' * D'' = wP N D ^ 2 * (u * (D' * D'') + v * (N' * D'' + N'' * D') + w * (N' * N'')) := by
    linear_combination -(D' * D'') * i2 - v * e2 - w * e1
  generalize a * wP N D ^ 2 + b * sP A N D + c * vP N D ^ 2 = r at hr
  generalize u * (D' * D'') + v * (N' * D'' + N'' * D') + w * (N' * N'') = s at hs
  have hsr : s * r = 1 := by
    apply mul_left_cancel₀ hw
    rw [hs] at hr
    linear_combination -hr
  have hsu : IsUnit s := IsUnit.of_mul_eq_one r hsr
  have hs0 := natDegree_eq_zero_of_isUnit hsu
  have f1 : N' * N'' = s * vP N D ^ 2 := by
    apply mul_right_cancel₀ hw
    rw [e1, hs]; ring
  have f2 : N' * D'' + N'' * D' = s * sP A N D := by
    apply mul_right_cancel₀ hw
    rw [e2, hs]; ring
  have hv : (vP N D).natDegree = N.natDegree + 1 := by
    unfold vP
    rw [natDegree_sub_eq_left_of_natDegree_lt, natDegree_mul_X hN]
    rw [natDegree_mul_X hN]; omega
  have hv0 : vP N D ≠ 0 := by
    intro h0
    rw [h0] at hv; simp at hv
  have hN'' : N'' ≠ 0 := by
    rintro rfl
    rw [mul_zero] at f1
    exact mul_ne_zero hsu.ne_zero (pow_ne_zero 2 hv0) f1.symm
  have d1 : N'.natDegree + N''.natDegree = 2 * N.natDegree + 2 := by
    have := congrArg natDegree f1
    rw [natDegree_mul hN' hN'', natDegree_mul hsu.ne_zero (pow_ne_zero 2 hv0), hs0, natDegree_pow, hv] at this
    omega
  refine ⟨d1, ?_⟩
  have dS : (sP A N D).natDegree ≤ 2 * N.natDegree + 1 := by
    have k1 : (N * X + D).natDegree ≤ N.natDegree + 1 := (natDegree_add_le _ _).trans (max_le (natDegree_mul_X hN).le (by omega))
    have kx : (X * D).natDegree ≤ N.natDegree := natDegree_mul_le.trans (by rw [natDegree_X]; omega)
    have k2 : (N + X * D).natDegree ≤ N.natDegree := (natDegree_add_le _ _).trans (max_le le_rfl kx)
    unfold sP
    refine (natDegree_two_mul_le _).trans ((natDegree_add_le _ _).trans (max_le ?_ ?_))
    · exact natDegree_mul_le.trans (by omega)
    · rw [show 2 * C A * (X * N * D) = 2 * (C A * (N * (X * D))) by ring]
      refine (natDegree_two_mul_le _).trans ((natDegree_C_mul_le _ _).trans (natDegree_mul_le.trans ?_))
      omega
  by_contra hc
  push Not at hc
  have hlt : (N'' * D').natDegree < (N' * D'').natDegree := by
    rw [natDegree_mul hN'' hD', natDegree_mul hN' hD'']
    omega
  have := congrArg natDegree f2
  rw [natDegree_add_eq_left_of_natDegree_lt hlt, natDegree_mul hN' hD''] at this
  have h3 : (s * sP A N D).natDegree ≤ 2 * N.natDegree + 1 := natDegree_mul_le.trans (by omega)
  omega

theorem reduce (n : k[X]) {m : k[X]} (hm : m ≠ 0) : ∃ N D, IsCoprime N D ∧ D ≠ 0 ∧ n * D = N * m := by
  classical
  let _ : GCDMonoid k[X] := EuclideanDomain.gcdMonoid _
  have hg : GCDMonoid.gcd n m ≠ 0 := gcd_ne_zero_of_right hm
  have e1 := EuclideanDomain.mul_div_cancel' hg (gcd_dvd_left n m)
  have e2 := EuclideanDomain.mul_div_cancel' hg (gcd_dvd_right n m)
  refine ⟨n / GCDMonoid.gcd n m, m / GCDMonoid.gcd n m, isCoprime_div_gcd_div_gcd hm, ?_, ?_⟩
  · intro h0
    rw [h0, mul_zero] at e2
    exact hm e2.symm
  · linear_combination -(m / GCDMonoid.gcd n m) * e1 + (n / GCDMonoid.gcd n m) * e2

end Verif.Hasse
