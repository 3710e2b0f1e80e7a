import Verif.Lemmas.XOddStep
import Mathlib.FieldTheory.IsAlgClosed.Basic

/-!
The chain of quotients of a curve by cyclic groups of odd order, with y-coordinates and an endomorphism that acts on
the coordinates by a field homomorphism.
-/

namespace Verif.XOnly

open Finset

variable {K : Type*} [Field K] {Γ : Type*} [AddCommGroup Γ]
variable {A : K} {N : AddSubgroup Γ} {T : Γ} {g y : Γ → K} {κ τ : Γ} {d : ℕ} {φ : K →+* K} {π : Γ →+ Γ}

/-! ### the quotient is a representation -/

theorem XRep.stepOdd (X : XRep A N T g) (h : KerOdd N κ d) (G : XGen N g κ) (hτ : Ker2 N T τ) :
    XRep (aOdd g κ τ d) (N ⊔ AddSubgroup.zmultiples κ) T (gOdd g κ d) := by
  have k2 := h.ker2 X hτ
  have hden : ∀ P, P ∉ N ⊔ AddSubgroup.zmultiples κ → dblDen (aOdd g κ τ d) (gOdd g κ d P) * 16 ^ d = rOdd g κ d ^ 2 * nrm κ d (fun R => dblDen A (g R)) P := by
    intro P hP
    have h1 := h.curve X G hτ hP
    have e : nrm κ d (fun R => dblDen A (g R)) P = 4 ^ (2 * d + 1) * nrm κ d (fun R => g R * (g R ^ 2 + A * g R + 1)) P := by
      rw [← nrm_cmul]; rfl
    have e2 : (4 : K) ^ (2 * d + 1) = 4 * 16 ^ d := by rw [pow_succ, pow_mul]; norm_num [mul_comm]
    rw [e, dblDen, h1, e2]
    ring
  have h4 : (16 : K) ≠ 0 := by
    have := mul_ne_zero X.four X.four
    norm_num at this
    exact this
  have hr : rOdd g κ d ≠ 0 := mul_ne_zero (pow_ne_zero _ X.four) (mul_ne_zero (div_ne_zero (h.cc_ne X) (h.dd_one X)) (div_ne_zero (h.cc_ne X) (h.dd_neg X)))
  refine ⟨X.two, AddSubgroup.mem_sup_left X.T2, h.T_notMem X, ?_, ?_, ?_, ?_, ?_, ?_⟩
  · rw [gOdd, X.zero, phiOdd, nn, zero_mul, zero_div]
  · intro P hP
    rw [gOdd, gOdd, X.neg P (off0 hP)]
  · intro P n hP hn
    rw [h.g_eq X hP, h.g_eq X (notMem_add hP hn), nrm_class X.shift h hP hn]
  · intro P Q hP hQ hs hd
    exact ⟨h.g_inj X G hP hQ hs hd, h.prod_law X G hP hQ hs hd, h.sum_law X G hτ hP hQ hs hd⟩
  · intro P hP hPP
    have hj : ∀ j : ℕ, P + j • κ + (P + j • κ) ∉ N := by
      intro j h'
      apply offn hPP (2 * j)
      have e : P + P + (2 * j) • κ = P + j • κ + (P + j • κ) := by rw [two_mul, add_smul]; abel
      rwa [e]
    have h1 := hden P hP
    constructor
    · intro h0
      rw [h0, zero_mul] at h1
      exact mul_ne_zero (pow_ne_zero 2 hr) (nrm_ne fun j => (X.dbl _ (offn hP j) (hj j)).1) h1.symm
    · apply mul_right_cancel₀ (pow_ne_zero d h4)
      rw [mul_assoc, h1, h.g_sq X G hP, h.g_eq X hPP]
      have e1 : nrm κ d g (P + P) = ∏ j ∈ range (2 * d + 1), g (P + j • κ + (P + j • κ)) := by
        rw [nrm, ← prod_two (fun j => g (P + P + j • κ))]
        · refine prod_congr rfl fun j _ => ?_
          congr 1
          rw [two_mul, add_smul]; abel
        · intro j
          rw [add_smul, ← add_assoc, X.shift _ _ (offn hPP j) h.mem]
      have e2 : nrm κ d g (P + P) * nrm κ d (fun R => dblDen A (g R)) P = nrm κ d (fun R => g R ^ 2 - 1) P ^ 2 := by
        rw [e1, ← nrm_sq, nrm, nrm, ← prod_mul_distrib]
        exact prod_congr rfl fun j _ => (X.dbl _ (offn hP j) (hj j)).2
      have e7 : ((4 : K) ^ d) ^ 2 = 16 ^ d := by rw [← pow_mul, mul_comm, pow_mul]; norm_num
      rw [rOdd]
      linear_combination (4 ^ d * (c0 (xk g κ) d 1 * c0 (xk g κ) d (-1))) ^ 2 * e2 + (c0 (xk g κ) d 1 * c0 (xk g κ) d (-1)) ^ 2 * nrm κ d (fun R => g R ^ 2 - 1) P ^ 2 * e7
  · intro P hP hPP
    have h1 := hden P hP
    obtain ⟨z, hz⟩ := mem_supz.mp hPP
    have hl : ((2 * d + 1 : ℕ) : ℤ) • κ ∈ N := by rw [natCast_zsmul]; exact h.mem
    -- the class of P has an element whose double is in N
    obtain ⟨j, hjl, hj⟩ : ∃ j : ℕ, j < 2 * d + 1 ∧ P + j • κ + (P + j • κ) ∈ N := by
      have hpos : (0 : ℤ) < ((2 * d + 1 : ℕ) : ℤ) := by positivity
      refine ⟨((z * (d + 1)) % ((2 * d + 1 : ℕ) : ℤ)).toNat, ?_, ?_⟩
      · have := Int.emod_lt_of_pos (z * (d + 1)) hpos
        omega
      · have hn := Int.emod_nonneg (z * (d + 1)) hpos.ne'
        rw [← natCast_zsmul, Int.toNat_of_nonneg hn, Int.emod_def]
        generalize z * (d + 1) / ((2 * d + 1 : ℕ) : ℤ) = q
        have e : P + (z * (d + 1) - ((2 * d + 1 : ℕ) : ℤ) * q) • κ + (P + (z * (d + 1) - ((2 * d + 1 : ℕ) : ℤ) * q) • κ) =
            P + P + z • κ + (z - 2 * q) • ((2 * d + 1 : ℕ) : ℤ) • κ := by
          rw [smul_smul]
          have : P + (z * (d + 1) - ((2 * d + 1 : ℕ) : ℤ) * q) • κ + (P + (z * (d + 1) - ((2 * d + 1 : ℕ) : ℤ) * q) • κ) =
            P + P + ((z * (d + 1) - ((2 * d + 1 : ℕ) : ℤ) * q) • κ + (z * (d + 1) - ((2 * d + 1 : ℕ) : ℤ) * q) • κ) := by abel
          rw [this, ← add_smul, add_assoc (P + P), ← add_smul]
          congr 2
          push_cast; ring
        rw [e]
        exact N.add_mem hz (N.zsmul_mem hl _)
    have h0 : nrm κ d (fun R => dblDen A (g R)) P = 0 := prod_eq_zero (mem_range.mpr hjl) (X.dbl0 _ (offn hP j) hj)
    rw [h0, mul_zero] at h1
    exact (mul_eq_zero.mp h1).resolve_right (pow_ne_zero _ h4)

/-- the coefficient of the quotient in Edwards form -/
theorem KerOdd.edwards (X : XRep A N T g) (h : KerOdd N κ d) (G : XGen N g κ) (hτ : Ker2 N T τ) :
    (aOdd g κ τ d + 2) * ((A - 2) ^ (2 * d + 1) * ∏ i ∈ range d, (xk g κ i - 1) ^ 8) =
      (aOdd g κ τ d - 2) * ((A + 2) ^ (2 * d + 1) * ∏ i ∈ range d, (xk g κ i + 1) ^ 8) := by
  have k2 := h.ker2 X hτ
  have hc := hτ.curve X
  have ht := hτ.k_ne X
  have hA := h.a_eq X G hτ
  have hα := h.g_ne X k2.ne k2.neT
  have d1 := h.dd_one X
  have d2 := h.dd_neg X
  have d3 := h.dd_ne X k2.ne
  have d4 := h.cc_ne X
  have s1 : ∀ i, summ A (g τ) (xk g κ i) 1 = ((1 - g τ) * (xk g κ i + 1)) ^ 2 := by
    intro i; rw [summ]; linear_combination -4 * xk g κ i * hc
  have s2 : ∀ i, summ A (g τ) (xk g κ i) (-1) = ((1 + g τ) * (xk g κ i - 1)) ^ 2 := by
    intro i; rw [summ]; linear_combination 4 * xk g κ i * hc
  have p1 := h.diff X G.inf (g τ) 1
  have p2 := h.diff X G.inf (g τ) (-1)
  have n1 : nn (xk g κ) d 1 = dd (xk g κ) d 1 := by
    have := h.phi_one X
    rwa [phiOdd, div_eq_one_iff_eq d1] at this
  have n2 : nn (xk g κ) d (-1) = -dd (xk g κ) d (-1) := by
    have := h.phi_neg X
    rwa [phiOdd, div_eq_iff d2, neg_one_mul] at this
  have nτ : nn (xk g κ) d (g τ) = gOdd g κ d τ * dd (xk g κ) d (g τ) := by rw [gOdd, phiOdd, div_mul_cancel₀ _ d3]
  simp only [s1, mul_pow, prod_mul_distrib, prod_const, card_range] at p1
  simp only [s2, mul_pow, prod_mul_distrib, prod_const, card_range] at p2
  rw [n1, nτ] at p1
  rw [n2, nτ] at p2
  have q1 : dd (xk g κ) d 1 = ∏ i ∈ range d, (xk g κ i - 1) ^ 2 := prod_congr rfl fun i _ => by ring
  have q2 : dd (xk g κ) d (-1) = ∏ i ∈ range d, (xk g κ i + 1) ^ 2 := prod_congr rfl fun i _ => by ring
  have r1 : (∏ i ∈ range d, (xk g κ i - 1) ^ 8) = dd (xk g κ) d 1 ^ 4 := by
    rw [q1, ← prod_pow]; exact prod_congr rfl fun i _ => by ring
  have r2 : (∏ i ∈ range d, (xk g κ i + 1) ^ 8) = dd (xk g κ) d (-1) ^ 4 := by
    rw [q2, ← prod_pow]; exact prod_congr rfl fun i _ => by ring
  rw [r1, r2]
  rw [← q2] at p1
  rw [← q1] at p2
  have t1 : (1 - gOdd g κ d τ) * dd (xk g κ) d (g τ) * dd (xk g κ) d 1 = cc (xk g κ) d * (1 - g τ) ^ (2 * d + 1) * dd (xk g κ) d (-1) := by
    have e : (1 - g τ) ^ (2 * d + 1) = (1 - g τ) * ((1 - g τ) ^ 2) ^ d := by rw [← pow_mul, pow_succ, mul_comm]
    rw [e]
    linear_combination p1
  have t2 : (1 + gOdd g κ d τ) * dd (xk g κ) d (g τ) * dd (xk g κ) d (-1) = cc (xk g κ) d * (1 + g τ) ^ (2 * d + 1) * dd (xk g κ) d 1 := by
    have e : (1 + g τ) ^ (2 * d + 1) = (1 + g τ) * ((1 + g τ) ^ 2) ^ d := by rw [← pow_mul, pow_succ, mul_comm]
    rw [e]
    linear_combination -p2
  generalize gOdd g κ d τ = α' at *
  generalize aOdd g κ τ d = A' at *
  generalize dd (xk g κ) d (g τ) = D at *
  generalize dd (xk g κ) d 1 = u at *
  generalize dd (xk g κ) d (-1) = v at *
  generalize cc (xk g κ) d = c at *
  generalize g τ = α at *
  have a1 : (A' + 2) * α' = -(1 - α') ^ 2 := by linear_combination hA
  have a2 : (A' - 2) * α' = -(1 + α') ^ 2 := by linear_combination hA
  have b1 : (A + 2) * α = -(1 - α) ^ 2 := by linear_combination hc
  have b2 : (A - 2) * α = -(1 + α) ^ 2 := by linear_combination hc
  have hne : α' * (α ^ (2 * d + 1) * (D ^ 2 * c ^ 2)) ≠ 0 := mul_ne_zero hα (mul_ne_zero (pow_ne_zero _ ht) (mul_ne_zero (pow_ne_zero _ d3) (pow_ne_zero _ d4)))
  apply mul_right_cancel₀ hne
  have o : ∀ w : K, (-w ^ 2) ^ (2 * d + 1) = -(w ^ (2 * d + 1)) ^ 2 := by
    intro w
    rw [Odd.neg_pow ⟨d, rfl⟩, ← pow_mul, ← pow_mul, mul_comm]
  have e1 : (A - 2) ^ (2 * d + 1) * α ^ (2 * d + 1) = -((1 + α) ^ (2 * d + 1)) ^ 2 := by rw [← mul_pow, b2, o]
  have e2 : (A + 2) ^ (2 * d + 1) * α ^ (2 * d + 1) = -((1 - α) ^ (2 * d + 1)) ^ 2 := by rw [← mul_pow, b1, o]
  have l : (A' + 2) * ((A - 2) ^ (2 * d + 1) * u ^ 4) * (α' * (α ^ (2 * d + 1) * (D ^ 2 * c ^ 2))) =
      ((1 - α') * D * u) ^ 2 * (c * (1 + α) ^ (2 * d + 1) * u) ^ 2 := by
    calc _ = ((A' + 2) * α') * ((A - 2) ^ (2 * d + 1) * α ^ (2 * d + 1)) * (u ^ 4 * (D ^ 2 * c ^ 2)) := by ring
      _ = _ := by rw [a1, e1]; ring
  have r : (A' - 2) * ((A + 2) ^ (2 * d + 1) * v ^ 4) * (α' * (α ^ (2 * d + 1) * (D ^ 2 * c ^ 2))) =
      ((1 + α') * D * v) ^ 2 * (c * (1 - α) ^ (2 * d + 1) * v) ^ 2 := by
    calc _ = ((A' - 2) * α') * ((A + 2) ^ (2 * d + 1) * α ^ (2 * d + 1)) * (v ^ 4 * (D ^ 2 * c ^ 2)) := by ring
      _ = _ := by rw [a2, e2]; ring
  rw [l, r, t1, t2]
  ring

/-! ### the chain -/

/-- a quotient of the curve, with its coordinates and the action of π -/
structure Iso (φ : K →+* K) (π : Γ →+ Γ) (A : K) (N : AddSubgroup Γ) (T τ : Γ) (g y : Γ → K) : Prop where
  x : XRep A N T g
  t : Ker2 N T τ
  fin : (N : Set Γ).Finite
  surj : ∀ u, ∃ P, P ∉ N ∧ g P = u
  ysq : ∀ P, P ∉ N → y P ^ 2 = g P * (g P ^ 2 + A * g P + 1)
  yneg : ∀ P, P ∉ N → y (-P) = -y P
  yshift : ∀ P n, P ∉ N → n ∈ N → y (P + n) = y P
  stab : ∀ P, π P ∈ N ↔ P ∈ N
  gfrob : ∀ P, P ∉ N → g (π P) = φ (g P)
  yfrob : ∀ P, P ∉ N → y (π P) = φ (y P)

theorem Iso.fibres (I : Iso φ π A N T τ g y) (u : K) : {P | P ∉ N ∧ g P = u}.Finite := by
  by_cases h : ∃ Q, Q ∉ N ∧ g Q = u
  · obtain ⟨Q, hQ, rfl⟩ := h
    refine ((I.fin.image fun n => n - Q).union (I.fin.image fun n => n + Q)).subset ?_
    rintro P ⟨hP, e⟩
    rcases I.x.inj hP hQ e with h | h
    · exact Or.inl ⟨_, h, add_sub_cancel_right P Q⟩
    · exact Or.inr ⟨_, h, sub_add_cancel P Q⟩
  · exact Set.Finite.subset Set.finite_empty fun P hP => h ⟨P, hP.1, hP.2⟩

theorem Iso.roots (I : Iso φ π A N T τ g y) : {u : K | dblDen A u = 0}.Finite := by
  obtain ⟨α, hα⟩ : ∃ α, α = g τ := ⟨_, rfl⟩
  have hc := I.t.curve I.x
  have h0 := I.t.k_ne I.x
  rw [← hα] at hc h0
  refine (Set.toFinite {0, α, α⁻¹}).subset ?_
  intro u hu
  have hu : dblDen A u = 0 := hu
  rw [dblDen] at hu
  rcases mul_eq_zero.mp ((mul_eq_zero.mp hu).resolve_left I.x.four) with h | h
  · exact Or.inl h
  · right
    have : (u - α) * (α * u - 1) = 0 := by linear_combination α * h - u * hc
    rcases mul_eq_zero.mp this with h | h
    · exact Or.inl (sub_eq_zero.mp h)
    · refine Or.inr ?_
      refine eq_inv_of_mul_eq_one_left ?_
      rw [mul_comm]
      exact sub_eq_zero.mp h

theorem Iso.halves (I : Iso φ π A N T τ g y) : {P | P + P ∈ N}.Finite := by
  refine (I.fin.union (I.roots.biUnion fun u _ => I.fibres u)).subset ?_
  intro P hP
  by_cases h : P ∈ N
  · exact Or.inl h
  · refine Or.inr (Set.mem_biUnion (x := g P) (I.x.dbl0 P h hP) ⟨h, rfl⟩)

theorem KerOdd.finite (h : KerOdd N κ d) (hN : (N : Set Γ).Finite) : ((N ⊔ AddSubgroup.zmultiples κ : AddSubgroup Γ) : Set Γ).Finite := by
  refine ((Set.finite_Iio (2 * d + 1)).biUnion fun j _ => hN.image fun n => n - j • κ).subset ?_
  intro P hP
  obtain ⟨z, hz⟩ := mem_supz.mp hP
  have hpos : (0 : ℤ) < ((2 * d + 1 : ℕ) : ℤ) := by positivity
  have hl : ((2 * d + 1 : ℕ) : ℤ) • κ ∈ N := by rw [natCast_zsmul]; exact h.mem
  refine Set.mem_biUnion (x := (z % ((2 * d + 1 : ℕ) : ℤ)).toNat) ?_ ⟨P + (z % ((2 * d + 1 : ℕ) : ℤ)).toNat • κ, ?_, add_sub_cancel_right _ _⟩
  · have := Int.emod_lt_of_pos z hpos
    simp only [Set.mem_Iio]
    omega
  · have hn := Int.emod_nonneg z hpos.ne'
    rw [← natCast_zsmul, Int.toNat_of_nonneg hn, Int.emod_def, sub_smul, mul_comm, mul_smul]
    have e : P + (z • κ - (z / ((2 * d + 1 : ℕ) : ℤ)) • ((2 * d + 1 : ℕ) : ℤ) • κ) = P + z • κ - (z / ((2 * d + 1 : ℕ) : ℤ)) • ((2 * d + 1 : ℕ) : ℤ) • κ := by abel
    rw [e]
    exact N.sub_mem hz (N.zsmul_mem hl _)

theorem Iso.gen [Infinite K] (I : Iso φ π A N T τ g y) (h : KerOdd N κ d) : XGen N g κ where
  inf := by
    have hN' := h.finite I.fin
    have hbad : {P | P + P ∈ N ⊔ AddSubgroup.zmultiples κ}.Finite := by
      refine Set.Finite.of_finite_fibers (fun P => P + P) (hN'.subset ?_) ?_
      · rintro _ ⟨P, hP, rfl⟩
        exact hP
      · intro m _
        by_cases hm : ∃ Q, Q + Q = m
        · obtain ⟨Q, rfl⟩ := hm
          refine (I.halves.image fun R => R + Q).subset ?_
          rintro P ⟨-, hP⟩
          have hP : P + P = Q + Q := hP
          refine ⟨P - Q, ?_, sub_add_cancel P Q⟩
          have e : P - Q + (P - Q) = 0 := by
            have : P - Q + (P - Q) = P + P - (Q + Q) := by abel
            rw [this, hP, sub_self]
          change P - Q + (P - Q) ∈ N
          rw [e]
          exact N.zero_mem
        · refine Set.finite_empty.subset ?_
          rintro P ⟨-, hP⟩
          exact hm ⟨P, hP⟩
    have h1 := (hN'.union hbad).image g
    refine h1.infinite_compl.mono ?_
    intro u hu
    obtain ⟨P, _, rfl⟩ := I.surj u
    refine ⟨P, fun h' => hu ⟨P, Or.inl h', rfl⟩, fun h' => hu ⟨P, Or.inr h', rfl⟩, rfl⟩

/-- the y-coordinate on the quotient -/
def yOdd (g y : Γ → K) (κ : Γ) (d : ℕ) (P : Γ) : K := rOdd g κ d * nrm κ d y P

theorem phi_map (φ : K →+* K) {x : ℕ → K} {d : ℕ} (hx : ∀ i < d, φ (x i) = x i) (u : K) : phiOdd x d (φ u) = φ (phiOdd x d u) := by
  rw [phiOdd, phiOdd, map_div₀, nn, dd, nn, dd, map_mul, map_prod, map_prod]
  congr 1
  · congr 1
    refine prod_congr rfl fun i hi => ?_
    rw [map_pow, map_sub, map_mul, map_one, hx i (mem_range.mp hi)]
  · refine prod_congr rfl fun i hi => ?_
    rw [map_pow, map_sub, hx i (mem_range.mp hi)]

theorem rOdd_map (φ : K →+* K) (hx : ∀ i < d, φ (xk g κ i) = xk g κ i) : φ (rOdd g κ d) = rOdd g κ d := by
  have hc : φ (cc (xk g κ) d) = cc (xk g κ) d := by
    rw [cc, map_prod]
    exact prod_congr rfl fun i hi => by rw [map_pow, hx i (mem_range.mp hi)]
  have h1 : φ (dd (xk g κ) d 1) = dd (xk g κ) d 1 := by
    rw [dd, map_prod]
    exact prod_congr rfl fun i hi => by rw [map_pow, map_sub, map_one, hx i (mem_range.mp hi)]
  have h2 : φ (dd (xk g κ) d (-1)) = dd (xk g κ) d (-1) := by
    rw [dd, map_prod]
    exact prod_congr rfl fun i hi => by rw [map_pow, map_sub, map_neg, map_one, hx i (mem_range.mp hi)]
  rw [rOdd, c0, c0, map_mul, map_pow, map_mul, map_div₀, map_div₀, hc, h1, h2, map_ofNat]

/-- what π does to κ -/
def Eig (π : Γ →+ Γ) (N : AddSubgroup Γ) (κ : Γ) : Prop := π κ - κ ∈ N ∨ π κ + κ ∈ N

theorem Eig.nsmul (e : Eig π N κ) (j : ℕ) : Eig π N (j • κ) := by
  rcases e with e | e
  · left
    have := N.nsmul_mem e j
    rwa [nsmul_sub, ← map_nsmul] at this
  · right
    have := N.nsmul_mem e j
    rwa [nsmul_add, ← map_nsmul] at this

theorem Iso.fix (I : Iso φ π A N T τ g y) {P : Γ} (hP : P ∉ N) (e : Eig π N P) : φ (g P) = g P := by
  rw [← I.gfrob P hP]
  rcases e with e | e
  · exact I.x.eq_of_sub hP e
  · exact I.x.eq_of_add hP e

theorem Iso.nrm_frob (I : Iso φ π A N T τ g y) (h : KerOdd N κ d) (e : Eig π N κ) {f : Γ → K} (hs : ∀ P n, P ∉ N → n ∈ N → f (P + n) = f P)
    (hf : ∀ P, P ∉ N → f (π P) = φ (f P)) {P : Γ} (hP : P ∉ N ⊔ AddSubgroup.zmultiples κ) (hP' : π P ∉ N ⊔ AddSubgroup.zmultiples κ) :
    nrm κ d f (π P) = φ (nrm κ d f P) := by
  rw [nrm_pair hs h hP, nrm_pair hs h hP', map_mul, hf P (off0 hP), map_prod]
  congr 1
  refine prod_congr rfl fun i _ => ?_
  rw [map_mul, ← hf _ (offn hP _), ← hf _ (offm hP _), map_add, map_sub]
  have sub : ∀ {Q R : Γ}, R ∉ N → Q - R ∈ N → f Q = f R := by
    intro Q R hR hQ
    have := hs R _ hR hQ
    rwa [add_sub_cancel] at this
  rcases e.nsmul (i + 1) with e | e
  · have e1 : f (π P + π ((i + 1) • κ)) = f (π P + (i + 1) • κ) := sub (offn hP' _) (by
      rwa [add_sub_add_left_eq_sub])
    have e2 : f (π P - π ((i + 1) • κ)) = f (π P - (i + 1) • κ) := sub (offm hP' _) (by
      rw [sub_sub_sub_cancel_left, ← neg_sub]; exact N.neg_mem e)
    rw [e1, e2]
  · have e1 : f (π P + π ((i + 1) • κ)) = f (π P - (i + 1) • κ) := sub (offm hP' _) (by
      have : π P + π ((i + 1) • κ) - (π P - (i + 1) • κ) = π ((i + 1) • κ) + (i + 1) • κ := by abel
      rwa [this])
    have e2 : f (π P - π ((i + 1) • κ)) = f (π P + (i + 1) • κ) := sub (offn hP' _) (by
      have : π P - π ((i + 1) • κ) - (π P + (i + 1) • κ) = -(π ((i + 1) • κ) + (i + 1) • κ) := by abel
      rw [this]; exact N.neg_mem e)
    rw [e1, e2, mul_comm]

theorem Iso.stab_sup (I : Iso φ π A N T τ g y) (e : Eig π N κ) (P : Γ) : π P ∈ N ⊔ AddSubgroup.zmultiples κ ↔ P ∈ N ⊔ AddSubgroup.zmultiples κ := by
  have key : ∀ z : ℤ, (P + z • κ ∈ N → ∃ w : ℤ, π P + w • κ ∈ N) ∧ (π P + z • κ ∈ N → ∃ w : ℤ, P + w • κ ∈ N) := by
    intro z
    rcases e with e | e
    · have e' := N.zsmul_mem e z
      constructor
      · intro hz
        refine ⟨z, ?_⟩
        have := N.sub_mem ((I.stab _).mpr hz) e'
        have e2 : π (P + z • κ) - z • (π κ - κ) = π P + z • κ := by rw [map_add, map_zsmul, zsmul_sub]; abel
        rwa [e2] at this
      · intro hz
        refine ⟨z, (I.stab _).mp ?_⟩
        have := N.add_mem hz e'
        have e2 : π P + z • κ + z • (π κ - κ) = π (P + z • κ) := by rw [map_add, map_zsmul, zsmul_sub]; abel
        rwa [e2] at this
    · have e' := N.zsmul_mem e z
      constructor
      · intro hz
        refine ⟨-z, ?_⟩
        have := N.sub_mem ((I.stab _).mpr hz) e'
        have e2 : π (P + z • κ) - z • (π κ + κ) = π P + (-z) • κ := by rw [map_add, map_zsmul, zsmul_add, neg_smul]; abel
        rwa [e2] at this
      · intro hz
        refine ⟨-z, (I.stab _).mp ?_⟩
        have := N.sub_mem hz e'
        have e2 : π P + z • κ - z • (π κ + κ) = π (P + (-z) • κ) := by rw [map_add, map_zsmul, zsmul_add, neg_smul]; abel
        rwa [e2] at this
  rw [mem_supz, mem_supz]
  exact ⟨fun ⟨z, hz⟩ => (key z).2 hz, fun ⟨z, hz⟩ => (key z).1 hz⟩

theorem KerOdd.root_ne (h : KerOdd N κ d) (X : XRep A N T g) {u v : K} (hu : nn (xk g κ) d u = v * dd (xk g κ) d u) : dd (xk g κ) d u ≠ 0 := by
  intro h0
  rw [h0, mul_zero, nn, mul_eq_zero] at hu
  rw [dd, prod_eq_zero_iff] at h0
  obtain ⟨i, hi, h0⟩ := h0
  have h0 : u = xk g κ i := sub_eq_zero.mp (pow_eq_zero_iff two_ne_zero |>.mp h0)
  have hi := mem_range.mp hi
  rcases hu with hu | hu
  · exact h.x_ne X hi (h0.symm.trans hu)
  · rw [prod_eq_zero_iff] at hu
    obtain ⟨j, hj, hu⟩ := hu
    have hj := mem_range.mp hj
    have hu : u * xk g κ j = 1 := sub_eq_zero.mp (pow_eq_zero_iff two_ne_zero |>.mp hu)
    -- x_i x_j = 1 puts T in the kernel
    have hi' := h.nmem hi
    have hT : (i + 1) • κ - T ∉ N := by
      intro h'
      refine h.T_notMem X (mem_supz.mpr ⟨-((i + 1 : ℕ) : ℤ), ?_⟩)
      have h1 := N.neg_mem h'
      rwa [neg_sub, sub_eq_add_neg, ← natCast_zsmul, ← neg_smul] at h1
    have ha := X.addT hi' hT
    have e : g ((i + 1) • κ + T) = g ((j + 1) • κ) := by
      apply mul_right_cancel₀ (h.x_ne X hi)
      change g ((i + 1) • κ + T) * g ((i + 1) • κ) = xk g κ j * xk g κ i
      rw [ha, ← hu, h0, mul_comm]
    have hkm : ∀ k : ℕ, k • κ ∈ N ⊔ AddSubgroup.zmultiples κ := fun k => AddSubgroup.nsmul_mem _ k_mem k
    rcases X.inj (X.add_T_notMem hT) (h.nmem hj) e with h' | h'
    · apply h.T_notMem X
      have h2 := AddSubgroup.sub_mem _ (AddSubgroup.mem_sup_left h' : _ ∈ N ⊔ AddSubgroup.zmultiples κ) (AddSubgroup.add_mem _ (hkm (i + 1)) (hkm (j + 1)))
      have e : (i + 1) • κ + T + (j + 1) • κ - ((i + 1) • κ + (j + 1) • κ) = T := by abel
      rwa [e] at h2
    · apply h.T_notMem X
      have h2 := AddSubgroup.sub_mem _ (AddSubgroup.mem_sup_left h' : _ ∈ N ⊔ AddSubgroup.zmultiples κ) (AddSubgroup.sub_mem _ (hkm (i + 1)) (hkm (j + 1)))
      have e : (i + 1) • κ + T - (j + 1) • κ - ((i + 1) • κ - (j + 1) • κ) = T := by abel
      rwa [e] at h2

theorem KerOdd.ker_dd (h : KerOdd N κ d) (X : XRep A N T g) {P : Γ} (hP : P ∉ N) (hP' : P ∈ N ⊔ AddSubgroup.zmultiples κ) : dd (xk g κ) d (g P) = 0 := by
  obtain ⟨z, hz⟩ := mem_supz.mp hP'
  have hpos : (0 : ℤ) < ((2 * d + 1 : ℕ) : ℤ) := by positivity
  have hl : ((2 * d + 1 : ℕ) : ℤ) • κ ∈ N := by rw [natCast_zsmul]; exact h.mem
  obtain ⟨j, hjl, hj⟩ : ∃ j : ℕ, j < 2 * d + 1 ∧ P + j • κ ∈ N := by
    refine ⟨(z % ((2 * d + 1 : ℕ) : ℤ)).toNat, ?_, ?_⟩
    · have := Int.emod_lt_of_pos z hpos
      omega
    · have hn := Int.emod_nonneg z hpos.ne'
      rw [← natCast_zsmul, Int.toNat_of_nonneg hn, Int.emod_def, sub_smul, mul_comm, mul_smul]
      have e : P + (z • κ - (z / ((2 * d + 1 : ℕ) : ℤ)) • ((2 * d + 1 : ℕ) : ℤ) • κ) = P + z • κ - (z / ((2 * d + 1 : ℕ) : ℤ)) • ((2 * d + 1 : ℕ) : ℤ) • κ := by abel
      rw [e]
      exact N.sub_mem hz (N.zsmul_mem hl _)
  have hj0 : j ≠ 0 := by
    rintro rfl
    rw [zero_smul, add_zero] at hj
    exact hP hj
  rw [dd, prod_eq_zero_iff]
  by_cases hjd : j ≤ d
  · refine ⟨j - 1, mem_range.mpr (by omega), ?_⟩
    have e : j - 1 + 1 = j := by omega
    rw [xk, e, X.eq_of_add (h.ne j (by omega) hjl) hj, sub_self, zero_pow two_ne_zero]
  · refine ⟨2 * d - j, mem_range.mpr (by omega), ?_⟩
    have hn := h.ne (2 * d - j + 1) (by omega) (by omega)
    have e : (2 * d - j + 1) • κ + j • κ = (2 * d + 1) • κ := by rw [← add_smul]; congr 1; omega
    rw [xk, X.eq_of_sub hn, sub_self, zero_pow two_ne_zero]
    have := N.sub_mem hj h.mem
    rw [← e] at this
    have e2 : P + j • κ - ((2 * d - j + 1) • κ + j • κ) = P - (2 * d - j + 1) • κ := by abel
    rwa [e2] at this

theorem Iso.step [IsAlgClosed K] (I : Iso φ π A N T τ g y) (h : KerOdd N κ d) (e : Eig π N κ) :
    Iso φ π (aOdd g κ τ d) (N ⊔ AddSubgroup.zmultiples κ) T τ (gOdd g κ d) (yOdd g y κ d) := by
  have G := I.gen h
  have hx : ∀ i < d, φ (xk g κ i) = xk g κ i := fun i hi => I.fix (h.nmem hi) (e.nsmul _)
  refine ⟨I.x.stepOdd h G I.t, h.ker2 I.x I.t, h.finite I.fin, ?_, ?_, ?_, ?_, I.stab_sup e, ?_, ?_⟩
  · intro v
    have hdeg : (fib (xk g κ) d (v / cc (xk g κ) d)).degree ≠ 0 := by
      refine Polynomial.degree_ne_of_natDegree_ne ?_
      rw [fib_deg]
      exact Nat.succ_ne_zero _
    obtain ⟨u, hu⟩ := IsAlgClosed.exists_root _ hdeg
    have h1 := fib_eval (x := xk g κ) (d := d) (fun i hi => h.x_ne I.x hi) (v / cc (xk g κ) d) u
    rw [hu, mul_zero, mul_div_cancel₀ _ (h.cc_ne I.x)] at h1
    have h1 := (sub_eq_zero.mp h1.symm)
    have hd := h.root_ne I.x h1
    obtain ⟨P, hP, rfl⟩ := I.surj u
    refine ⟨P, fun hP' => hd (h.ker_dd I.x hP hP'), ?_⟩
    rw [gOdd, phiOdd, div_eq_iff hd, h1]
  · intro P hP
    rw [h.curve I.x G I.t hP, yOdd, mul_pow, ← nrm_sq]
    congr 1
    exact prod_congr rfl fun j _ => I.ysq _ (offn hP j)
  · intro P hP
    rw [yOdd, yOdd, nrm_neg I.yshift h (s := -1) (fun Q hQ => by rw [I.yneg Q hQ]; ring) hP, Odd.neg_one_pow ⟨d, rfl⟩]
    ring
  · intro P n hP hn
    rw [yOdd, yOdd, nrm_class I.yshift h hP hn]
  · intro P hP
    rw [gOdd, gOdd, I.gfrob P (off0 hP), phi_map φ hx]
  · intro P hP
    have hP' : π P ∉ N ⊔ AddSubgroup.zmultiples κ := fun h' => hP ((I.stab_sup e P).mp h')
    rw [yOdd, yOdd, I.nrm_frob h e I.yshift I.yfrob hP hP', map_mul, rOdd_map φ hx]

end Verif.XOnly
