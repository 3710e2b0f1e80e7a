import Verif.Lemmas.XOdd

/-!
The quotient of an x-only representation by a cyclic group of odd order is again one.
-/

namespace Verif.XOnly

open Finset

variable {K : Type*} [Field K] {Γ : Type*} [AddCommGroup Γ]
variable {A : K} {N : AddSubgroup Γ} {T : Γ} {g : Γ → K} {κ τ : Γ} {d : ℕ}

/-- the x-coordinate on the quotient -/
def gOdd (g : Γ → K) (κ : Γ) (d : ℕ) (P : Γ) : K := phiOdd (xk g κ) d (g P)

/-- the coefficient of the quotient, from the image of a second point of order two -/
def aOdd (g : Γ → K) (κ τ : Γ) (d : ℕ) : K := -(gOdd g κ d τ ^ 2 + 1) / gOdd g κ d τ

section
variable (h : KerOdd N κ d) (X : XRep A N T g) (G : XGen N g κ)

include h X

theorem KerOdd.g_eq {P : Γ} (hP : P ∉ N ⊔ AddSubgroup.zmultiples κ) : gOdd g κ d P = nrm κ d g P := h.phi_nrm X hP

theorem KerOdd.g_ne {P : Γ} (hP : P ∉ N ⊔ AddSubgroup.zmultiples κ) (hT : P - T ∉ N ⊔ AddSubgroup.zmultiples κ) : gOdd g κ d P ≠ 0 := by
  rw [h.g_eq X hP]
  refine nrm_ne fun j => X.ne_zero (offn hP j) fun h' => offn hT j ?_
  have e : P - T + j • κ = P + j • κ - T := by abel
  rwa [e]

theorem KerOdd.c0_ne {P : Γ} (hP : P ∉ N ⊔ AddSubgroup.zmultiples κ) : c0 (xk g κ) d (g P) ≠ 0 := div_ne_zero (h.cc_ne X) (h.dd_ne X hP)

include G

theorem KerOdd.g_sub {P Q : Γ} (hP : P ∉ N ⊔ AddSubgroup.zmultiples κ) (hQ : Q ∉ N ⊔ AddSubgroup.zmultiples κ) :
    gOdd g κ d P - gOdd g κ d Q = c0 (xk g κ) d (g Q) * nrm κ d (fun R => g R - g Q) P := h.phi_sub X G hP (h.dd_ne X hQ)

theorem KerOdd.g_mul {P Q : Γ} (hP : P ∉ N ⊔ AddSubgroup.zmultiples κ) (hQ : Q ∉ N ⊔ AddSubgroup.zmultiples κ) :
    gOdd g κ d Q * gOdd g κ d P - 1 = c0 (xk g κ) d (g Q) * nrm κ d (fun R => g Q * g R - 1) P := h.phi_mul X G hP (h.dd_ne X hQ)

theorem KerOdd.g_inj {P Q : Γ} (hP : P ∉ N ⊔ AddSubgroup.zmultiples κ) (hQ : Q ∉ N ⊔ AddSubgroup.zmultiples κ)
    (hs : P + Q ∉ N ⊔ AddSubgroup.zmultiples κ) (hd : P - Q ∉ N ⊔ AddSubgroup.zmultiples κ) : gOdd g κ d P ≠ gOdd g κ d Q := by
  rw [← sub_ne_zero, h.g_sub X G hP hQ]
  refine mul_ne_zero (h.c0_ne X hQ) (nrm_ne fun j => ?_)
  rw [sub_ne_zero]
  intro he
  rcases X.inj (offn hP j) (off0 hQ) he with h' | h'
  · apply offn hs j
    have e : P + Q + j • κ = P + j • κ + Q := by abel
    rwa [e]
  · apply offn hd j
    have e : P - Q + j • κ = P + j • κ - Q := by abel
    rwa [e]

/-- addition of the second point of order two -/
theorem KerOdd.g_addK (hτ : Ker2 N T τ) {P : Γ} (hP : P ∉ N ⊔ AddSubgroup.zmultiples κ) (hPT : P - τ ∉ N ⊔ AddSubgroup.zmultiples κ) :
    gOdd g κ d (P + τ) * (gOdd g κ d P - gOdd g κ d τ) = gOdd g κ d τ * gOdd g κ d P - 1 := by
  have k2 := h.ker2 X hτ
  have hPT' : P + τ ∉ N ⊔ AddSubgroup.zmultiples κ := by
    intro h'
    apply hPT
    have := AddSubgroup.sub_mem _ h' k2.two
    have e : P + τ - (τ + τ) = P - τ := by abel
    rwa [e] at this
  rw [h.g_sub X G hP k2.ne, h.g_mul X G hP k2.ne, h.g_eq X hPT', mul_left_comm]
  congr 1
  rw [nrm, nrm, nrm, ← prod_mul_distrib]
  refine prod_congr rfl fun j _ => ?_
  have e : P + τ + j • κ = P + j • κ + τ := by abel
  rw [e]
  refine hτ.addK' X (offn hP j) ?_
  have e : P + j • κ - τ = P - τ + j • κ := by abel
  rw [e]
  exact offn hPT j

theorem KerOdd.a_eq (hτ : Ker2 N T τ) : aOdd g κ τ d * gOdd g κ d τ = -(gOdd g κ d τ ^ 2 + 1) := by
  have k2 := h.ker2 X hτ
  rw [aOdd, div_mul_cancel₀ _ (h.g_ne X k2.ne k2.neT)]

theorem KerOdd.prod_law {P Q : Γ} (hP : P ∉ N ⊔ AddSubgroup.zmultiples κ) (hQ : Q ∉ N ⊔ AddSubgroup.zmultiples κ)
    (hs : P + Q ∉ N ⊔ AddSubgroup.zmultiples κ) (hd : P - Q ∉ N ⊔ AddSubgroup.zmultiples κ) :
    gOdd g κ d (P + Q) * gOdd g κ d (P - Q) * (gOdd g κ d P - gOdd g κ d Q) ^ 2 = (gOdd g κ d P * gOdd g κ d Q - 1) ^ 2 := by
  rw [mul_comm (gOdd g κ d P) (gOdd g κ d Q), h.g_mul X G hP hQ, h.g_sub X G hP hQ, h.g_eq X hs, h.g_eq X hd, mul_pow, mul_pow, mul_left_comm, ← nrm_sq, ← nrm_sq]
  congr 1
  rw [nrm, nrm, nrm, nrm, ← prod_mul_distrib, ← prod_mul_distrib]
  refine prod_congr rfl fun j _ => ?_
  have e1 : P + Q + j • κ = P + j • κ + Q := by abel
  have e2 : P - Q + j • κ = P + j • κ - Q := by abel
  have hs := offn hs j
  have hd := offn hd j
  rw [e1] at hs ⊢
  rw [e2] at hd ⊢
  rw [(X.add _ _ (offn hP j) (off0 hQ) hs hd).prod]
  ring

theorem KerOdd.sum_law (hτ : Ker2 N T τ) {P Q : Γ} (hP : P ∉ N ⊔ AddSubgroup.zmultiples κ) (hQ : Q ∉ N ⊔ AddSubgroup.zmultiples κ)
    (hs : P + Q ∉ N ⊔ AddSubgroup.zmultiples κ) (hd : P - Q ∉ N ⊔ AddSubgroup.zmultiples κ) :
    (gOdd g κ d (P + Q) + gOdd g κ d (P - Q)) * (gOdd g κ d P - gOdd g κ d Q) ^ 2 =
      2 * ((gOdd g κ d P * gOdd g κ d Q + 1) * (gOdd g κ d P + gOdd g κ d Q) + 2 * aOdd g κ τ d * (gOdd g κ d P * gOdd g κ d Q)) := by
  have k2 := h.ker2 X hτ
  have hA := h.a_eq X G hτ
  have hα := h.g_ne X k2.ne k2.neT
  have hc := hτ.curve X
  by_cases hQT : Q - τ ∈ N ⊔ AddSubgroup.zmultiples κ
  · have hPT : P - τ ∉ N ⊔ AddSubgroup.zmultiples κ := fun h' => hd (by
      have := AddSubgroup.sub_mem _ h' hQT
      have e : P - τ - (Q - τ) = P - Q := by abel
      rwa [e] at this)
    have k := h.g_addK X G hτ hP hPT
    have sh : ∀ R n, R ∉ N ⊔ AddSubgroup.zmultiples κ → n ∈ N ⊔ AddSubgroup.zmultiples κ → gOdd g κ d (R + n) = gOdd g κ d R := by
      intro R n hR hn
      rw [h.g_eq X hR, h.g_eq X (notMem_add hR hn), nrm_class X.shift h hR hn]
    have e1 : gOdd g κ d Q = gOdd g κ d τ := by
      have := sh τ _ k2.ne hQT
      rwa [add_sub_cancel] at this
    have hPT' : P + τ ∉ N ⊔ AddSubgroup.zmultiples κ := by
      intro h'
      apply hPT
      have := AddSubgroup.sub_mem _ h' k2.two
      have e : P + τ - (τ + τ) = P - τ := by abel
      rwa [e] at this
    have e2 : gOdd g κ d (P + Q) = gOdd g κ d (P + τ) := by
      have := sh (P + τ) _ hPT' hQT
      have e : P + τ + (Q - τ) = P + Q := by abel
      rwa [e] at this
    have e3 : gOdd g κ d (P - Q) = gOdd g κ d (P + τ) := by
      have := sh (P + τ) (-(τ + τ) - (Q - τ)) hPT' (AddSubgroup.sub_mem _ (AddSubgroup.neg_mem _ k2.two) hQT)
      have e : P + τ + (-(τ + τ) - (Q - τ)) = P - Q := by abel
      rwa [e] at this
    rw [e1, e2, e3]
    linear_combination 2 * (gOdd g κ d P - gOdd g κ d τ) * k - 4 * gOdd g κ d P * hA
  · have hQT' : Q + τ ∉ N ⊔ AddSubgroup.zmultiples κ := by
      intro h'
      apply hQT
      have := AddSubgroup.sub_mem _ h' k2.two
      have e : Q + τ - (τ + τ) = Q - τ := by abel
      rwa [e] at this
    have k := h.g_addK X G hτ hQ hQT
    have kQ := hτ.addK' X (off0 hQ) (off0 hQT)
    have hq : g Q - g τ ≠ 0 := by
      intro h0
      rcases X.inj (off0 hQ) hτ.ne (sub_eq_zero.mp h0) with h' | h'
      · exact off0 hQT' h'
      · exact off0 hQT h'
    -- the product of the values g (P + j κ) g Q - α (g (P + j κ) + g Q) + 1
    set M := nrm κ d (fun R => g R * g Q - g τ * (g R + g Q) + 1) P with hM
    have m1 : nrm κ d (fun R => g R - g (Q + τ)) P * (g Q - g τ) ^ (2 * d + 1) = M := by
      rw [hM, ← nrm_const (κ := κ) (d := d) (g Q - g τ) P, ← nrm_mul]
      refine prod_congr rfl fun j _ => ?_
      linear_combination -kQ
    have m2 : dd (xk g κ) d (g Q) * nrm κ d (fun R => g R - g τ) Q = dd (xk g κ) d (g (Q + τ)) * (g Q - g τ) ^ (2 * d + 1) := by
      rw [mul_comm, h.nrm_sub' X hQ]
      have e : ((g Q - g τ) ^ (2 * d + 1) : K) = (g Q - g τ) * ∏ i ∈ range d, (g Q - g τ) ^ 2 := by rw [prod_const, card_range, ← pow_mul, pow_succ, mul_comm]
      rw [e, mul_left_comm, dd, ← prod_mul_distrib]
      congr 1
      refine prod_congr rfl fun i _ => ?_
      have e2 : (g (Q + τ) - xk g κ i) * (g Q - g τ) = -(g Q * xk g κ i - g τ * (g Q + xk g κ i) + 1) := by linear_combination kQ
      rw [← mul_pow, e2, summ]
      linear_combination -4 * g Q * xk g κ i * hc
    have m3 : (gOdd g κ d (P + Q) - gOdd g κ d τ) * (gOdd g κ d (P - Q) - gOdd g κ d τ) * (gOdd g κ d P - gOdd g κ d Q) ^ 2 =
        (c0 (xk g κ) d (g τ) * c0 (xk g κ) d (g Q) * M) ^ 2 := by
      rw [h.g_sub X G hs k2.ne, h.g_sub X G hd k2.ne, h.g_sub X G hP hQ]
      have e : nrm κ d (fun R => g R - g τ) (P + Q) * nrm κ d (fun R => g R - g τ) (P - Q) * nrm κ d (fun R => g R - g Q) P ^ 2 = M ^ 2 := by
        rw [hM, ← nrm_sq, ← nrm_sq, nrm, nrm, nrm, nrm, ← prod_mul_distrib, ← prod_mul_distrib]
        refine prod_congr rfl fun j _ => ?_
        have e1 : P + Q + j • κ = P + j • κ + Q := by abel
        have e2 : P - Q + j • κ = P + j • κ - Q := by abel
        have hs := offn hs j
        have hd := offn hd j
        rw [e1] at hs ⊢
        rw [e2] at hd ⊢
        have D := X.add _ _ (offn hP j) (off0 hQ) hs hd
        linear_combination D.prod - g τ * D.sum - 4 * g (P + j • κ) * g Q * hc
      linear_combination (c0 (xk g κ) d (g τ) * c0 (xk g κ) d (g Q)) ^ 2 * e
    have m4 : gOdd g κ d P * gOdd g κ d Q - gOdd g κ d τ * (gOdd g κ d P + gOdd g κ d Q) + 1 = c0 (xk g κ) d (g τ) * c0 (xk g κ) d (g Q) * M := by
      have e : gOdd g κ d P * gOdd g κ d Q - gOdd g κ d τ * (gOdd g κ d P + gOdd g κ d Q) + 1 =
          (gOdd g κ d Q - gOdd g κ d τ) * (gOdd g κ d P - gOdd g κ d (Q + τ)) := by linear_combination k
      rw [e, h.g_sub X G hQ k2.ne, h.g_sub X G hP hQT', ← m1, c0, c0, c0]
      have d1 := h.dd_ne X hQ
      have d2 := h.dd_ne X hQT'
      have d3 := h.dd_ne X k2.ne
      field_simp
      linear_combination cc (xk g κ) d ^ 2 * nrm κ d (fun R => g R - g (Q + τ)) P * m2
    have pl := h.prod_law X G hP hQ hs hd
    rw [← m4] at m3
    apply mul_left_cancel₀ hα
    linear_combination pl - m3 - 4 * gOdd g κ d P * gOdd g κ d Q * hA

end

/-! ### doubling -/

section
variable (h : KerOdd N κ d) (X : XRep A N T g)
include h X

theorem KerOdd.odd2 {j : ℕ} (hj : j • κ ∉ N) : j • κ + j • κ ∉ N := fun h' => hj (h.half h' (AddSubgroup.nsmul_mem _ k_mem j))

theorem KerOdd.sq_ne {i : ℕ} (hi : i < d) : xk g κ i ^ 2 ≠ 1 := by
  intro h1
  have hn := h.nmem hi
  obtain ⟨b1, b2⟩ := X.dbl _ hn (h.odd2 X hn)
  rw [show g ((i + 1) • κ) ^ 2 = 1 from h1, sub_self, zero_pow two_ne_zero] at b2
  have h0 := (mul_eq_zero.mp b2).resolve_right b1
  have := X.of_zero (h.odd2 X hn) h0
  refine h.T_notMem X ?_
  have h2 : (i + 1) • κ + (i + 1) • κ ∈ N ⊔ AddSubgroup.zmultiples κ := AddSubgroup.add_mem _ (AddSubgroup.nsmul_mem _ k_mem _) (AddSubgroup.nsmul_mem _ k_mem _)
  have h3 := AddSubgroup.sub_mem _ h2 (AddSubgroup.mem_sup_left this : _ ∈ N ⊔ AddSubgroup.zmultiples κ)
  rwa [sub_sub_cancel] at h3

theorem KerOdd.dd_one : dd (xk g κ) d 1 ≠ 0 := prod_ne_zero_iff.mpr fun i hi => pow_ne_zero 2 (by
  intro h0
  apply h.sq_ne X (mem_range.mp hi)
  linear_combination -(1 + xk g κ i) * h0)

theorem KerOdd.dd_neg : dd (xk g κ) d (-1) ≠ 0 := prod_ne_zero_iff.mpr fun i hi => pow_ne_zero 2 (by
  intro h0
  apply h.sq_ne X (mem_range.mp hi)
  linear_combination (1 - xk g κ i) * h0)

theorem KerOdd.phi_one : phiOdd (xk g κ) d 1 = 1 := by
  rw [phiOdd, div_eq_one_iff_eq (h.dd_one X), nn, one_mul, dd]
  exact prod_congr rfl fun i _ => by ring

theorem KerOdd.phi_neg : phiOdd (xk g κ) d (-1) = -1 := by
  rw [phiOdd, div_eq_iff (h.dd_neg X), nn, dd]
  congr 1
  exact prod_congr rfl fun i _ => by ring

/-- the x-coordinates of the even multiples are those of all multiples -/
theorem KerOdd.cc_two : ∏ i ∈ range d, g ((i + 1) • κ + (i + 1) • κ) ^ 2 = cc (xk g κ) d := by
  classical
  let f : ℕ → K := fun j => if j • κ ∈ N then 1 else g (j • κ)
  have f0 : f 0 = 1 := by simp only [f, zero_smul]; rw [if_pos N.zero_mem]
  have fl : ∀ j, f (j + (2 * d + 1)) = f j := by
    intro j
    simp only [f]
    rw [add_smul]
    by_cases hj : j • κ ∈ N
    · rw [if_pos hj, if_pos (N.add_mem hj h.mem)]
    · rw [if_neg hj, if_neg, X.shift _ _ hj h.mem]
      intro h'
      apply hj
      have := N.sub_mem h' h.mem
      rwa [add_sub_cancel_right] at this
  have fneg : ∀ a b, f a = f b ∨ ¬ (a + b) • κ ∈ N := by
    intro a b
    by_cases hab : (a + b) • κ ∈ N
    · left
      rw [add_smul] at hab
      simp only [f]
      by_cases hb : b • κ ∈ N
      · rw [if_pos hb, if_pos]
        have := N.sub_mem hab hb
        rwa [add_sub_cancel_right] at this
      · rw [if_neg hb, if_neg, X.eq_of_add hb hab]
        intro ha
        apply hb
        have := N.sub_mem hab ha
        rwa [add_sub_cancel_left] at this
    · exact Or.inr hab
  have split : ∀ e : ℕ → K, (∀ a b, a + b = 2 * d + 1 → e a = e b) → e 0 = 1 → ∏ j ∈ range (2 * d + 1), e j = ∏ i ∈ range d, e (i + 1) ^ 2 := by
    intro e he h0
    rw [prod_range_succ', h0, mul_one, two_mul, prod_range_add]
    simp only [sq]
    rw [prod_mul_distrib]
    congr 1
    rw [← prod_range_reflect]
    refine prod_congr rfl fun i hi => ?_
    have hi := mem_range.mp hi
    exact he _ _ (by omega)
  have h1 := prod_two (d := d) f fl
  rw [split f (fun a b hab => (fneg a b).resolve_right (by rw [hab]; exact not_not_intro h.mem)) f0,
    split (fun j => f (2 * j)) (fun a b hab => (fneg _ _).resolve_right (by
      rw [← mul_add, hab, mul_smul]; exact not_not_intro (N.nsmul_mem h.mem 2))) (by simpa using f0)] at h1
  rw [cc]
  have e1 : ∀ i ∈ range d, g ((i + 1) • κ + (i + 1) • κ) ^ 2 = f (2 * (i + 1)) ^ 2 := by
    intro i hi
    have hn := h.odd2 X (h.nmem (mem_range.mp hi))
    simp only [f]
    rw [mul_smul, two_smul, if_neg hn]
  have e2 : ∀ i ∈ range d, xk g κ i ^ 2 = f (i + 1) ^ 2 := by
    intro i hi
    have hn := h.nmem (mem_range.mp hi)
    simp only [f]
    rw [if_neg hn, xk]
  rw [prod_congr rfl e1, prod_congr rfl e2, h1]

/-- the relation between the constants of the isogeny -/
theorem KerOdd.const : cc (xk g κ) d ^ 2 * (∏ i ∈ range d, (16 * (xk g κ i ^ 2 + A * xk g κ i + 1) ^ 2)) =
    (dd (xk g κ) d 1 * dd (xk g κ) d (-1)) ^ 2 := by
  have h1 : ∀ i ∈ range d, g ((i + 1) • κ + (i + 1) • κ) ^ 2 * (xk g κ i ^ 2 * (16 * (xk g κ i ^ 2 + A * xk g κ i + 1) ^ 2)) =
      ((1 - xk g κ i) ^ 2 * (-1 - xk g κ i) ^ 2) ^ 2 := by
    intro i hi
    have hn := h.nmem (mem_range.mp hi)
    obtain ⟨_, b2⟩ := X.dbl _ hn (h.odd2 X hn)
    rw [dblDen] at b2
    rw [xk]
    linear_combination (g ((i + 1) • κ + (i + 1) • κ) * (4 * (g ((i + 1) • κ) * (g ((i + 1) • κ) ^ 2 + A * g ((i + 1) • κ) + 1))) + (g ((i + 1) • κ) ^ 2 - 1) ^ 2) * b2
  have h2 := prod_congr rfl h1
  rw [prod_mul_distrib, prod_mul_distrib, h.cc_two X] at h2
  rw [dd, dd, ← prod_mul_distrib, ← prod_pow, ← h2, ← cc]
  ring

variable (G : XGen N g κ)
include G

theorem KerOdd.g_sq {P : Γ} (hP : P ∉ N ⊔ AddSubgroup.zmultiples κ) :
    gOdd g κ d P ^ 2 - 1 = c0 (xk g κ) d 1 * c0 (xk g κ) d (-1) * nrm κ d (fun R => g R ^ 2 - 1) P := by
  have h1 := h.phi_sub X G hP (h.dd_one X)
  have h2 := h.phi_sub X G hP (h.dd_neg X)
  rw [h.phi_one X] at h1
  rw [h.phi_neg X] at h2
  have e : nrm κ d (fun R => g R ^ 2 - 1) P = nrm κ d (fun R => g R - 1) P * nrm κ d (fun R => g R - -1) P := by
    rw [← nrm_mul]
    refine prod_congr rfl fun j _ => by ring
  rw [e]
  have e2 : gOdd g κ d P ^ 2 - 1 = (phiOdd (xk g κ) d (g P) - 1) * (phiOdd (xk g κ) d (g P) - -1) := by rw [gOdd]; ring
  rw [e2, h1, h2]
  ring

/-- the constant of the curve equation; its square root is in the field of the coefficients -/
def rOdd (g : Γ → K) (κ : Γ) (d : ℕ) : K := 4 ^ d * (c0 (xk g κ) d 1 * c0 (xk g κ) d (-1))

theorem KerOdd.curve (hτ : Ker2 N T τ) {P : Γ} (hP : P ∉ N ⊔ AddSubgroup.zmultiples κ) :
    gOdd g κ d P * (gOdd g κ d P ^ 2 + aOdd g κ τ d * gOdd g κ d P + 1) = rOdd g κ d ^ 2 * nrm κ d (fun R => g R * (g R ^ 2 + A * g R + 1)) P := by
  have k2 := h.ker2 X hτ
  have hA := h.a_eq X G hτ
  have hα := h.g_ne X k2.ne k2.neT
  have hc := hτ.curve X
  have ht := hτ.k_ne X
  rw [nrm_mul, ← h.g_eq X hP, mul_left_comm]
  congr 1
  have h1 := h.g_sub X G hP k2.ne
  have h2 := h.g_mul X G hP k2.ne
  have e : nrm κ d (fun R => g R - g τ) P * nrm κ d (fun R => g τ * g R - 1) P = g τ ^ (2 * d + 1) * nrm κ d (fun R => g R ^ 2 + A * g R + 1) P := by
    rw [← nrm_cmul, ← nrm_mul]
    refine prod_congr rfl fun j _ => ?_
    linear_combination -g (P + j • κ) * hc
  have e2 : (gOdd g κ d P ^ 2 + aOdd g κ τ d * gOdd g κ d P + 1) * gOdd g κ d τ = c0 (xk g κ) d (g τ) ^ 2 * (g τ ^ (2 * d + 1) * nrm κ d (fun R => g R ^ 2 + A * g R + 1) P) := by
    rw [← e]
    have e3 : (gOdd g κ d P ^ 2 + aOdd g κ τ d * gOdd g κ d P + 1) * gOdd g κ d τ = (gOdd g κ d P - gOdd g κ d τ) * (gOdd g κ d τ * gOdd g κ d P - 1) := by
      linear_combination gOdd g κ d P * hA
    rw [e3, h1, h2]
    ring
  apply mul_right_cancel₀ hα
  suffices hK : c0 (xk g κ) d (g τ) ^ 2 * g τ ^ (2 * d + 1) = rOdd g κ d ^ 2 * gOdd g κ d τ by
    rw [e2]
    linear_combination nrm κ d (fun R => g R ^ 2 + A * g R + 1) P * hK
  -- the constants
  rw [rOdd, c0, c0, c0, show gOdd g κ d τ = nn (xk g κ) d (g τ) / dd (xk g κ) d (g τ) from rfl]
  have d1 := h.dd_one X
  have d2 := h.dd_neg X
  have d3 := h.dd_ne X k2.ne
  have d4 := h.cc_ne X
  have hcst := h.const X
  have e5 : nn (xk g κ) d (g τ) * dd (xk g κ) d (g τ) = g τ ^ (2 * d + 1) * ∏ i ∈ range d, (xk g κ i ^ 2 + A * xk g κ i + 1) ^ 2 := by
    have e : (g τ ^ (2 * d + 1) : K) = g τ * ∏ i ∈ range d, g τ ^ 2 := by rw [prod_const, card_range, ← pow_mul, pow_succ, mul_comm]
    rw [e, nn, dd, mul_assoc, mul_assoc, ← prod_mul_distrib, ← prod_mul_distrib]
    congr 1
    refine prod_congr rfl fun i _ => ?_
    have e6 : (g τ * xk g κ i - 1) * (g τ - xk g κ i) = -(g τ * (xk g κ i ^ 2 + A * xk g κ i + 1)) := by linear_combination xk g κ i * hc
    rw [← mul_pow, e6]
    ring
  rw [prod_mul_distrib, prod_const, card_range] at hcst
  have e7 : ((4 : K) ^ d) ^ 2 = 16 ^ d := by rw [← pow_mul, mul_comm, pow_mul]; norm_num
  field_simp
  rw [mul_comm (nn _ _ _)] at e5
  rw [e7]
  have e8 := mul_ne_zero d1 d2
  linear_combination -g τ ^ (2 * d + 1) * hcst - cc (xk g κ) d ^ 2 * 16 ^ d * e5

end

end Verif.XOnly
