import Verif.Lemmas.XIsog
import Mathlib.LinearAlgebra.Lagrange
import Mathlib.Algebra.Polynomial.Roots
import Mathlib.Algebra.Polynomial.BigOperators
import Mathlib.Data.Set.Finite.Basic
import Mathlib.Tactic.FieldSimp
import Mathlib.Tactic.LinearCombination

/-!
Isogenies of any odd degree on the x-only representation of a Montgomery curve.
-/

namespace Verif.XOnly

open Finset

variable {K : Type*} [Field K] {Γ : Type*} [AddCommGroup Γ]
variable {A : K} {N : AddSubgroup Γ} {T : Γ} {g : Γ → K} {κ τ : Γ} {d : ℕ}

/-- κ has order 2d + 1 modulo N -/
structure KerOdd (N : AddSubgroup Γ) (κ : Γ) (d : ℕ) : Prop where
  mem : (2 * d + 1) • κ ∈ N
  ne : ∀ j, 0 < j → j < 2 * d + 1 → j • κ ∉ N

theorem mem_supz {P : Γ} : P ∈ N ⊔ AddSubgroup.zmultiples κ ↔ ∃ z : ℤ, P + z • κ ∈ N := by
  rw [AddSubgroup.mem_sup]
  constructor
  · rintro ⟨n, hn, y, hy, rfl⟩
    obtain ⟨z, rfl⟩ := AddSubgroup.mem_zmultiples_iff.mp hy
    exact ⟨-z, by rw [neg_smul, add_neg_cancel_right]; exact hn⟩
  · rintro ⟨z, hz⟩
    exact ⟨_, hz, _, AddSubgroup.mem_zmultiples_iff.mpr ⟨-z, rfl⟩, by rw [neg_smul, add_neg_cancel_right]⟩

theorem off {P : Γ} (hP : P ∉ N ⊔ AddSubgroup.zmultiples κ) (z : ℤ) : P + z • κ ∉ N := fun h => hP (mem_supz.mpr ⟨z, h⟩)

theorem off0 {P : Γ} (hP : P ∉ N ⊔ AddSubgroup.zmultiples κ) : P ∉ N := by
  have := off hP 0
  rwa [zero_smul, add_zero] at this

theorem offn {P : Γ} (hP : P ∉ N ⊔ AddSubgroup.zmultiples κ) (j : ℕ) : P + j • κ ∉ N := by
  have := off hP j
  rwa [natCast_zsmul] at this

theorem offm {P : Γ} (hP : P ∉ N ⊔ AddSubgroup.zmultiples κ) (j : ℕ) : P - j • κ ∉ N := by
  have := off hP (-j)
  rwa [neg_smul, natCast_zsmul, ← sub_eq_add_neg] at this

/-- the product over the class of P -/
def nrm (κ : Γ) (d : ℕ) (h : Γ → K) (P : Γ) : K := ∏ j ∈ range (2 * d + 1), h (P + j • κ)

theorem nrm_pair {h : Γ → K} {P : Γ} (hp : ∀ Q n, Q ∉ N → n ∈ N → h (Q + n) = h Q) (hk : KerOdd N κ d) (hP : P ∉ N ⊔ AddSubgroup.zmultiples κ) :
    nrm κ d h P = h P * ∏ i ∈ range d, (h (P + (i + 1) • κ) * h (P - (i + 1) • κ)) := by
  rw [nrm, prod_range_succ', zero_smul, add_zero, mul_comm, two_mul, prod_range_add, prod_mul_distrib]
  congr 2
  rw [← prod_range_reflect]
  refine prod_congr rfl fun i hi => ?_
  have hi := mem_range.mp hi
  have e : P + (d + (d - 1 - i) + 1) • κ = P - (i + 1) • κ + (2 * d + 1) • κ := by
    have : d + (d - 1 - i) + 1 + (i + 1) = 2 * d + 1 := by omega
    rw [← this, add_smul _ (i + 1)]
    abel
  rw [e, hp _ _ (offm hP _) hk.mem]

theorem nrm_shift {h : Γ → K} {P : Γ} (hp : ∀ Q n, Q ∉ N → n ∈ N → h (Q + n) = h Q) (hk : KerOdd N κ d) (hP : P ∉ N ⊔ AddSubgroup.zmultiples κ) :
    nrm κ d h (P + κ) = nrm κ d h P := by
  rw [nrm, nrm, prod_range_succ, prod_range_succ', zero_smul, add_zero]
  congr 1
  · refine prod_congr rfl fun i _ => ?_
    rw [add_smul, one_smul, add_assoc, add_comm κ]
  · have e : P + κ + (2 * d) • κ = P + (2 * d + 1) • κ := by rw [add_smul, one_smul]; abel
    rw [e, hp _ _ (off0 hP) hk.mem]

theorem notMem_add {P : Γ} (hP : P ∉ N ⊔ AddSubgroup.zmultiples κ) {n : Γ} (hn : n ∈ N ⊔ AddSubgroup.zmultiples κ) :
    P + n ∉ N ⊔ AddSubgroup.zmultiples κ := fun h => hP (by have := AddSubgroup.sub_mem _ h hn; rwa [add_sub_cancel_right] at this)

theorem k_mem : κ ∈ N ⊔ AddSubgroup.zmultiples κ := AddSubgroup.mem_sup_right (AddSubgroup.mem_zmultiples κ)

theorem nrm_shifts {h : Γ → K} (hp : ∀ Q n, Q ∉ N → n ∈ N → h (Q + n) = h Q) (hk : KerOdd N κ d) :
    ∀ (j : ℕ) {P : Γ}, P ∉ N ⊔ AddSubgroup.zmultiples κ → nrm κ d h (P + j • κ) = nrm κ d h P
  | 0, P, _ => by rw [zero_smul, add_zero]
  | j + 1, P, hP => by
    rw [add_smul, one_smul, ← add_assoc, nrm_shift hp hk (notMem_add hP (AddSubgroup.nsmul_mem _ k_mem j)), nrm_shifts hp hk j hP]

/-- the product does not change on the class -/
theorem nrm_class {h : Γ → K} (hp : ∀ Q n, Q ∉ N → n ∈ N → h (Q + n) = h Q) (hk : KerOdd N κ d) {P n : Γ}
    (hP : P ∉ N ⊔ AddSubgroup.zmultiples κ) (hn : n ∈ N ⊔ AddSubgroup.zmultiples κ) : nrm κ d h (P + n) = nrm κ d h P := by
  obtain ⟨z, hz⟩ := mem_supz.mp hn
  have hz' : nrm κ d h (P + n + z • κ) = nrm κ d h P := by
    rw [add_assoc, nrm, nrm]
    refine prod_congr rfl fun i _ => ?_
    rw [add_right_comm, hp _ _ (offn hP i) hz]
  have hPn := notMem_add hP hn
  rw [← hz']
  rcases Int.eq_nat_or_neg z with ⟨j, rfl | rfl⟩
  · rw [natCast_zsmul, nrm_shifts hp hk j hPn]
  · rw [neg_smul, natCast_zsmul]
    have hm : P + n + -(j • κ) ∉ N ⊔ AddSubgroup.zmultiples κ := notMem_add hPn (AddSubgroup.neg_mem _ (AddSubgroup.nsmul_mem _ k_mem j))
    rw [← nrm_shifts hp hk j hm, neg_add_cancel_right]

theorem nrm_neg {h : Γ → K} (hp : ∀ Q n, Q ∉ N → n ∈ N → h (Q + n) = h Q) (hk : KerOdd N κ d) {s : K} (hs : ∀ Q, Q ∉ N → h (-Q) = s * h Q) {P : Γ}
    (hP : P ∉ N ⊔ AddSubgroup.zmultiples κ) : nrm κ d h (-P) = s ^ (2 * d + 1) * nrm κ d h P := by
  have hP' : -P ∉ N ⊔ AddSubgroup.zmultiples κ := fun h => hP (by simpa using AddSubgroup.neg_mem _ h)
  rw [nrm_pair hp hk hP', nrm_pair hp hk hP, hs P (off0 hP)]
  have : ∀ i ∈ range d, h (-P + (i + 1) • κ) * h (-P - (i + 1) • κ) = s ^ 2 * (h (P + (i + 1) • κ) * h (P - (i + 1) • κ)) := by
    intro i _
    have e1 : -P + (i + 1) • κ = -(P - (i + 1) • κ) := by abel
    have e2 : -P - (i + 1) • κ = -(P + (i + 1) • κ) := by abel
    rw [e1, e2, hs _ (offm hP _), hs _ (offn hP _)]
    ring
  rw [prod_congr rfl this, prod_mul_distrib, prod_const, card_range]
  ring

/-- doubling permutes the residues modulo an odd number -/
theorem prod_two {M : Type*} [CommMonoid M] (f : ℕ → M) (hf : ∀ j, f (j + (2 * d + 1)) = f j) :
    ∏ j ∈ range (2 * d + 1), f (2 * j) = ∏ j ∈ range (2 * d + 1), f j := by
  rw [two_mul d, add_assoc, prod_range_add]
  have h1 : ∏ x ∈ range (d + 1), f (2 * (d + x)) = f (2 * d) * ∏ x ∈ range d, f (2 * x + 1) := by
    rw [prod_range_succ', add_zero, mul_comm]
    congr 1
    refine prod_congr rfl fun i _ => ?_
    rw [← hf (2 * i + 1)]
    congr 1; omega
  have h2 : ∀ n, ∏ j ∈ range (2 * n), f j = (∏ x ∈ range n, f (2 * x)) * ∏ x ∈ range n, f (2 * x + 1) := by
    intro n
    induction n with
    | zero => simp
    | succ n ih =>
      rw [show 2 * (n + 1) = 2 * n + 1 + 1 by ring, prod_range_succ, prod_range_succ, ih, prod_range_succ, prod_range_succ]
      simp only [mul_assoc, mul_comm, mul_left_comm]
  rw [h1, ← add_assoc, ← two_mul, prod_range_succ, h2]
  simp only [mul_assoc, mul_comm, mul_left_comm]

/-! ### the map -/

/-- the x-coordinates of κ, 2κ, … -/
def xk (g : Γ → K) (κ : Γ) (i : ℕ) : K := g ((i + 1) • κ)

/-- numerator of the isogeny -/
def nn (x : ℕ → K) (d : ℕ) (X : K) : K := X * ∏ i ∈ range d, (X * x i - 1) ^ 2

/-- denominator of the isogeny -/
def dd (x : ℕ → K) (d : ℕ) (X : K) : K := ∏ i ∈ range d, (X - x i) ^ 2

/-- leading coefficient of the numerator -/
def cc (x : ℕ → K) (d : ℕ) : K := ∏ i ∈ range d, x i ^ 2

/-- the isogeny of degree 2d + 1 -/
def phiOdd (x : ℕ → K) (d : ℕ) (X : K) : K := nn x d X / dd x d X

theorem KerOdd.nmem (h : KerOdd N κ d) {i : ℕ} (hi : i < d) : (i + 1) • κ ∉ N := h.ne _ (by omega) (by omega)

/-- an element whose double is in N is in N or outside N' -/
theorem KerOdd.half (h : KerOdd N κ d) {R : Γ} (h2 : R + R ∈ N) (hR : R ∈ N ⊔ AddSubgroup.zmultiples κ) : R ∈ N := by
  obtain ⟨z, hz⟩ := mem_supz.mp hR
  -- 2z κ ∈ N
  have h3 : (2 * z) • κ ∈ N := by
    have := N.sub_mem (N.add_mem hz hz) h2
    have e : R + z • κ + (R + z • κ) - (R + R) = (2 * z) • κ := by rw [two_mul, add_smul]; abel
    rwa [e] at this
  have hl : ((2 * d + 1 : ℕ) : ℤ) • κ ∈ N := by rw [natCast_zsmul]; exact h.mem
  have h4 : z • κ ∈ N := by
    have h5 := N.sub_mem (N.zsmul_mem hl z) (N.zsmul_mem h3 d)
    have e : z • ((2 * d + 1 : ℕ) : ℤ) • κ - (d : ℤ) • (2 * z) • κ = z • κ := by
      rw [smul_smul, smul_smul, ← sub_smul]
      congr 1
      push_cast; ring
    rwa [e] at h5
  have := N.sub_mem hz h4
  rwa [add_sub_cancel_right] at this

theorem KerOdd.T_notMem (h : KerOdd N κ d) (X : XRep A N T g) : T ∉ N ⊔ AddSubgroup.zmultiples κ := fun hT => X.TN (h.half X.T2 hT)

theorem KerOdd.x_ne (h : KerOdd N κ d) (X : XRep A N T g) {i : ℕ} (hi : i < d) : xk g κ i ≠ 0 := by
  intro h0
  have := X.of_zero (h.nmem hi) h0
  refine h.T_notMem X (mem_supz.mpr ⟨-((i + 1 : ℕ) : ℤ), ?_⟩)
  have h1 := N.neg_mem this
  rwa [neg_sub, sub_eq_add_neg, ← natCast_zsmul, ← neg_smul] at h1

theorem KerOdd.cc_ne (h : KerOdd N κ d) (X : XRep A N T g) : cc (xk g κ) d ≠ 0 :=
  prod_ne_zero_iff.mpr fun _ hi => pow_ne_zero 2 (h.x_ne X (mem_range.mp hi))

theorem KerOdd.sub_ne (h : KerOdd N κ d) (X : XRep A N T g) {P : Γ} (hP : P ∉ N ⊔ AddSubgroup.zmultiples κ) {i : ℕ} (hi : i < d) : g P - xk g κ i ≠ 0 := by
  rw [sub_ne_zero]
  exact (X.add P _ (off0 hP) (h.nmem hi) (offn hP _) (offm hP _)).ne

theorem KerOdd.dd_ne (h : KerOdd N κ d) (X : XRep A N T g) {P : Γ} (hP : P ∉ N ⊔ AddSubgroup.zmultiples κ) : dd (xk g κ) d (g P) ≠ 0 :=
  prod_ne_zero_iff.mpr fun _ hi => pow_ne_zero 2 (h.sub_ne X hP (mem_range.mp hi))

theorem KerOdd.da (h : KerOdd N κ d) (X : XRep A N T g) {P : Γ} (hP : P ∉ N ⊔ AddSubgroup.zmultiples κ) {i : ℕ} (hi : i < d) :
    DA A (g P) (xk g κ i) (g (P + (i + 1) • κ)) (g (P - (i + 1) • κ)) := X.add P _ (off0 hP) (h.nmem hi) (offn hP _) (offm hP _)

/-- the isogeny is the norm of the x-coordinate -/
theorem KerOdd.phi_nrm (h : KerOdd N κ d) (X : XRep A N T g) {P : Γ} (hP : P ∉ N ⊔ AddSubgroup.zmultiples κ) :
    phiOdd (xk g κ) d (g P) = nrm κ d g P := by
  rw [phiOdd, div_eq_iff (h.dd_ne X hP), nrm_pair X.shift h hP, nn, dd, mul_assoc, ← prod_mul_distrib]
  congr 1
  refine prod_congr rfl fun i hi => ?_
  exact (h.da X hP (mem_range.mp hi)).prod.symm

/-- the norm of `Y - x` by the pairs -/
theorem KerOdd.nrm_sub (h : KerOdd N κ d) (X : XRep A N T g) {P : Γ} (hP : P ∉ N ⊔ AddSubgroup.zmultiples κ) (Y : K) :
    nrm κ d (fun Q => Y - g Q) P * dd (xk g κ) d (g P) = (Y - g P) * ∏ i ∈ range d, summ A (g P) (xk g κ i) Y := by
  rw [nrm_pair (fun Q n hQ hn => by rw [X.shift Q n hQ hn]) h hP, dd, mul_assoc, ← prod_mul_distrib]
  congr 1
  refine prod_congr rfl fun i hi => ?_
  rw [(h.da X hP (mem_range.mp hi)).summ]
  ring

section poly
open Polynomial

theorem monic_of_roots {n : ℕ} {f : K[X]} (hf : f.Monic) (hn : f.natDegree = n) (v : ℕ → K) (hv : Set.InjOn v (range n)) (h0 : ∀ i ∈ range n, f.eval (v i) = 0) :
    f = ∏ i ∈ range n, (X - C (v i)) := by
  have hm : (∏ i ∈ range n, (X - C (v i))).Monic := monic_prod_of_monic _ _ fun i _ => monic_X_sub_C _
  have hd : (∏ i ∈ range n, (X - C (v i))).natDegree = n := by
    rw [natDegree_prod_of_monic _ _ fun i _ => monic_X_sub_C _]
    simp
  refine eq_of_degree_le_of_eval_index_eq _ hv ?_ ?_ ?_ ?_
  · rw [degree_eq_natDegree hf.ne_zero, hn, card_range]
  · rw [degree_eq_natDegree hf.ne_zero, hn, degree_eq_natDegree hm.ne_zero, hd]
  · rw [hf.leadingCoeff, hm.leadingCoeff]
  · intro i hi
    rw [h0 i hi, eval_prod]
    exact (prod_eq_zero hi (by simp)).symm

/-- the numerator minus a multiple of the denominator, divided by its leading coefficient -/
noncomputable def fib (x : ℕ → K) (d : ℕ) (F : K) : K[X] := X * ∏ i ∈ range d, (X - C (x i)⁻¹) ^ 2 - C F * ∏ i ∈ range d, (X - C (x i)) ^ 2

theorem natDegree_sq (x : ℕ → K) (d : ℕ) : (∏ i ∈ range d, (X - C (x i)) ^ 2).natDegree = 2 * d := by
  rw [natDegree_prod_of_monic _ _ fun i _ => (monic_X_sub_C _).pow 2]
  simp [natDegree_pow, mul_comm]

theorem fib_top (x : ℕ → K) (d : ℕ) : (X * ∏ i ∈ range d, (X - C (x i)⁻¹) ^ 2 : K[X]).Monic ∧ (X * ∏ i ∈ range d, (X - C (x i)⁻¹) ^ 2 : K[X]).natDegree = 2 * d + 1 := by
  have hm : (∏ i ∈ range d, (X - C (x i)⁻¹) ^ 2 : K[X]).Monic := monic_prod_of_monic _ _ fun i _ => (monic_X_sub_C _).pow 2
  refine ⟨monic_X.mul hm, ?_⟩
  rw [monic_X.natDegree_mul hm, natDegree_X, natDegree_sq fun i => (x i)⁻¹, add_comm]

theorem fib_lt (x : ℕ → K) (d : ℕ) (F : K) : (C F * ∏ i ∈ range d, (X - C (x i)) ^ 2 : K[X]).degree < (X * ∏ i ∈ range d, (X - C (x i)⁻¹) ^ 2 : K[X]).degree := by
  rw [degree_eq_natDegree (fib_top x d).1.ne_zero, (fib_top x d).2]
  refine lt_of_le_of_lt degree_le_natDegree ?_
  have h1 := natDegree_C_mul_le F (∏ i ∈ range d, (X - C (x i)) ^ 2)
  rw [natDegree_sq] at h1
  exact_mod_cast Nat.lt_succ_of_le h1

theorem fib_monic (x : ℕ → K) (d : ℕ) (F : K) : (fib x d F).Monic := (fib_top x d).1.sub_of_left (fib_lt x d F)

theorem fib_deg (x : ℕ → K) (d : ℕ) (F : K) : (fib x d F).natDegree = 2 * d + 1 := by
  rw [fib, natDegree_sub_eq_left_of_natDegree_lt, (fib_top x d).2]
  rw [(fib_top x d).2]
  refine Nat.lt_succ_of_le ?_
  have h1 := natDegree_C_mul_le F (∏ i ∈ range d, (X - C (x i)) ^ 2)
  rwa [natDegree_sq] at h1

theorem fib_eval {x : ℕ → K} {d : ℕ} (hx : ∀ i < d, x i ≠ 0) (F Y : K) : cc x d * (fib x d F).eval Y = nn x d Y - cc x d * F * dd x d Y := by
  rw [fib, eval_sub, eval_mul, eval_mul, eval_X, eval_C, eval_prod, eval_prod, mul_sub, nn, dd, cc, mul_left_comm, ← prod_mul_distrib, ← mul_assoc]
  congr 2
  · refine prod_congr rfl fun i hi => ?_
    have := hx i (mem_range.mp hi)
    simp only [eval_pow, eval_sub, eval_X, eval_C]
    field_simp
  · refine prod_congr rfl fun i _ => ?_
    simp

/-- the fibre of the isogeny over the image of a generic element -/
theorem KerOdd.fibre (h : KerOdd N κ d) (Z : XRep A N T g) {P : Γ} (hP : P ∉ N ⊔ AddSubgroup.zmultiples κ) (h2 : P + P ∉ N ⊔ AddSubgroup.zmultiples κ) (Y : K) :
    nn (xk g κ) d Y - phiOdd (xk g κ) d (g P) * dd (xk g κ) d Y = cc (xk g κ) d * nrm κ d (fun Q => Y - g Q) P := by
  have hc := h.cc_ne Z
  have hx : ∀ i < d, xk g κ i ≠ 0 := fun i hi => h.x_ne Z hi
  set F := phiOdd (xk g κ) d (g P) with hF
  have hfib : fib (xk g κ) d (F / cc (xk g κ) d) = ∏ i ∈ range (2 * d + 1), (X - C (g (P + i • κ))) := by
    refine monic_of_roots (fib_monic _ _ _) (fib_deg _ _ _) (fun i => g (P + i • κ)) ?_ ?_
    · intro i hi j hj hij
      have hi := mem_range.mp (mem_coe.mp hi)
      have hj := mem_range.mp (mem_coe.mp hj)
      rcases Z.inj (offn hP i) (offn hP j) hij with hs | hs
      · exfalso
        apply offn h2 (i + j)
        have e : P + i • κ + (P + j • κ) = P + P + (i + j) • κ := by rw [add_smul]; abel
        rwa [← e]
      · by_contra hne
        rcases Nat.lt_or_gt_of_ne hne with hlt | hlt
        · refine h.ne (j - i) (by omega) (by omega) ?_
          have := N.neg_mem hs
          have e : -(P + i • κ - (P + j • κ)) = (j - i) • κ := by
            have : j • κ = (j - i) • κ + i • κ := by rw [← add_smul]; congr 1; omega
            rw [this]; abel
          rwa [e] at this
        · refine h.ne (i - j) (by omega) (by omega) ?_
          have e : P + i • κ - (P + j • κ) = (i - j) • κ := by
            have : i • κ = (i - j) • κ + j • κ := by rw [← add_smul]; congr 1; omega
            rw [this]; abel
          rwa [e] at hs
    · intro i _
      have hPi := notMem_add hP (AddSubgroup.nsmul_mem _ k_mem i)
      apply mul_left_cancel₀ hc
      rw [fib_eval hx, mul_zero, mul_div_cancel₀ _ hc, sub_eq_zero, hF, h.phi_nrm Z hP, ← nrm_shifts Z.shift h i hP, ← h.phi_nrm Z hPi, phiOdd,
        div_mul_cancel₀ _ (h.dd_ne Z hPi)]
  have := fib_eval hx (F / cc (xk g κ) d) Y
  rw [mul_div_cancel₀ _ hc] at this
  rw [← this, hfib, eval_prod, nrm]
  simp

/-- the isogeny as a polynomial -/
noncomputable def nnP (x : ℕ → K) (d : ℕ) : K[X] := X * ∏ i ∈ range d, (X * C (x i) - 1) ^ 2
noncomputable def ddP (x : ℕ → K) (d : ℕ) : K[X] := ∏ i ∈ range d, (X - C (x i)) ^ 2

theorem nnP_eval (x : ℕ → K) (d : ℕ) (Y : K) : (nnP x d).eval Y = nn x d Y := by
  simp only [nnP, nn, eval_mul, eval_X, eval_prod, eval_pow, eval_sub, eval_C, eval_one]
theorem ddP_eval (x : ℕ → K) (d : ℕ) (Y : K) : (ddP x d).eval Y = dd x d Y := by simp [ddP, dd, eval_prod]

noncomputable def summP (A v w : K) : K[X] :=
  (X - C v) ^ 2 * C w ^ 2 - 2 * ((X * C v + 1) * (X + C v) + 2 * C A * (X * C v)) * C w + (X * C v - 1) ^ 2

theorem summP_eval (A u v w : K) : (summP A v w).eval u = summ A u v w := by simp [summP, summ]; ring

/-- the difference of two values of the isogeny, as an identity between polynomials -/
theorem KerOdd.diff (h : KerOdd N κ d) (Z : XRep A N T g)
    (hinf : {x | ∃ P, P ∉ N ⊔ AddSubgroup.zmultiples κ ∧ P + P ∉ N ⊔ AddSubgroup.zmultiples κ ∧ g P = x}.Infinite) (U Y : K) :
    nn (xk g κ) d Y * dd (xk g κ) d U - nn (xk g κ) d U * dd (xk g κ) d Y =
      cc (xk g κ) d * ((Y - U) * ∏ i ∈ range d, summ A U (xk g κ i) Y) := by
  have hp : C (nn (xk g κ) d Y) * ddP (xk g κ) d - nnP (xk g κ) d * C (dd (xk g κ) d Y) =
      C (cc (xk g κ) d) * ((C Y - X) * ∏ i ∈ range d, summP A (xk g κ i) Y) := by
    refine Polynomial.eq_of_infinite_eval_eq _ _ (hinf.mono ?_)
    rintro _ ⟨P, hP, h2, rfl⟩
    have h1 := h.fibre Z hP h2 Y
    have h3 := h.nrm_sub Z hP Y
    have h4 := h.dd_ne Z hP
    simp only [Set.mem_setOf_eq, eval_sub, eval_mul, eval_C, eval_X, eval_prod, nnP_eval, ddP_eval, summP_eval]
    rw [← h3, ← mul_assoc, ← h1, phiOdd]
    field_simp
  have := congrArg (eval U) hp
  simpa only [eval_sub, eval_mul, eval_C, eval_X, eval_prod, nnP_eval, ddP_eval, summP_eval] using this

end poly

/-! ### values at points -/

/-- what a class needs for the step: a finite N, every value taken, a second point of order two -/
structure XGen (N : AddSubgroup Γ) (g : Γ → K) (κ : Γ) : Prop where
  inf : {x | ∃ P, P ∉ N ⊔ AddSubgroup.zmultiples κ ∧ P + P ∉ N ⊔ AddSubgroup.zmultiples κ ∧ g P = x}.Infinite

/-- the constant of the differences -/
def c0 (x : ℕ → K) (d : ℕ) (Y : K) : K := cc x d / dd x d Y

theorem nrm_mul (f h : Γ → K) (P : Γ) : nrm κ d (fun Q => f Q * h Q) P = nrm κ d f P * nrm κ d h P := by
  rw [nrm, prod_mul_distrib]; rfl

theorem nrm_sq (f : Γ → K) (P : Γ) : nrm κ d (fun Q => f Q ^ 2) P = nrm κ d f P ^ 2 := by
  rw [nrm, prod_pow]; rfl

theorem nrm_const (c : K) (P : Γ) : nrm κ d (fun _ => c) P = c ^ (2 * d + 1) := by
  rw [nrm, prod_const, card_range]

theorem nrm_cmul (c : K) (f : Γ → K) (P : Γ) : nrm κ d (fun Q => c * f Q) P = c ^ (2 * d + 1) * nrm κ d f P := by
  rw [nrm_mul, nrm_const]

theorem nrm_congr {f h : Γ → K} {P : Γ} (hP : P ∉ N ⊔ AddSubgroup.zmultiples κ) (hfh : ∀ n ∈ N ⊔ AddSubgroup.zmultiples κ, f (P + n) = h (P + n)) :
    nrm κ d f P = nrm κ d h P := prod_congr rfl fun i _ => hfh _ (AddSubgroup.nsmul_mem _ k_mem i)

theorem nrm_ne {f : Γ → K} {P : Γ} (hf : ∀ j : ℕ, f (P + j • κ) ≠ 0) : nrm κ d f P ≠ 0 := prod_ne_zero_iff.mpr fun j _ => hf j

theorem KerOdd.nrm_sub' (h : KerOdd N κ d) (X : XRep A N T g) {P : Γ} (hP : P ∉ N ⊔ AddSubgroup.zmultiples κ) (Y : K) :
    nrm κ d (fun Q => g Q - Y) P * dd (xk g κ) d (g P) = (g P - Y) * ∏ i ∈ range d, summ A (g P) (xk g κ i) Y := by
  rw [nrm_pair (fun Q n hQ hn => by rw [X.shift Q n hQ hn]) h hP, dd, mul_assoc, ← prod_mul_distrib]
  congr 1
  refine prod_congr rfl fun i hi => ?_
  rw [(h.da X hP (mem_range.mp hi)).summ]
  ring

theorem KerOdd.nrm_mulsub (h : KerOdd N κ d) (X : XRep A N T g) {P : Γ} (hP : P ∉ N ⊔ AddSubgroup.zmultiples κ) (Y : K) :
    nrm κ d (fun Q => Y * g Q - 1) P * dd (xk g κ) d (g P) = (Y * g P - 1) * ∏ i ∈ range d, summ' A (g P) (xk g κ i) Y := by
  rw [nrm_pair (fun Q n hQ hn => by rw [X.shift Q n hQ hn]) h hP, dd, mul_assoc, ← prod_mul_distrib]
  congr 1
  refine prod_congr rfl fun i hi => ?_
  rw [(h.da X hP (mem_range.mp hi)).summ']
  ring

/-- the difference of two values -/
theorem KerOdd.phi_sub (h : KerOdd N κ d) (X : XRep A N T g) (G : XGen N g κ) {P : Γ} (hP : P ∉ N ⊔ AddSubgroup.zmultiples κ) {Y : K} (hY : dd (xk g κ) d Y ≠ 0) :
    phiOdd (xk g κ) d (g P) - phiOdd (xk g κ) d Y = c0 (xk g κ) d Y * nrm κ d (fun Q => g Q - Y) P := by
  have h1 := h.diff X G.inf (g P) Y
  have h2 := h.nrm_sub' X hP Y
  have h3 := h.dd_ne X hP
  rw [c0, phiOdd, phiOdd]
  field_simp
  linear_combination -h1 - cc (xk g κ) d * h2

theorem nn_inv (x : ℕ → K) (d : ℕ) {Y : K} (hY : Y ≠ 0) : nn x d Y⁻¹ * Y ^ (2 * d + 1) = dd x d Y ∧ dd x d Y⁻¹ * Y ^ (2 * d + 1) = nn x d Y := by
  have e : (Y ^ (2 * d + 1) : K) = Y * ∏ i ∈ range d, Y ^ 2 := by rw [prod_const, card_range]; ring
  constructor
  · rw [nn, dd, e, mul_mul_mul_comm, inv_mul_cancel₀ hY, one_mul, ← prod_mul_distrib]
    refine prod_congr rfl fun i _ => ?_
    field_simp
    ring
  · rw [nn, dd, e, mul_left_comm, ← prod_mul_distrib]
    congr 1
    refine prod_congr rfl fun i _ => ?_
    field_simp
    ring

theorem KerOdd.phi_mul (h : KerOdd N κ d) (X : XRep A N T g) (G : XGen N g κ) {P : Γ} (hP : P ∉ N ⊔ AddSubgroup.zmultiples κ) {Y : K} (hY : dd (xk g κ) d Y ≠ 0) :
    phiOdd (xk g κ) d Y * phiOdd (xk g κ) d (g P) - 1 = c0 (xk g κ) d Y * nrm κ d (fun Q => Y * g Q - 1) P := by
  have key : nn (xk g κ) d Y * nn (xk g κ) d (g P) - dd (xk g κ) d Y * dd (xk g κ) d (g P) =
      cc (xk g κ) d * ((Y * g P - 1) * ∏ i ∈ range d, summ' A (g P) (xk g κ i) Y) := by
    by_cases h0 : Y = 0
    · subst h0
      have e : ∏ i ∈ range d, summ' A (g P) (xk g κ i) 0 = dd (xk g κ) d (g P) := prod_congr rfl fun i _ => by rw [summ']; ring
      have e2 : dd (xk g κ) d 0 = cc (xk g κ) d := prod_congr rfl fun i _ => by ring
      rw [e, e2, nn]
      ring
    · have h1 := h.diff X G.inf (g P) Y⁻¹
      obtain ⟨e1, e2⟩ := nn_inv (xk g κ) d h0
      have e3 : (Y⁻¹ - g P) * (∏ i ∈ range d, summ A (g P) (xk g κ i) Y⁻¹) * Y ^ (2 * d + 1) = -((Y * g P - 1) * ∏ i ∈ range d, summ' A (g P) (xk g κ i) Y) := by
        have e : (Y ^ (2 * d + 1) : K) = Y * ∏ i ∈ range d, Y ^ 2 := by rw [prod_const, card_range]; ring
        rw [e, mul_mul_mul_comm, ← prod_mul_distrib]
        have : (Y⁻¹ - g P) * Y = -(Y * g P - 1) := by field_simp; ring
        rw [this, neg_mul]
        congr 2
        refine prod_congr rfl fun i _ => ?_
        rw [summ, summ']
        field_simp
      rw [← e1, ← e2]
      linear_combination -Y ^ (2 * d + 1) * h1 - cc (xk g κ) d * e3
  have h2 := h.nrm_mulsub X hP Y
  have h3 := h.dd_ne X hP
  rw [c0, phiOdd, phiOdd]
  field_simp
  linear_combination key - cc (xk g κ) d * h2

/-- a second element of order two -/
theorem KerOdd.ker2 (h : KerOdd N κ d) (X : XRep A N T g) {τ : Γ} (hτ : Ker2 N T τ) : Ker2 (N ⊔ AddSubgroup.zmultiples κ) T τ where
  two := AddSubgroup.mem_sup_left hτ.two
  ne := fun h' => hτ.ne (h.half hτ.two h')
  neT := fun h' => hτ.neT (h.half (by
    have := N.sub_mem hτ.two X.T2
    have e : τ - T + (τ - T) = τ + τ - (T + T) := by abel
    rwa [e]) h')

theorem Ker2.addK' (h : Ker2 N T τ) (X : XRep A N T g) {P : Γ} (hP : P ∉ N) (hPT : P - τ ∉ N) :
    g (P + τ) * (g P - g τ) = g τ * g P - 1 := h.addK X (by
  rw [mem_sup2 h.two]; rintro (h' | h'); exacts [hP h', hPT h'])

end Verif.XOnly
