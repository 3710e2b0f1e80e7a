import Verif.Lemmas.XOddIso

/-!
The quotient of a curve by all the points of an odd order ℓ is the curve itself: the product of x-coordinates over these
points is the x-coordinate of the multiple by ℓ.
-/

namespace Verif.XOnly

open Finset Polynomial

variable {K : Type*} [Field K] {Γ : Type*} [AddCommGroup Γ]
variable {A : K} {N : AddSubgroup Γ} {T : Γ} {g y : Γ → K} {κ κ' τ : Γ} {d : ℕ} {φ : K →+* K} {π : Γ →+ Γ}

/-- numerator and denominator of the x-coordinate of the multiple by m -/
structure MulPoly (N : AddSubgroup Γ) (g : Γ → K) (m : ℕ) (a b : K[X]) : Prop where
  monic : a.Monic
  deg : a.natDegree = m ^ 2
  lt : b.natDegree < m ^ 2
  odd : m % 2 = 1 → a.eval 0 = 0 ∧ b.eval 0 = 1
  even : m % 2 = 0 → a.eval 0 = 1 ∧ b.eval 0 = 0
  rel : ∀ P, (∀ j, 0 < j → j ≤ m → j • P ∉ N) → g P ≠ 0 → g (m • P) * b.eval (g P) = a.eval (g P)

theorem MulPoly.one : MulPoly N g 1 X 1 :=
  ⟨monic_X, by simp, by simp, fun _ => by simp, fun h => by omega, fun P _ _ => by simp⟩

theorem MulPoly.dbl (Z : XRep A N T g) {k : ℕ} (hk : 0 < k) {a b : K[X]} (h : MulPoly N g k a b) :
    MulPoly N g (2 * k) ((a ^ 2 - b ^ 2) ^ 2) (C 4 * (a * b) * (a ^ 2 + C A * (a * b) + b ^ 2)) := by
  have hlt := h.lt
  have hd := h.deg
  have e2 : (2 * k) ^ 2 = k ^ 2 + k ^ 2 + (k ^ 2 + k ^ 2) := by ring
  have l2 : (b ^ 2).natDegree < (a ^ 2).natDegree := by
    rw [h.monic.natDegree_pow, hd]
    exact lt_of_le_of_lt natDegree_pow_le (by omega)
  have m2 : (a ^ 2 - b ^ 2).Monic := (h.monic.pow 2).sub_of_left (by
    rw [degree_eq_natDegree (h.monic.pow 2).ne_zero]
    exact lt_of_le_of_lt degree_le_natDegree (by exact_mod_cast l2))
  have n2 : (a ^ 2 - b ^ 2).natDegree = k ^ 2 + k ^ 2 := by
    rw [natDegree_sub_eq_left_of_natDegree_lt l2, h.monic.natDegree_pow, hd]; ring
  refine ⟨m2.pow 2, ?_, ?_, fun h' => by omega, fun _ => ?_, ?_⟩
  · rw [m2.natDegree_pow, n2, e2]; ring
  · have h1 : (C 4 * (a * b)).natDegree ≤ k ^ 2 + b.natDegree := by
      refine (natDegree_C_mul_le _ _).trans ?_
      exact natDegree_mul_le.trans (by omega)
    have hb : (a ^ 2 + C A * (a * b) + b ^ 2).natDegree ≤ k ^ 2 + k ^ 2 := by
      refine (natDegree_add_le _ _).trans (max_le ((natDegree_add_le _ _).trans (max_le ?_ ?_)) ?_)
      · rw [h.monic.natDegree_pow, hd]; omega
      · exact (natDegree_C_mul_le _ _).trans (natDegree_mul_le.trans (by omega))
      · exact natDegree_pow_le.trans (by omega)
    exact lt_of_le_of_lt (natDegree_mul_le.trans (Nat.add_le_add h1 hb)) (by omega)
  · rcases Nat.mod_two_eq_zero_or_one k with h0 | h0
    · obtain ⟨e, f⟩ := h.even h0
      simp [e, f]
    · obtain ⟨e, f⟩ := h.odd h0
      simp [e, f]
  · intro P hP h0
    have h1 := h.rel P (fun j hj hj' => hP j hj (by omega)) h0
    have hkP := hP k hk (by omega)
    have h2P : k • P + k • P ∉ N := by rw [← two_smul ℕ, ← mul_smul]; exact hP _ (by omega) le_rfl
    obtain ⟨d1, d2⟩ := Z.dbl _ hkP h2P
    rw [← two_smul ℕ (k • P), ← mul_smul] at d2
    simp only [eval_mul, eval_pow, eval_sub, eval_add, eval_C]
    rw [← h1]
    rw [dblDen] at d2
    linear_combination (b.eval (g P)) ^ 4 * d2

theorem MulPoly.add (Z : XRep A N T g) {k : ℕ} (hk : 0 < k) {a b a' b' : K[X]} (h : MulPoly N g k a b) (h' : MulPoly N g (k + 1) a' b') :
    ∃ a'' b'', MulPoly N g (2 * k + 1) a'' b'' := by
  have hlt := h.lt
  have hd := h.deg
  have hlt' := h'.lt
  have hd' := h'.deg
  have e2 : (2 * k + 1) ^ 2 + 1 = 2 * ((k + 1) ^ 2 + k ^ 2) := by ring
  have l2 : (b' * b).natDegree < (a' * a).natDegree := by
    rw [h'.monic.natDegree_mul h.monic, hd, hd']
    exact lt_of_le_of_lt natDegree_mul_le (by omega)
  have mm := h'.monic.mul h.monic
  have m2 : (a' * a - b' * b).Monic := mm.sub_of_left (by
    rw [degree_eq_natDegree mm.ne_zero]
    exact lt_of_le_of_lt degree_le_natDegree (by exact_mod_cast l2))
  have n2 : (a' * a - b' * b).natDegree = (k + 1) ^ 2 + k ^ 2 := by
    rw [natDegree_sub_eq_left_of_natDegree_lt l2, h'.monic.natDegree_mul h.monic, hd, hd']
  have z : (a' * a - b' * b).eval 0 = 0 ∧ (a' * b - b' * a).eval 0 ^ 2 = 1 := by
    rcases Nat.mod_two_eq_zero_or_one k with h0 | h0
    · obtain ⟨e, f⟩ := h.even h0
      obtain ⟨e', f'⟩ := h'.odd (by omega)
      simp [e, f, e', f']
    · obtain ⟨e, f⟩ := h.odd h0
      obtain ⟨e', f'⟩ := h'.even (by omega)
      simp [e, f, e', f']
  obtain ⟨w, hw⟩ : X ∣ a' * a - b' * b := by
    rw [X_dvd_iff, coeff_zero_eq_eval_zero]; exact z.1
  have mw : w.Monic := by
    rw [hw] at m2
    exact monic_X.of_mul_monic_left m2
  have nw : w.natDegree + 1 = (k + 1) ^ 2 + k ^ 2 := by
    rw [← n2, hw, monic_X.natDegree_mul mw, natDegree_X, add_comm]
  refine ⟨X * w ^ 2, (a' * b - b' * a) ^ 2, monic_X.mul (mw.pow 2), ?_, ?_, fun _ => ⟨by simp, by rw [eval_pow]; exact z.2⟩, fun h' => by omega, ?_⟩
  · rw [monic_X.natDegree_mul (mw.pow 2), mw.natDegree_pow, natDegree_X]; omega
  · have : (a' * b - b' * a).natDegree + 1 ≤ (k + 1) ^ 2 + k ^ 2 := by
      have := natDegree_sub_le (a' * b) (b' * a)
      have h1 : (a' * b).natDegree ≤ _ := natDegree_mul_le
      have h2 : (b' * a).natDegree ≤ _ := natDegree_mul_le
      rcases max_cases (a' * b).natDegree (b' * a).natDegree with h3 | h3 <;> omega
    exact lt_of_le_of_lt natDegree_pow_le (by omega)
  · intro P hP h0
    have h1 := h.rel P (fun j hj hj' => hP j hj (by omega)) h0
    have h2 := h'.rel P (fun j hj hj' => hP j hj (by omega)) h0
    have s : (k + 1) • P + k • P = (2 * k + 1) • P := by rw [← add_smul]; congr 1; omega
    have s' : (k + 1) • P - k • P = P := by rw [add_smul, one_smul, add_sub_cancel_left]
    have D := (Z.add ((k + 1) • P) (k • P) (hP _ (by omega) (by omega)) (hP _ hk (by omega)) (by rw [s]; exact hP _ (by omega) le_rfl)
      (by rw [s']; have := hP 1 (by omega) (by omega); rwa [one_smul] at this)).prod
    rw [s, s'] at D
    have hw' := congrArg (Polynomial.eval (g P)) hw
    simp only [eval_mul, eval_pow, eval_sub, eval_X] at hw' ⊢
    rw [← h1, ← h2] at hw' ⊢
    apply mul_left_cancel₀ h0
    linear_combination (b.eval (g P)) ^ 2 * (b'.eval (g P)) ^ 2 * D + (g ((k + 1) • P) * b'.eval (g P) * (g (k • P) * b.eval (g P)) - b'.eval (g P) * b.eval (g P) + g P * w.eval (g P)) * hw'

theorem exists_mulPoly (Z : XRep A N T g) (m : ℕ) (hm : 0 < m) : ∃ a b, MulPoly N g m a b := by
  induction m using Nat.strong_induction_on with
  | _ m ih =>
    by_cases h1 : m = 1
    · subst h1; exact ⟨_, _, .one⟩
    · obtain ⟨k, hk | hk⟩ : ∃ k, m = 2 * k ∨ m = 2 * k + 1 := ⟨m / 2, by omega⟩
      · obtain ⟨a, b, h⟩ := ih k (by omega) (by omega)
        subst hk
        exact ⟨_, _, h.dbl Z (by omega)⟩
      · obtain ⟨a, b, h⟩ := ih k (by omega) (by omega)
        obtain ⟨a', b', h'⟩ := ih (k + 1) (by omega) (by omega)
        subst hk
        exact h.add Z (by omega) h'

/-- the product of the x-coordinates over the points that differ by points of order ℓ -/
theorem prod_torsion (Z : XRep A N T g) {ℓ : ℕ} (hl : ℓ % 2 = 1) {ι : Type*} (S : Finset ι) (v : ι → Γ) (hc : S.card = ℓ ^ 2) (hv : ∀ i ∈ S, ℓ • v i ∈ N)
    (hd : ∀ i ∈ S, ∀ j ∈ S, v i - v j ∈ N → i = j) {Q : Γ} (hQ : ∀ j, 0 < j → j ≤ ℓ → (j * ℓ) • Q ∉ N) (hQ2 : (2 * ℓ) • Q ∉ N) : ∏ i ∈ S, g (Q + v i) = g (ℓ • Q) := by
  obtain ⟨a, b, h⟩ := exists_mulPoly Z ℓ (by omega)
  have hlQ : ℓ • Q ∉ N := by have := hQ 1 (by omega) (by omega); rwa [one_mul] at this
  have off : ∀ i ∈ S, ∀ j, (j * ℓ) • Q ∉ N → j • (Q + v i) ∉ N := by
    intro i hi j hj hm
    apply hj
    have := N.sub_mem (N.nsmul_mem hm ℓ) (N.nsmul_mem (hv i hi) j)
    have e : ℓ • j • (Q + v i) - j • ℓ • v i = (j * ℓ) • Q := by
      rw [smul_comm ℓ j, smul_add, smul_add, add_sub_cancel_right, mul_smul]
    rwa [e] at this
  have off1 : ∀ i ∈ S, Q + v i ∉ N := by
    intro i hi
    have := off i hi 1 (by rw [one_mul]; exact hlQ)
    rwa [one_smul] at this
  have off2 : ∀ i ∈ S, g (Q + v i) ≠ 0 := by
    intro i hi h0
    have h1 := Z.of_zero (off1 i hi) h0
    refine off i hi 2 hQ2 ?_
    have := N.add_mem (N.add_mem h1 h1) Z.T2
    rw [two_smul]
    rwa [show Q + v i - T + (Q + v i - T) + (T + T) = Q + v i + (Q + v i) by abel] at this
  have hb : (C (g (ℓ • Q)) * b).natDegree < a.natDegree := by
    rw [h.deg]; exact lt_of_le_of_lt (natDegree_C_mul_le _ _) h.lt
  have hmon : (a - C (g (ℓ • Q)) * b).Monic := h.monic.sub_of_left (by
    rw [degree_eq_natDegree h.monic.ne_zero]
    exact lt_of_le_of_lt degree_le_natDegree (by exact_mod_cast hb))
  have hdeg : (a - C (g (ℓ • Q)) * b).natDegree = ℓ ^ 2 := by rw [natDegree_sub_eq_left_of_natDegree_lt hb, h.deg]
  have hm' : (∏ i ∈ S, (X - C (g (Q + v i)))).Monic := monic_prod_of_monic _ _ fun i _ => monic_X_sub_C _
  have hd' : (∏ i ∈ S, (X - C (g (Q + v i)))).natDegree = ℓ ^ 2 := by
    rw [natDegree_prod_of_monic _ _ fun i _ => monic_X_sub_C _]
    simp [hc]
  have inj : Set.InjOn (fun i => g (Q + v i)) S := by
    intro i hi j hj e
    rcases Z.inj (off1 i hi) (off1 j hj) e with h1 | h1
    · exfalso
      apply hQ2
      have := N.sub_mem (N.nsmul_mem h1 ℓ) (N.add_mem (hv i hi) (hv j hj))
      have e : ℓ • (Q + v i + (Q + v j)) - (ℓ • v i + ℓ • v j) = (2 * ℓ) • Q := by
        rw [mul_comm, mul_smul, two_smul]; simp only [smul_add]; abel
      rwa [e] at this
    · refine hd i hi j hj ?_
      rwa [show Q + v i - (Q + v j) = v i - v j by abel] at h1
  have key : a - C (g (ℓ • Q)) * b = ∏ i ∈ S, (X - C (g (Q + v i))) := by
    refine eq_of_degree_le_of_eval_index_eq S inj ?_ ?_ ?_ ?_
    · rw [degree_eq_natDegree hmon.ne_zero, hdeg, hc]
    · rw [degree_eq_natDegree hmon.ne_zero, hdeg, degree_eq_natDegree hm'.ne_zero, hd']
    · rw [hmon.leadingCoeff, hm'.leadingCoeff]
    · intro i hi
      rw [eval_prod, prod_eq_zero hi (by simp), eval_sub, eval_mul, eval_C]
      have hr := h.rel (Q + v i) (fun j h1 h2 => off i hi j (hQ j h1 h2)) (off2 i hi)
      have : g (ℓ • (Q + v i)) = g (ℓ • Q) := by rw [smul_add]; exact Z.shift _ _ hlQ (hv i hi)
      rw [this] at hr
      rw [hr, sub_self]
  have e0 := congrArg (Polynomial.eval 0) key
  obtain ⟨o1, o2⟩ := h.odd hl
  rw [eval_sub, eval_mul, eval_C, o1, o2, eval_prod] at e0
  simp only [eval_sub, eval_X, eval_C, zero_sub, mul_one] at e0
  rw [prod_neg, hc, Odd.neg_one_pow (by rw [Nat.odd_iff, Nat.pow_mod, hl])] at e0
  linear_combination e0

/-- Two quotients in a row, by independent points of the same odd order, lead back to the curve -/
theorem cancel [IsAlgClosed K] (I : Iso φ π A N T τ g y) (h : KerOdd N κ d) (h' : KerOdd (N ⊔ AddSubgroup.zmultiples κ) κ' d) (hκ : (2 * d + 1) • κ' ∈ N)
    {A' : K} (X' : XRep A' (N ⊔ AddSubgroup.zmultiples κ ⊔ AddSubgroup.zmultiples κ') T (gOdd (gOdd g κ d) κ' d)) (X1 : XRep (aOdd g κ τ d) (N ⊔ AddSubgroup.zmultiples κ) T (gOdd g κ d))
    {Q : Γ} (hQ : ∀ j, 0 < j → j ≤ 4 * (2 * d + 1) ^ 2 → j • Q ∉ N) : A' = A := by
  obtain ⟨ℓ, hl⟩ : ∃ ℓ, ℓ = 2 * d + 1 := ⟨_, rfl⟩
  have Z := I.x
  have lmem : ∀ P ∈ N ⊔ AddSubgroup.zmultiples κ ⊔ AddSubgroup.zmultiples κ', ℓ • P ∈ N := by
    intro P hP
    obtain ⟨z', hz'⟩ := mem_supz.mp hP
    obtain ⟨z, hz⟩ := mem_supz.mp hz'
    have := N.sub_mem (N.sub_mem (N.nsmul_mem hz ℓ) (N.zsmul_mem (hl ▸ h.mem) z)) (N.zsmul_mem (hl ▸ hκ) z')
    have e : ℓ • (P + z' • κ' + z • κ) - z • ℓ • κ - z' • ℓ • κ' = ℓ • P := by
      simp only [smul_add, smul_comm ℓ]; abel
    rwa [e] at this
  have nmem : ∀ P, ℓ • P ∉ N → P ∉ N ⊔ AddSubgroup.zmultiples κ ⊔ AddSubgroup.zmultiples κ' := fun P hP hm => hP (lmem P hm)
  have key : ∀ Q : Γ, (∀ j, 0 < j → j ≤ 2 * ℓ ^ 2 → j • Q ∉ N) → gOdd (gOdd g κ d) κ' d Q = g (ℓ • Q) := by
    intro Q hQ
    have hl1 : 1 ≤ ℓ := by omega
    have hl2 : ℓ ≤ 2 * ℓ ^ 2 := by nlinarith
    have hm := nmem Q (hQ ℓ (by omega) hl2)
    have e1 : gOdd (gOdd g κ d) κ' d Q = nrm κ' d (gOdd g κ d) Q := h'.phi_nrm X1 hm
    have e2 : ∀ j ∈ range (2 * d + 1), gOdd g κ d (Q + j • κ') = nrm κ d g (Q + j • κ') := fun j _ => h.phi_nrm Z (offn hm j)
    rw [e1, nrm, prod_congr rfl e2]
    simp only [nrm]
    rw [← prod_product']
    rw [← prod_torsion Z (ℓ := ℓ) (by omega) (range (2 * d + 1) ×ˢ range (2 * d + 1)) (fun x : ℕ × ℕ => x.1 • κ' + x.2 • κ) (by rw [card_product, card_range, hl, sq])
      ?_ ?_ (Q := Q) ?_ ?_]
    · exact prod_congr rfl fun x _ => by rw [add_assoc]
    · intro x _
      refine lmem _ (AddSubgroup.add_mem _ (AddSubgroup.nsmul_mem _ k_mem _) (AddSubgroup.nsmul_mem _ (AddSubgroup.mem_sup_left k_mem) _))
    · have aux : ∀ (M : AddSubgroup Γ) (μ : Γ), KerOdd M μ d → ∀ i j : ℕ, i < 2 * d + 1 → j < 2 * d + 1 → i • μ - j • μ ∈ M → i = j := by
        have aux1 : ∀ (M : AddSubgroup Γ) (μ : Γ), KerOdd M μ d → ∀ i j : ℕ, i < 2 * d + 1 → j ≤ i → i • μ - j • μ ∈ M → i = j := by
          intro M μ hM i j hi hj hm
          by_contra hne
          refine hM.ne (i - j) (by omega) (by omega) ?_
          have : i • μ = (i - j) • μ + j • μ := by rw [← add_smul]; congr 1; omega
          rwa [this, add_sub_cancel_right] at hm
        intro M μ hM i j hi hj hm
        rcases le_total j i with h1 | h1
        · exact aux1 M μ hM i j hi h1 hm
        · refine (aux1 M μ hM j i hj h1 ?_).symm
          have := M.neg_mem hm
          rwa [neg_sub] at this
      rintro ⟨i, i'⟩ hi ⟨j, j'⟩ hj hm
      simp only [mem_product, mem_range] at hi hj hm
      have h1 : i = j := by
        refine aux _ _ h' i j hi.1 hj.1 ?_
        have : i • κ' + i' • κ - (j • κ' + j' • κ) - i' • κ + j' • κ ∈ N ⊔ AddSubgroup.zmultiples κ :=
          AddSubgroup.add_mem _ (AddSubgroup.sub_mem _ (AddSubgroup.mem_sup_left hm) (AddSubgroup.nsmul_mem _ k_mem _)) (AddSubgroup.nsmul_mem _ k_mem _)
        rwa [show i • κ' + i' • κ - (j • κ' + j' • κ) - i' • κ + j' • κ = i • κ' - j • κ' by abel] at this
      subst h1
      have h2 : i' = j' := by
        refine aux _ _ h i' j' hi.2 hj.2 ?_
        rwa [add_sub_add_left_eq_sub] at hm
      rw [h2]
    · intro j h1 h2
      exact hQ _ (by positivity) (by nlinarith)
    · exact hQ _ (by omega) (by nlinarith)
  have hl1 : 1 ≤ ℓ := by omega
  have k1 := key Q fun j h1 h2 => hQ j h1 (by rw [← hl]; omega)
  have k2 := key (Q + Q) fun j h1 h2 => by
    rw [← two_smul ℕ, ← mul_smul]
    exact hQ _ (by omega) (by rw [← hl]; omega)
  have hsq : ℓ ≤ ℓ ^ 2 := by nlinarith
  have n1 : ℓ • Q ∉ N := hQ _ (by omega) (by rw [← hl]; omega)
  have n2 : ℓ • Q + ℓ • Q ∉ N := by
    rw [← two_smul ℕ, ← mul_smul]; exact hQ _ (by omega) (by rw [← hl]; omega)
  have n4 : ℓ • Q + ℓ • Q + (ℓ • Q + ℓ • Q) ∉ N := by
    rw [← two_smul ℕ (ℓ • Q), ← two_smul ℕ (2 • ℓ • Q), ← mul_smul, ← mul_smul]; exact hQ _ (by omega) (by rw [← hl]; omega)
  have two : ∀ P, P ∉ N → P + P ∉ N → g P ≠ 0 := by
    intro P h1 h2 h0
    have h1 := Z.of_zero h1 h0
    apply h2
    have := N.add_mem (N.add_mem h1 h1) Z.T2
    rwa [show P - T + (P - T) + (T + T) = P + P by abel] at this
  obtain ⟨-, d1⟩ := Z.dbl _ n1 n2
  obtain ⟨-, d2⟩ := X'.dbl Q (nmem _ n1) (nmem _ (by rw [smul_add]; exact n2))
  rw [k1, k2, smul_add] at d2
  have v1 := two _ n1 n2
  have v2 := two _ n2 n4
  rw [dblDen] at d1 d2
  have hne : 4 * g (ℓ • Q) ^ 2 * g (ℓ • Q + ℓ • Q) ≠ 0 := mul_ne_zero (mul_ne_zero Z.four (pow_ne_zero 2 v1)) v2
  apply mul_left_cancel₀ hne
  linear_combination d2 - d1

end Verif.XOnly
