import Verif.Lemmas.XOddIso
import Verif.Lemmas.CsidhLadder

/-!
The isogeny of curve.go computes the quotient by the subgroup generated by the kernel point.
-/

namespace Lemmas.CsidhIso

open Model Model.Limb Model.Csidh Lemmas.CsidhNat Lemmas.CsidhLadder Verif.XOnly Spec Finset

variable {K : Type} [Field K] {Γ : Type*} [AddCommGroup Γ] {A : K} {N : AddSubgroup Γ} {T τ κ : Γ} {g : Γ → K} {d : ℕ}

/-- The projective point is the x-coordinate of `P`; the neutral element has Z = 0. -/
structure PrW (N : AddSubgroup Γ) (g : Γ → K) (P : Γ) (p : Pt K) : Prop where
  inf : P ∈ N → p.z = 0
  fin : P ∉ N → p.z ≠ 0 ∧ p.x = g P * p.z

theorem Pr.weak {P : Γ} {p : Pt K} (h : Pr N g P p) : PrW N g P p := ⟨fun hP => (h.inf hP).1, h.fin⟩

theorem PrW.strong {P : Γ} {p : Pt K} (h : PrW N g P p) (hP : P ∉ N) : Pr N g P p := ⟨fun h' => absurd h' hP, h.fin⟩

theorem PrW.z {P : Γ} {p : Pt K} (h : PrW N g P p) : p.z = 0 ↔ P ∈ N := by
  by_cases hP : P ∈ N
  · exact ⟨fun _ => hP, h.inf⟩
  · exact ⟨fun h' => absurd h' (h.fin hP).1, fun h' => absurd h' hP⟩

theorem A_sq (X : XRep A N T g) (h : Ker2 N T τ) : A ^ 2 ≠ 4 := by
  intro hA
  have hc := h.curve X
  have h1 := h.k_sq X
  have h2 : (A - 2) * (A + 2) = 0 := by linear_combination hA
  apply h1
  rcases mul_eq_zero.mp h2 with h2 | h2
  · have h3 : (g τ + 1) ^ 2 = 0 := by linear_combination hc - g τ * h2
    have h4 := pow_eq_zero_iff two_ne_zero |>.mp h3
    linear_combination (g τ - 1) * h4
  · have h3 : (g τ - 1) ^ 2 = 0 := by linear_combination hc - g τ * h2
    have h4 := pow_eq_zero_iff two_ne_zero |>.mp h3
    linear_combination (g τ + 1) * h4

theorem xAdd_pr (X : XRep A N T g) {P Q D : Γ} {p q e : Pt K} (hp : Pr N g P p) (hq : Pr N g Q q) (hd : Pr N g D e)
    (hD : D ∉ N) (hg : g D ≠ 0) (hPQ : P - Q = D ∨ P - Q = -D) :
    Pr N g (P + Q) (xAdd (fieldOps K) p q e) := by
  refine pr_add X hp hq hd hD hg hPQ ?_ ?_ <;>
    simp only [xAdd, fadd, fsub, fmul] <;> ring

/-- the state of the loop of the isogeny, before iteration i -/
structure LInv (N : AddSubgroup Γ) (g : Γ → K) (κ : Γ) (X Z : K) (kern : Pt K) (i : ℕ) (s : IsoSt K) : Prop where
  len : s.M.length = 3
  prod : ∃ u, u ≠ 0 ∧ s.prod.x = u * ∏ m ∈ range i, (xk g κ m - 1) ∧ s.prod.z = u * ∏ m ∈ range i, (xk g κ m + 1)
  q : ∃ v, v ≠ 0 ∧ s.Q.x = v * ∏ m ∈ range i, (X * xk g κ m - Z) ∧ s.Q.z = v * ∏ m ∈ range i, (X - xk g κ m * Z)
  m1 : Pr N g (i • κ) (s.M.getD ((i - 1) % 3) kern)
  m2 : 2 ≤ i → Pr N g ((i - 1) • κ) (s.M.getD ((i - 2) % 3) kern)
  m0 : i = 1 → Pr N g (2 • κ) (s.M.getD 1 kern)

theorem isoStep_inv (X : XRep A N T g) (hk : KerOdd N κ d) {kern : Pt K} (hκ : Pr N g κ kern) {x z : K} {i : ℕ} (hi1 : 1 ≤ i) (hi : i < d) {s : IsoSt K}
    (h : LInv N g κ x z kern i s) : LInv N g κ x z kern (i + 1) (isoStep (fieldOps K) kern (x + z) (x - z) i s) := by
  -- the multiple used by this iteration
  obtain ⟨M, hM⟩ : ∃ M, M = if 2 ≤ i then s.M.set (i % 3) (xAdd (fieldOps K) (s.M.getD ((i - 1) % 3) kern) kern (s.M.getD ((i - 2) % 3) kern)) else s.M := ⟨_, rfl⟩
  have hlen : M.length = 3 := by
    rw [hM]; split
    · rw [List.length_set]; exact h.len
    · exact h.len
  have hm : Pr N g ((i + 1) • κ) (M.getD (i % 3) kern) := by
    rw [hM]; split
    · rename_i h2
      rw [List.getD_eq_getElem?_getD, List.getElem?_set_self (by rw [h.len]; exact Nat.mod_lt _ (by decide)), Option.getD_some]
      have hD : (i - 1) • κ ∉ N := hk.ne _ (by omega) (by omega)
      have hg : g ((i - 1) • κ) ≠ 0 := by
        have := hk.x_ne X (i := i - 2) (by omega)
        rw [xk] at this
        have e : i - 2 + 1 = i - 1 := by omega
        rwa [e] at this
      have := xAdd_pr X h.m1 hκ (h.m2 h2) hD hg (Or.inl (by
        obtain ⟨j, rfl⟩ : ∃ j, i = j + 1 := ⟨i - 1, by omega⟩
        rw [Nat.add_sub_cancel, add_smul, one_smul, add_sub_cancel_right]))
      rwa [add_smul, one_smul]
    · have e : i = 1 := by omega
      subst e
      exact h.m0 rfl
  have hm1 : Pr N g (i • κ) (M.getD ((i - 1) % 3) kern) := by
    rw [hM]; split
    · rw [List.getD_eq_getElem?_getD, List.getElem?_set_ne (by omega), ← List.getD_eq_getElem?_getD]
      exact h.m1
    · exact h.m1
  obtain ⟨mz, mx⟩ := hm.fin (hk.nmem hi)
  obtain ⟨u, hu, u1, u2⟩ := h.prod
  obtain ⟨v, hv, v1, v2⟩ := h.q
  have mx : (M.getD (i % 3) kern).x = xk g κ i * (M.getD (i % 3) kern).z := mx
  have hst : isoStep (fieldOps K) kern (x + z) (x - z) i s = ⟨M,
      ⟨s.prod.x * ((M.getD (i % 3) kern).x - (M.getD (i % 3) kern).z), s.prod.z * ((M.getD (i % 3) kern).x + (M.getD (i % 3) kern).z)⟩,
      ⟨s.Q.x * (((M.getD (i % 3) kern).x + (M.getD (i % 3) kern).z) * (x - z) + ((M.getD (i % 3) kern).x - (M.getD (i % 3) kern).z) * (x + z)),
        s.Q.z * (((M.getD (i % 3) kern).x + (M.getD (i % 3) kern).z) * (x - z) - ((M.getD (i % 3) kern).x - (M.getD (i % 3) kern).z) * (x + z))⟩⟩ := by
    rw [hM]; rfl
  rw [hst]
  generalize hmz : (M.getD (i % 3) kern).z = w at mz mx ⊢
  rw [mx]
  refine ⟨hlen, ⟨u * w, mul_ne_zero hu mz, ?_, ?_⟩, ⟨v * (2 * w), mul_ne_zero hv (mul_ne_zero X.two mz), ?_, ?_⟩, ?_, fun _ => ?_, fun h => by omega⟩
  · rw [prod_range_succ, u1]; ring
  · rw [prod_range_succ, u2]; ring
  · rw [prod_range_succ, v1]; ring
  · rw [prod_range_succ, v2]; ring
  · exact hm
  · have e : i + 1 - 2 = i - 1 := by omega
    rw [e]
    exact hm1

theorem isoLoop_inv (X : XRep A N T g) (hk : KerOdd N κ d) {kern : Pt K} (hκ : Pr N g κ kern) {x z : K} : ∀ (k i : ℕ) (s : IsoSt K), 1 ≤ i → i + k = d →
    LInv N g κ x z kern i s → LInv N g κ x z kern d (isoLoop (fieldOps K) kern (x + z) (x - z) i k s)
  | 0, i, s, _, hd, h => by
    rw [add_zero] at hd
    subst hd
    exact h
  | k + 1, i, s, hi, hd, h => isoLoop_inv X hk hκ k (i + 1) _ (by omega) (by omega) (isoStep_inv X hk hκ hi (by omega) h)

/-- the isogeny of curve.go with a kernel of odd order ℓ = 2d + 1 ≥ 3: the image of the point, and the coefficient of the quotient -/
theorem xIso_pr (X : XRep A N T g) (hτ : Ker2 N T τ) (hk : KerOdd N κ d) (G : XGen N g κ) (hd : 1 ≤ d) {P : Γ} {img kern : Pt K} (hp : PrW N g P img)
    (hκ : PrW N g κ kern) {co : Coef K} (hc : IsA co A) {l : W64} (hl : l.toNat = 2 * d + 1) :
    PrW (N ⊔ AddSubgroup.zmultiples κ) (gOdd g κ d) P (xIso (fieldOps K) img co kern l).1 ∧ IsA (xIso (fieldOps K) img co kern l).2 (aOdd g κ τ d) := by
  have hκN : κ ∉ N := by
    have := hk.nmem (i := 0) (by omega)
    rwa [zero_add, one_smul] at this
  have hκ := hκ.strong hκN
  obtain ⟨kz, kx⟩ := hκ.fin hκN
  have kx : kern.x = xk g κ 0 * kern.z := by
    rw [kx, xk, zero_add, one_smul]
  have hsh : (l >>> 1).toNat - 1 = d - 1 := by
    rw [BitVec.toNat_ushiftRight, hl, Nat.shiftRight_eq_div_pow]
    omega
  obtain ⟨s, hs⟩ : ∃ s, s = isoLoop (fieldOps K) kern (img.x + img.z) (img.x - img.z) 1 ((l >>> 1).toNat - 1)
      ⟨[kern, xDbl (fieldOps K) kern ⟨co.a, co.c⟩, ⟨0, 0⟩], ⟨kern.x - kern.z, kern.x + kern.z⟩,
        ⟨(kern.x + kern.z) * (img.x - img.z) + (kern.x - kern.z) * (img.x + img.z), (kern.x + kern.z) * (img.x - img.z) - (kern.x - kern.z) * (img.x + img.z)⟩⟩ := ⟨_, rfl⟩
  have hx : xIso (fieldOps K) img co kern l = (⟨img.x * (s.Q.x * s.Q.x), img.z * (s.Q.z * s.Q.z)⟩,
      ⟨((co.a + (co.c + co.c)) ^ l.toNat * ((s.prod.z * s.prod.z) * (s.prod.z * s.prod.z) * ((s.prod.z * s.prod.z) * (s.prod.z * s.prod.z))) +
          (co.a - (co.c + co.c)) ^ l.toNat * ((s.prod.x * s.prod.x) * (s.prod.x * s.prod.x) * ((s.prod.x * s.prod.x) * (s.prod.x * s.prod.x)))) +
        ((co.a + (co.c + co.c)) ^ l.toNat * ((s.prod.z * s.prod.z) * (s.prod.z * s.prod.z) * ((s.prod.z * s.prod.z) * (s.prod.z * s.prod.z))) +
          (co.a - (co.c + co.c)) ^ l.toNat * ((s.prod.x * s.prod.x) * (s.prod.x * s.prod.x) * ((s.prod.x * s.prod.x) * (s.prod.x * s.prod.x)))),
        (co.a + (co.c + co.c)) ^ l.toNat * ((s.prod.z * s.prod.z) * (s.prod.z * s.prod.z) * ((s.prod.z * s.prod.z) * (s.prod.z * s.prod.z))) -
          (co.a - (co.c + co.c)) ^ l.toNat * ((s.prod.x * s.prod.x) * (s.prod.x * s.prod.x) * ((s.prod.x * s.prod.x) * (s.prod.x * s.prod.x)))⟩) := by
    rw [hs]; rfl
  have hL : LInv N g κ img.x img.z kern d s := by
    rw [hs]
    refine isoLoop_inv X hk hκ _ 1 _ le_rfl (by rw [hsh]; omega) ⟨rfl, ⟨kern.z, kz, ?_, ?_⟩, ⟨2 * kern.z, mul_ne_zero X.two kz, ?_, ?_⟩, ?_, fun h => by omega, fun _ => ?_⟩
    · rw [prod_range_one, kx]; ring
    · rw [prod_range_one, kx]; ring
    · rw [prod_range_one, kx]; ring
    · rw [prod_range_one, kx]; ring
    · rw [one_smul]; exact hκ
    · rw [two_smul]
      exact xDbl_pr X (A_sq X hτ) hκ hc
  obtain ⟨u, hu, u1, u2⟩ := hL.prod
  obtain ⟨v, hv, v1, v2⟩ := hL.q
  rw [hx]
  constructor
  · constructor
    · intro hP
      show img.z * (s.Q.z * s.Q.z) = 0
      by_cases hPN : P ∈ N
      · rw [hp.inf hPN, zero_mul]
      · have h0 := hk.ker_dd X hPN hP
        rw [dd, prod_eq_zero_iff] at h0
        obtain ⟨i, hi, h0⟩ := h0
        have h0 := pow_eq_zero_iff two_ne_zero |>.mp h0
        have h1 : ∏ m ∈ range d, (img.x - xk g κ m * img.z) = 0 := prod_eq_zero hi (by
          rw [(hp.fin hPN).2]; linear_combination img.z * h0)
        rw [v2, h1, mul_zero, mul_zero, mul_zero]
    · intro hP
      obtain ⟨pz, px⟩ := hp.fin (off0 hP)
      show img.z * (s.Q.z * s.Q.z) ≠ 0 ∧ img.x * (s.Q.x * s.Q.x) = gOdd g κ d P * (img.z * (s.Q.z * s.Q.z))
      have hdd := hk.dd_ne X hP
      have e1 : s.Q.z * s.Q.z = v ^ 2 * img.z ^ (2 * d) * dd (xk g κ) d (g P) := by
        rw [v2, px, dd]
        have : ∀ m ∈ range d, g P * img.z - xk g κ m * img.z = img.z * (g P - xk g κ m) := fun m _ => by ring
        rw [prod_congr rfl this, prod_mul_distrib, prod_const, card_range, prod_pow]
        ring
      have e2 : img.x * (s.Q.x * s.Q.x) = v ^ 2 * img.z ^ (2 * d) * img.z * nn (xk g κ) d (g P) := by
        rw [v1, px, nn]
        have : ∀ m ∈ range d, g P * img.z * xk g κ m - img.z = img.z * (g P * xk g κ m - 1) := fun m _ => by ring
        rw [prod_congr rfl this, prod_mul_distrib, prod_const, card_range, prod_pow]
        ring
      have e3 : gOdd g κ d P = nn (xk g κ) d (g P) / dd (xk g κ) d (g P) := rfl
      rw [e1, e2, e3]
      refine ⟨mul_ne_zero pz (mul_ne_zero (mul_ne_zero (pow_ne_zero _ hv) (pow_ne_zero _ pz)) hdd), ?_⟩
      field_simp
  · have hE := KerOdd.edwards X hk G hτ
    have hA := A_sq X hτ
    have hA2 : A - 2 ≠ 0 := by
      intro h; apply hA; linear_combination (A + 2) * h
    have h1 := hk.dd_one X
    have hpm : ∏ m ∈ range d, (xk g κ m - 1) ≠ 0 := prod_ne_zero_iff.mpr fun i hi h0 => by
      refine (prod_ne_zero_iff.mp h1) i hi ?_
      rw [← neg_sub, h0]; ring
    rw [prod_pow, prod_pow] at hE
    have hec : (co.a - (co.c + co.c)) ^ l.toNat * ((s.prod.x * s.prod.x) * (s.prod.x * s.prod.x) * ((s.prod.x * s.prod.x) * (s.prod.x * s.prod.x))) =
        co.c ^ (2 * d + 1) * u ^ 8 * ((A - 2) ^ (2 * d + 1) * (∏ m ∈ range d, (xk g κ m - 1)) ^ 8) := by
      rw [hl, u1, hc.a]
      have : A * co.c - (co.c + co.c) = co.c * (A - 2) := by ring
      rw [this, mul_pow]; ring
    have hea : (co.a + (co.c + co.c)) ^ l.toNat * ((s.prod.z * s.prod.z) * (s.prod.z * s.prod.z) * ((s.prod.z * s.prod.z) * (s.prod.z * s.prod.z))) =
        co.c ^ (2 * d + 1) * u ^ 8 * ((A + 2) ^ (2 * d + 1) * (∏ m ∈ range d, (xk g κ m + 1)) ^ 8) := by
      rw [hl, u2, hc.a]
      have : A * co.c + (co.c + co.c) = co.c * (A + 2) := by ring
      rw [this, mul_pow]; ring
    rw [hec, hea]
    have hw : co.c ^ (2 * d + 1) * u ^ 8 ≠ 0 := mul_ne_zero (pow_ne_zero _ hc.c) (pow_ne_zero _ hu)
    generalize co.c ^ (2 * d + 1) * u ^ 8 = w at hw ⊢
    have hb : (A - 2) ^ (2 * d + 1) * (∏ m ∈ range d, (xk g κ m - 1)) ^ 8 ≠ 0 := mul_ne_zero (pow_ne_zero _ hA2) (pow_ne_zero _ hpm)
    generalize (A - 2) ^ (2 * d + 1) * (∏ m ∈ range d, (xk g κ m - 1)) ^ 8 = b at hb hE ⊢
    generalize (A + 2) ^ (2 * d + 1) * (∏ m ∈ range d, (xk g κ m + 1)) ^ 8 = a at hE ⊢
    generalize aOdd g κ τ d = A' at hE ⊢
    constructor
    · show w * a - w * b ≠ 0
      intro h0
      have h3 : a = b := mul_left_cancel₀ hw (sub_eq_zero.mp h0)
      rw [h3] at hE
      have : 4 * b = 0 := by linear_combination hE
      exact mul_ne_zero X.four hb this
    · show (w * a + w * b) + (w * a + w * b) = A' * (w * a - w * b)
      linear_combination w * hE

end Lemmas.CsidhIso
