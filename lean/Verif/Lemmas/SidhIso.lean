import Verif.Lemmas.SidhTotal
import Mathlib.AlgebraicGeometry.EllipticCurve.Weierstrass
/-
Isogenies, coefficient recovery and j-invariant on a Montgomery curve.
-/
namespace Lemmas.SidhIso
open Model Model.Sidh Lemmas.SidhNat Verif.XOnly Lemmas.SidhX Lemmas.SidhTotal

variable {K : Type} [Field K] [DecidableEq K] {A : K}

theorem bot_sup (κ : (W A).Point) : (⊥ : AddSubgroup (W A).Point) ⊔ AddSubgroup.zmultiples κ = AddSubgroup.zmultiples κ := bot_sup_eq _

/-- the images under the isogenies lie on a nonsingular curve -/
theorem coef3_ns (h2 : (2 : K) ≠ 0) (hA : A ^ 2 ≠ 4) {κ : (W A).Point} (h3 : κ + κ + κ = 0) (h : κ ≠ 0) : coef3 A (xc κ) ^ 2 ≠ 4 := by
  have X := baseX h2 hA
  have hk : Ker3 (⊥ : AddSubgroup (W A).Point) κ := ⟨(AddSubgroup.mem_bot).mpr h3, bot.mpr h⟩
  have hψ := hk.psi X
  have h0 := hk.k_ne X
  have h4 := four_ne h2
  set k := xc κ
  have e1 : 4 * k ^ 3 * (A - 2) = (k + 1) ^ 3 * (1 - 3 * k) := by linear_combination hψ
  have e2 : 4 * k ^ 3 * (A + 2) = (1 - k) ^ 3 * (1 + 3 * k) := by linear_combination hψ
  have f1 : 4 * k * (coef3 A k - 2) = (k + 1) * (1 - 3 * k) ^ 3 := by rw [coef3]; linear_combination hψ
  have f2 : 4 * k * (coef3 A k + 2) = (1 - k) * (1 + 3 * k) ^ 3 := by rw [coef3]; linear_combination hψ
  have hm : A - 2 ≠ 0 := fun h => hA (by linear_combination (A + 2) * h)
  have hp : A + 2 ≠ 0 := fun h => hA (by linear_combination (A - 2) * h)
  have g1 : (k + 1) ^ 3 * (1 - 3 * k) ≠ 0 := by rw [← e1]; exact mul_ne_zero (mul_ne_zero h4 (pow_ne_zero 3 h0)) hm
  have g2 : (1 - k) ^ 3 * (1 + 3 * k) ≠ 0 := by rw [← e2]; exact mul_ne_zero (mul_ne_zero h4 (pow_ne_zero 3 h0)) hp
  have a1 : k + 1 ≠ 0 := fun h => g1 (by rw [h]; ring)
  have a2 : 1 - 3 * k ≠ 0 := fun h => g1 (by rw [h]; ring)
  have a3 : 1 - k ≠ 0 := fun h => g2 (by rw [h]; ring)
  have a4 : 1 + 3 * k ≠ 0 := fun h => g2 (by rw [h]; ring)
  intro hc
  have : (coef3 A k - 2) * (coef3 A k + 2) = 0 := by linear_combination hc
  rcases mul_eq_zero.mp this with h | h
  · exact mul_ne_zero a1 (pow_ne_zero 3 a2) (by rw [← f1, h, mul_zero])
  · exact mul_ne_zero a3 (pow_ne_zero 3 a4) (by rw [← f2, h, mul_zero])

theorem ker4 {h2 : (2 : K) ≠ 0} {hA : A ^ 2 ≠ 4} {κ : (W A).Point} (h4 : κ + κ + (κ + κ) = 0) (h : κ + κ ≠ 0) (hT : κ + κ ≠ T0 h2 hA) :
    Ker4 (⊥ : AddSubgroup (W A).Point) (T0 h2 hA) κ :=
  ⟨(AddSubgroup.mem_bot).mpr h4, bot.mpr h, by rw [bot, sub_ne_zero]; exact hT⟩

theorem coef4_ns (h2 : (2 : K) ≠ 0) (hA : A ^ 2 ≠ 4) {κ : (W A).Point} (h4 : κ + κ + (κ + κ) = 0) (h : κ + κ ≠ 0) (hT : κ + κ ≠ T0 h2 hA) :
    coef4 (xc κ) ^ 2 ≠ 4 := by
  have X := baseX h2 hA
  have hk := ker4 h4 h hT
  have h0 := hk.k_ne X
  have h1 := hk.k_sq X
  have hkk := hk.kk_ne X
  intro hc
  have : 4 * 4 * (xc κ ^ 4 * ((xc κ ^ 2 - 1) * (xc κ ^ 2 + 1))) = 0 := by rw [coef4] at hc; linear_combination hc
  exact mul_ne_zero (mul_ne_zero (four_ne h2) (four_ne h2)) (mul_ne_zero (pow_ne_zero 4 h0) (mul_ne_zero h1 hkk)) this

/-- the kernel goes to infinity -/
theorem eval3_ker (h2 : (2 : K) ≠ 0) (hA : A ^ 2 ≠ 4) {κ P : (W A).Point} (h3 : κ + κ + κ = 0) (hP : P ∈ AddSubgroup.zmultiples κ) {k p : Pt K} (hk : PX κ k)
    (h : κ ≠ 0) (hp : PX P p) : (eval3 (fieldOps K) (gen3 (fieldOps K) k).2 p).Z = 0 := by
  have X := baseX h2 hA
  obtain ⟨kZ, kX⟩ := hk.fin h
  have hz : (eval3 (fieldOps K) (gen3 (fieldOps K) k).2 p).Z = 4 * p.Z * (p.X * k.Z - k.X * p.Z) ^ 2 := by
    simp only [eval3, gen3, fadd, fsub, fmul, fsqr]; ring
  rw [← bot_sup, mem_sup3 ((AddSubgroup.mem_bot).mpr h3)] at hP
  simp only [AddSubgroup.mem_bot] at hP
  rcases hP with h | h | h
  · rw [hz, (hp.inf h).2]; ring
  · rw [sub_eq_zero] at h
    subst h
    obtain ⟨pZ, pX⟩ := hp.fin ‹_›
    rw [hz, pX, kX]; ring
  · have h := eq_neg_of_add_eq_zero_left h
    subst h
    obtain ⟨pZ, pX⟩ := hp.fin (neg_ne_zero.mpr ‹_›)
    rw [xc_neg] at pX
    rw [hz, pX, kX]; ring

theorem mem4 {Γ : Type*} [AddCommGroup Γ] {κ P : Γ} (h4 : κ + κ + (κ + κ) = 0) (hP : P ∈ AddSubgroup.zmultiples κ) :
    P = 0 ∨ P = κ + κ ∨ P = κ ∨ P = -κ := by
  obtain ⟨z, rfl⟩ := AddSubgroup.mem_zmultiples_iff.mp hP
  have e : ∀ c : ℤ, (4 * c) • κ = 0 := by
    intro c
    have : (4 * c) • κ = c • (κ + κ + (κ + κ)) := by module
    rw [this, h4, smul_zero]
  have hz : z = 4 * (z / 4) + z % 4 := by omega
  have hr : z % 4 = 0 ∨ z % 4 = 1 ∨ z % 4 = 2 ∨ z % 4 = 3 := by omega
  rw [hz, add_smul, e, zero_add]
  rcases hr with h | h | h | h <;> rw [h]
  · left; simp
  · right; right; left; simp
  · right; left; rw [two_smul]
  · right; right; right
    have e1 := e 1
    have : (3 : ℤ) • κ = (4 * 1 : ℤ) • κ + -κ := by module
    rw [this, e1, zero_add]

theorem eval4_ker (h2 : (2 : K) ≠ 0) (hA : A ^ 2 ≠ 4) {κ P : (W A).Point} (h4 : κ + κ + (κ + κ) = 0) (h : κ + κ ≠ 0) (hT : κ + κ ≠ T0 h2 hA)
    (hP : P ∈ AddSubgroup.zmultiples κ) {k p : Pt K} (hk : PX κ k) (hp : PX P p) :
    (eval4 (fieldOps K) (gen4 (fieldOps K) k).2 p).Z = 0 := by
  have X := baseX h2 hA
  have hker := ker4 h4 h hT
  have hκ : κ ≠ 0 := bot.mp hker.ne1
  obtain ⟨kZ, kX⟩ := hk.fin hκ
  have hz : (eval4 (fieldOps K) (gen4 (fieldOps K) k).2 p).Z =
      16 * p.Z * ((k.X ^ 2 + k.Z ^ 2) * p.Z - 2 * k.X * k.Z * p.X) * (k.X * p.Z - p.X * k.Z) ^ 2 := by
    simp only [eval4, gen4, fadd, fsub, fmul, fsqr]; ring
  rcases mem4 h4 hP with h | h | h | h
  · rw [hz, (hp.inf h).2]; ring
  · subst h
    obtain ⟨pZ, pX⟩ := hp.fin ‹_›
    have := hker.k2 X
    rw [hz, pX, kX]
    linear_combination 16 * p.Z ^ 2 * k.Z ^ 2 * (xc κ * k.Z * p.Z - xc (κ + κ) * p.Z * k.Z) ^ 2 * this
  · subst h
    obtain ⟨pZ, pX⟩ := hp.fin hκ
    rw [hz, pX, kX]; ring
  · subst h
    obtain ⟨pZ, pX⟩ := hp.fin (neg_ne_zero.mpr hκ)
    rw [xc_neg] at pX
    rw [hz, pX, kX]; ring

/-- the coefficient from x(P), x(Q), x(P − Q), for any P, Q with P, Q, P − Q different from infinity and (0, 0) -/
theorem recover_curve (h2 : (2 : K) ≠ 0) (hA : A ^ 2 ≠ 4) {P Q : (W A).Point} (hP : P ≠ 0) (hQ : Q ≠ 0) (hD : P - Q ≠ 0)
    (tP : P ≠ T0 h2 hA) (tQ : Q ≠ T0 h2 hA) (tD : P - Q ≠ T0 h2 hA) :
    recoverCoordinateA (fieldOps K) 1 (xc P) (xc Q) (xc (P - Q)) = A := by
  have X := baseX h2 hA
  have n0 : ∀ R : (W A).Point, R ≠ 0 → R ≠ T0 h2 hA → xc R ≠ 0 := fun R h t => X.ne_zero (bot.mpr h) (by rw [bot, sub_ne_zero]; exact t)
  refine recoverCoordinateA_eq (four_ne h2) (n0 P hP tP) (n0 Q hQ tQ) (n0 _ hD tD) ?_
  by_cases hs : P + Q = 0
  · have e : xc P = xc Q := by rw [← xc_neg Q, eq_neg_of_add_eq_zero_left hs]
    have e2 : P + P = P - Q := by
      have := eq_neg_of_add_eq_zero_right hs
      rw [this, sub_neg_eq_add]
    obtain ⟨b1, b2⟩ := X.dbl P (bot.mpr hP) (bot.mpr (by rw [e2]; exact hD))
    rw [e2] at b2
    rw [← e, summ]
    rw [dblDen] at b2
    linear_combination -b2
  · have D := X.add P Q (bot.mpr hP) (bot.mpr hQ) (bot.mpr hs) (bot.mpr hD)
    rw [D.summ]; ring

/-- Mathlib's j-invariant -/
theorem W_disc : (W A).Δ = 16 * (A ^ 2 - 4) := by
  simp only [W, WeierstrassCurve.Δ, WeierstrassCurve.b₂, WeierstrassCurve.b₄, WeierstrassCurve.b₆, WeierstrassCurve.b₈]; ring

theorem W_elliptic (h2 : (2 : K) ≠ 0) (hA : A ^ 2 ≠ 4) : (W A).IsElliptic := by
  refine ⟨?_⟩
  rw [W_disc, isUnit_iff_ne_zero]
  have : (16 : K) = 2 ^ 4 := by norm_num
  rw [this]
  exact mul_ne_zero (pow_ne_zero 4 h2) (sub_ne_zero.mpr hA)

theorem jInv_eq (h2 : (2 : K) ≠ 0) [(W A).IsElliptic] : jInv A = (W A).j := by
  have hd : (W A).Δ ≠ 0 := by
    have := (W A).isUnit_Δ
    exact this.ne_zero
  rw [WeierstrassCurve.j, Units.val_inv_eq_inv_val, WeierstrassCurve.coe_Δ', jInv]
  rw [W_disc] at hd
  have hd' : A ^ 2 - 4 ≠ 0 := fun h => hd (by rw [h, mul_zero])
  have h16 : (16 : K) ≠ 0 := fun h => hd (by rw [h, zero_mul])
  rw [W_disc]
  simp only [W, WeierstrassCurve.c₄, WeierstrassCurve.b₂, WeierstrassCurve.b₄]
  field_simp
  ring

end Lemmas.SidhIso
