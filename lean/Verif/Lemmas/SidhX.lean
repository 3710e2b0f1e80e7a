import Verif.Lemmas.XSquare
import Verif.Lemmas.SidhNat
/-
The projective formulas of curve.go, over a field, compute the x-only maps of `XOnly`.
-/
namespace Lemmas.SidhX
open Model Model.Sidh Lemmas.SidhNat Verif.XOnly

variable {K : Type} [Field K]

/-- the projective point (X : Z) is the finite x-coordinate `x` -/
structure Rep (p : Pt K) (x : K) : Prop where
  Z : p.Z ≠ 0
  X : p.X = x * p.Z

/-- (A : C) is the coefficient `A` -/
structure IsA (c : Coef K) (A : K) : Prop where
  C : c.C ≠ 0
  A : c.A = A * c.C

/-- (A + 2 : 4) -/
structure IsA4 (c : Coef K) (A : K) : Prop where
  C : c.C ≠ 0
  A : 4 * c.A = (A + 2) * c.C

/-- (A + 2 : A − 2) -/
structure IsA3 (c : Coef K) (A : K) : Prop where
  ne : ¬ (c.A = 0 ∧ c.C = 0)
  A : c.A * (A - 2) = c.C * (A + 2)

theorem fadd (x y : K) : (fieldOps K).add x y = x + y := rfl
theorem fsub (x y : K) : (fieldOps K).sub x y = x - y := rfl
theorem fmul (x y : K) : (fieldOps K).mul x y = x * y := rfl
theorem fsqr (x : K) : (fieldOps K).sqr x = x * x := rfl
theorem finv (x : K) : (fieldOps K).inv x = x⁻¹ := rfl

theorem equiv4 {c : Coef K} {A : K} (h4 : (4 : K) ≠ 0) (h : IsA c A) : IsA4 (calcCurveParamsEquiv4 (fieldOps K) c) A := by
  obtain ⟨h1, h2⟩ := h
  constructor
  · simp only [calcCurveParamsEquiv4, fadd]
    rw [show c.C + c.C + (c.C + c.C) = 4 * c.C by ring]
    exact mul_ne_zero h4 h1
  · simp only [calcCurveParamsEquiv4, fadd, h2]
    ring

theorem equiv3 {c : Coef K} {A : K} (h2' : (2 : K) ≠ 0) (h : IsA c A) : IsA3 (calcCurveParamsEquiv3 (fieldOps K) c) A := by
  obtain ⟨h1, h2⟩ := h
  constructor
  · simp only [calcCurveParamsEquiv3, fadd, fsub]
    rintro ⟨e1, e2⟩
    have : 2 * (2 * c.C) = 0 := by linear_combination e1 - e2
    have := (mul_eq_zero.mp this).resolve_left h2'
    exact h1 ((mul_eq_zero.mp this).resolve_left h2')
  · simp only [calcCurveParamsEquiv3, fadd, fsub, h2]
    ring

theorem aplus2 {c : Coef K} {A : K} (h4 : (4 : K) ≠ 0) (h : IsA c A) : 4 * calcAplus2Over4 (fieldOps K) c = A + 2 := by
  obtain ⟨h1, h2⟩ := h
  simp only [calcAplus2Over4, fadd, fmul, finv, h2]
  have : c.C + c.C + (c.C + c.C) = 4 * c.C := by ring
  rw [this]
  field_simp
  ring

theorem recover4 {c : Coef K} {A half : K} (hh : half + half = 1) (h : IsA4 c A) :
    IsA (recoverCurveCoefficients4 (fieldOps K) half c) A := by
  obtain ⟨h1, h2⟩ := h
  have hh0 : half ≠ 0 := by
    rintro rfl
    simp at hh
  constructor
  · simp only [recoverCurveCoefficients4, fmul]
    exact mul_ne_zero (mul_ne_zero h1 hh0) hh0
  · simp only [recoverCurveCoefficients4, fmul, fsub]
    linear_combination half ^ 2 * h2 + c.A * (-2 * half - 1) * hh + (c.C * half * 1) * hh

theorem recover3 {c : Coef K} {A : K} (h4 : (4 : K) ≠ 0) (h : IsA3 c A) : IsA (recoverCurveCoefficients3 (fieldOps K) c) A := by
  obtain ⟨h1, h2⟩ := h
  constructor
  · simp only [recoverCurveCoefficients3, fsub]
    intro h0
    have h0 := sub_eq_zero.mp h0
    rw [h0] at h2
    have : 4 * c.C = 0 := by linear_combination -h2
    have := (mul_eq_zero.mp this).resolve_left h4
    exact h1 ⟨h0.trans this, this⟩
  · simp only [recoverCurveCoefficients3, fadd, fsub]
    linear_combination -h2

/-- the j-invariant of y² = x³ + A x² + x -/
def jInv (A : K) : K := 256 * (A ^ 2 - 3) ^ 3 / (A ^ 2 - 4)

theorem jinvariant_eq {c : Coef K} {A : K} (h : IsA c A) : jinvariant (fieldOps K) c = jInv A := by
  obtain ⟨h1, h2⟩ := h
  simp only [jinvariant, fadd, fsub, fmul, fsqr, finv, h2, jInv]
  have e : (A * c.C * (A * c.C) - (c.C * c.C + c.C * c.C) - c.C * c.C - c.C * c.C) * (c.C * c.C * (c.C * c.C)) =
      (A ^ 2 - 4) * c.C ^ 6 := by ring
  rw [e, mul_inv, div_eq_mul_inv]
  have : c.C ^ 6 ≠ 0 := pow_ne_zero 6 h1
  field_simp
  ring

theorem recoverCoordinateA_eq {A p q r : K} (h4 : (4 : K) ≠ 0) (hp : p ≠ 0) (hq : q ≠ 0) (hr : r ≠ 0) (h : summ A p q r = 0) :
    recoverCoordinateA (fieldOps K) 1 p q r = A := by
  simp only [recoverCoordinateA, fadd, fsub, fmul, fsqr, finv]
  have e : p * q * r + p * q * r + (p * q * r + p * q * r) = 4 * (p * q * r) := by ring
  rw [e]
  field_simp
  rw [summ] at h
  linear_combination h

theorem batch3_eq {x y z : K} (hx : x ≠ 0) (hy : y ≠ 0) (hz : z ≠ 0) : batch3Inv (fieldOps K) x y z = (x⁻¹, y⁻¹, z⁻¹) := by
  simp only [batch3Inv, fmul, finv]
  refine Prod.ext ?_ (Prod.ext ?_ ?_) <;> simp only <;> field_simp

theorem rep_div {p : Pt K} {x : K} (h : Rep p x) : p.X * p.Z⁻¹ = x := by
  obtain ⟨h1, h2⟩ := h
  rw [h2]; field_simp

theorem rep_one (x : K) : Rep ⟨x, 1⟩ x := ⟨one_ne_zero, (mul_one x).symm⟩

theorem dblStep_rep {c : Coef K} {A x y : K} {p : Pt K} (h2 : (2 : K) ≠ 0) (hc : IsA4 c A) (hp : Rep p x) (hd : dblDen A x ≠ 0)
    (hy : y * dblDen A x = (x ^ 2 - 1) ^ 2) : Rep (dblStep (fieldOps K) c p) y := by
  obtain ⟨hC, hA⟩ := hc
  obtain ⟨hZ, hX⟩ := hp
  have hz : (dblStep (fieldOps K) c p).Z = c.C * p.Z ^ 4 * dblDen A x := by
    simp only [dblStep, fadd, fsub, fmul, fsqr, hX, dblDen]
    linear_combination 4 * x ^ 2 * p.Z ^ 4 * hA
  constructor
  · rw [hz]
    exact mul_ne_zero (mul_ne_zero hC (pow_ne_zero 4 hZ)) hd
  · rw [hz]
    have : (dblStep (fieldOps K) c p).X = c.C * p.Z ^ 4 * (x ^ 2 - 1) ^ 2 := by
      simp only [dblStep, fadd, fsub, fmul, fsqr, hX]; ring
    rw [this, ← hy]; ring

/-- the third division polynomial -/
def psi3 (A x : K) : K := 3 * x ^ 4 + 4 * A * x ^ 3 + 6 * x ^ 2 - 1

theorem tplStep_rep {c : Coef K} {A x y : K} {p : Pt K} (h2 : (2 : K) ≠ 0) (hc : IsA3 c A) (hp : Rep p x) (hd : psi3 A x ≠ 0)
    (hy : y * psi3 A x ^ 2 = x * (x ^ 4 - 6 * x ^ 2 - 4 * A * x - 3) ^ 2) : Rep (tplStep (fieldOps K) c p) y := by
  obtain ⟨hne, hA⟩ := hc
  obtain ⟨hZ, hX⟩ := hp
  have h4 : (4 : K) ≠ 0 := by
    intro h; apply h2
    have : (2 : K) * 2 = 0 := by linear_combination h
    simpa using this
  obtain ⟨l, hl, hlA, hlC⟩ : ∃ l : K, l ≠ 0 ∧ c.A = l * (A + 2) ∧ c.C = l * (A - 2) := by
    refine ⟨(c.A - c.C) / 4, ?_, ?_, ?_⟩
    · intro h0
      have h0 : c.A - c.C = 0 := by
        rcases div_eq_zero_iff.mp h0 with h | h
        · exact h
        · exact absurd h h4
      have h0 := sub_eq_zero.mp h0
      rw [h0] at hA
      have : 4 * c.C = 0 := by linear_combination -hA
      have := (mul_eq_zero.mp this).resolve_left h4
      exact hne ⟨h0.trans this, this⟩
    · field_simp; linear_combination -hA
    · field_simp; linear_combination -hA
  have hz : (tplStep (fieldOps K) c p).Z = 32 * l ^ 2 * p.Z ^ 9 * psi3 A x ^ 2 := by
    simp only [tplStep, fadd, fsub, fmul, fsqr, hX, hlA, hlC, psi3]; ring
  have hx : (tplStep (fieldOps K) c p).X = 32 * l ^ 2 * p.Z ^ 9 * (x * (x ^ 4 - 6 * x ^ 2 - 4 * A * x - 3) ^ 2) := by
    simp only [tplStep, fadd, fsub, fmul, fsqr, hX, hlA, hlC]; ring
  have h32 : (32 : K) ≠ 0 := by
    have : (32 : K) = 2 ^ 5 := by norm_num
    rw [this]; exact pow_ne_zero 5 h2
  constructor
  · rw [hz]
    exact mul_ne_zero (mul_ne_zero (mul_ne_zero h32 (pow_ne_zero 2 hl)) (pow_ne_zero 9 hZ)) (pow_ne_zero 2 hd)
  · rw [hz, hx, ← hy]; ring

theorem gen4_rep {p : Pt K} {k : K} (h4 : (4 : K) ≠ 0) (hp : Rep p k) : IsA4 (gen4 (fieldOps K) p).1 (coef4 k) := by
  obtain ⟨hZ, hX⟩ := hp
  constructor
  · simp only [gen4, fadd, fmul, fsqr]
    have : (p.Z * p.Z + p.Z * p.Z) * (p.Z * p.Z + p.Z * p.Z) = 4 * p.Z ^ 4 := by ring
    rw [this]; exact mul_ne_zero h4 (pow_ne_zero 4 hZ)
  · simp only [gen4, fadd, fmul, fsqr, hX, coef4]; ring

theorem eval4_rep {p q : Pt K} {k x : K} (h4 : (4 : K) ≠ 0) (hp : Rep p k) (hq : Rep q x) (h1 : k - x ≠ 0)
    (h2 : k ^ 2 + 1 - 2 * k * x ≠ 0) : Rep (eval4 (fieldOps K) (gen4 (fieldOps K) p).2 q) (phi4 k x) := by
  obtain ⟨hZ, hX⟩ := hp
  obtain ⟨hZ', hX'⟩ := hq
  have hz : (eval4 (fieldOps K) (gen4 (fieldOps K) p).2 q).Z =
      4 * 4 * p.Z ^ 4 * q.Z ^ 4 * ((k ^ 2 + 1 - 2 * k * x) * (k - x) ^ 2) := by
    simp only [eval4, gen4, fadd, fsub, fmul, fsqr, hX, hX']; ring
  have hx : (eval4 (fieldOps K) (gen4 (fieldOps K) p).2 q).X =
      4 * 4 * p.Z ^ 4 * q.Z ^ 4 * (x * ((k ^ 2 + 1) * x - 2 * k) * (k * x - 1) ^ 2) := by
    simp only [eval4, gen4, fadd, fsub, fmul, fsqr, hX, hX']; ring
  have hd : (k ^ 2 + 1 - 2 * k * x) * (k - x) ^ 2 ≠ 0 := mul_ne_zero h2 (pow_ne_zero 2 h1)
  constructor
  · rw [hz]
    exact mul_ne_zero (mul_ne_zero (mul_ne_zero (mul_ne_zero h4 h4) (pow_ne_zero 4 hZ)) (pow_ne_zero 4 hZ')) hd
  · rw [hz, hx, phi4]
    generalize (k ^ 2 + 1 - 2 * k * x) * (k - x) ^ 2 = d at *
    field_simp

theorem gen3_rep {p : Pt K} {A k : K} (h2 : (2 : K) ≠ 0) (hp : Rep p k) (hk : psi3 A k = 0) :
    IsA3 (gen3 (fieldOps K) p).1 (coef3 A k) := by
  obtain ⟨hZ, hX⟩ := hp
  have hk0 : k ≠ 0 := by
    rintro rfl
    simp [psi3] at hk
  have h4 : (4 : K) ≠ 0 := by
    intro h; apply h2
    have : (2 : K) * 2 = 0 := by linear_combination h
    simpa using this
  have ea : (gen3 (fieldOps K) p).1.A = p.Z ^ 4 * ((3 * k + 1) ^ 3 * (k - 1)) := by
    simp only [gen3, fadd, fsub, fmul, fsqr, hX]; ring
  have ec : (gen3 (fieldOps K) p).1.C = p.Z ^ 4 * ((3 * k - 1) ^ 3 * (k + 1)) := by
    simp only [gen3, fadd, fsub, fmul, fsqr, hX]; ring
  have e1 : 4 * k * (coef3 A k + 2) = -((3 * k + 1) ^ 3 * (k - 1)) := by
    rw [psi3] at hk
    simp only [coef3]; linear_combination hk
  have e2 : 4 * k * (coef3 A k - 2) = -((3 * k - 1) ^ 3 * (k + 1)) := by
    rw [psi3] at hk
    simp only [coef3]; linear_combination hk
  constructor
  · rw [ea, ec]
    rintro ⟨f1, f2⟩
    have f1 := (mul_eq_zero.mp f1).resolve_left (pow_ne_zero 4 hZ)
    have f2 := (mul_eq_zero.mp f2).resolve_left (pow_ne_zero 4 hZ)
    have : 4 * (4 * k) = 0 := by linear_combination e1 - e2 - f1 + f2
    exact mul_ne_zero h4 (mul_ne_zero h4 hk0) this
  · rw [ea, ec]
    linear_combination p.Z ^ 4 * (coef3 A k - 2) * e1 - p.Z ^ 4 * (coef3 A k + 2) * e2

theorem eval3_rep {p q : Pt K} {k x : K} (h4 : (4 : K) ≠ 0) (hp : Rep p k) (hq : Rep q x) (h1 : x - k ≠ 0) :
    Rep (eval3 (fieldOps K) (gen3 (fieldOps K) p).2 q) (phi3 k x) := by
  obtain ⟨hZ, hX⟩ := hp
  obtain ⟨hZ', hX'⟩ := hq
  have hz : (eval3 (fieldOps K) (gen3 (fieldOps K) p).2 q).Z = 4 * p.Z ^ 2 * q.Z ^ 3 * (x - k) ^ 2 := by
    simp only [eval3, gen3, fadd, fsub, fmul, fsqr, hX, hX']; ring
  have hx : (eval3 (fieldOps K) (gen3 (fieldOps K) p).2 q).X = 4 * p.Z ^ 2 * q.Z ^ 3 * (x * (k * x - 1) ^ 2) := by
    simp only [eval3, gen3, fadd, fsub, fmul, fsqr, hX, hX']; ring
  constructor
  · rw [hz]
    exact mul_ne_zero (mul_ne_zero (mul_ne_zero h4 (pow_ne_zero 2 hZ)) (pow_ne_zero 3 hZ')) (pow_ne_zero 2 h1)
  · rw [hz, hx, phi3]
    field_simp

theorem xDbladd_dbl {p q d : Pt K} {A a24 x y : K} (h2 : (2 : K) ≠ 0) (ha : 4 * a24 = A + 2) (hp : Rep p x) (hd : dblDen A x ≠ 0)
    (hy : y * dblDen A x = (x ^ 2 - 1) ^ 2) : Rep (xDbladd (fieldOps K) p q d a24).1 y := by
  obtain ⟨hZ, hX⟩ := hp
  have hz : (xDbladd (fieldOps K) p q d a24).1.Z = p.Z ^ 4 * dblDen A x := by
    simp only [xDbladd, fadd, fsub, fmul, fsqr, hX, dblDen]
    linear_combination 4 * x ^ 2 * p.Z ^ 4 * ha
  constructor
  · rw [hz]; exact mul_ne_zero (pow_ne_zero 4 hZ) hd
  · rw [hz]
    have : (xDbladd (fieldOps K) p q d a24).1.X = p.Z ^ 4 * (x ^ 2 - 1) ^ 2 := by
      simp only [xDbladd, fadd, fsub, fmul, fsqr, hX]; ring
    rw [this, ← hy]; ring

theorem xDbladd_add {p q d : Pt K} {A a24 x y s e : K} (h4 : (4 : K) ≠ 0) (hp : Rep p x) (hq : Rep q y) (hd : Rep d e)
    (D : DA A x y s e) (he : e ≠ 0) : Rep (xDbladd (fieldOps K) p q d a24).2 s := by
  obtain ⟨hZ, hX⟩ := hp
  obtain ⟨hZ', hX'⟩ := hq
  obtain ⟨hZ'', hX''⟩ := hd
  have hz : (xDbladd (fieldOps K) p q d a24).2.Z = 4 * d.Z * p.Z ^ 2 * q.Z ^ 2 * e * (x - y) ^ 2 := by
    simp only [xDbladd, fadd, fsub, fmul, fsqr, hX, hX', hX'']; ring
  have hx : (xDbladd (fieldOps K) p q d a24).2.X = 4 * d.Z * p.Z ^ 2 * q.Z ^ 2 * (x * y - 1) ^ 2 := by
    simp only [xDbladd, fadd, fsub, fmul, fsqr, hX, hX', hX'']; ring
  constructor
  · rw [hz]
    exact mul_ne_zero (mul_ne_zero (mul_ne_zero (mul_ne_zero (mul_ne_zero h4 hZ'') (pow_ne_zero 2 hZ)) (pow_ne_zero 2 hZ')) he)
      (pow_ne_zero 2 (sub_ne_zero.mpr D.ne))
  · rw [hz, hx, ← D.prod]; ring

end Lemmas.SidhX
