import Verif.Spec.Mont
import Mathlib.Tactic.FieldSimp
import Mathlib.Tactic.LinearCombination
import Mathlib.Tactic.Ring

/-!
x-only arithmetic on Montgomery curves `y² = x³ + A x² + x`, and how it behaves under
isogenies.  An `XRep A N T g` says that `g` sends the elements of an abelian group `Γ` outside
the subgroup `N` to x-coordinates on the curve with coefficient `A` whose group is `Γ / N`, up
to sign: `g` satisfies the doubling and the differential addition law.  The group itself is the
`x`-coordinate map of Mathlib's group of points (`XRep.base`); dividing by a point of order two
or three gives the isogenous curve (`XRep.step2`, `XRep.step3`).
-/

namespace Verif.XOnly

variable {K : Type*} [Field K]

variable {Γ : Type*} [AddCommGroup Γ]

theorem W_equation (A x y : K) : (W A).Equation x y ↔ y ^ 2 = x ^ 3 + A * x ^ 2 + x := by
  rw [WeierstrassCurve.Affine.equation_iff]
  simp [W]

theorem W_nonsingular {A : K} (h2 : (2 : K) ≠ 0) (hA : A ^ 2 ≠ 4) {x y : K}
    (h : y ^ 2 = x ^ 3 + A * x ^ 2 + x) : (W A).Nonsingular x y := by
  rw [WeierstrassCurve.Affine.nonsingular_iff, W_equation]
  refine ⟨h, ?_⟩
  simp only [W]
  by_contra hc
  push Not at hc
  obtain ⟨h1, h3⟩ := hc
  have hy : y = 0 := by
    have : 2 * y = 0 := by linear_combination h3
    exact (mul_eq_zero.mp this).resolve_left h2
  subst hy
  have hx : x * (x ^ 2 + A * x + 1) = 0 := by linear_combination -h
  have hd : 3 * x ^ 2 + 2 * A * x + 1 = 0 := by linear_combination -h1
  rcases mul_eq_zero.mp hx with hx | hx
  · subst hx
    apply one_ne_zero (α := K)
    linear_combination hd
  · apply hA
    have h1' : x ^ 2 = 1 := by linear_combination hd - 2 * hx
    have hAx : A * x = -2 := by linear_combination hx - h1'
    linear_combination (A * x - 2) * hAx - A ^ 2 * h1'

theorem point_eq {A : K} (P : (W A).Point) (hP : P ≠ 0) :
    ∃ h, P = .some (xc P) (yc P) h := by
  cases P with
  | zero => exact absurd rfl hP
  | some x y h => exact ⟨h, rfl⟩

theorem point_curve {A : K} (P : (W A).Point) (hP : P ≠ 0) :
    yc P ^ 2 = xc P ^ 3 + A * xc P ^ 2 + xc P := by
  obtain ⟨h, _⟩ := point_eq P hP
  exact (W_equation _ _ _).mp h.1

theorem xc_neg {A : K} (P : (W A).Point) : xc (-P) = xc P := by
  cases P with
  | zero => rfl
  | some x y h => rfl

theorem yc_neg {A : K} (P : (W A).Point) : yc (-P) = -yc P := by
  cases P with
  | zero => simp [yc, WeierstrassCurve.Affine.Point.neg_def, WeierstrassCurve.Affine.Point.neg]
  | some x y h =>
    rw [WeierstrassCurve.Affine.Point.neg_some]
    simp [yc, WeierstrassCurve.Affine.negY, W]

variable [DecidableEq K]

theorem point_ext {A : K} {P Q : (W A).Point} (hP : P ≠ 0) (hQ : Q ≠ 0) (hx : xc P = xc Q)
    (hy : yc P = yc Q) : P = Q := by
  obtain ⟨h, hP⟩ := point_eq P hP
  obtain ⟨h', hQ⟩ := point_eq Q hQ
  rw [hP, hQ]
  congr

theorem same_x {A : K} {P Q : (W A).Point} (hP : P ≠ 0) (hQ : Q ≠ 0) (hx : xc P = xc Q) :
    P = Q ∨ P = -Q := by
  have h1 := point_curve P hP
  have h2 := point_curve Q hQ
  have : (yc P - yc Q) * (yc P + yc Q) = 0 := by
    rw [hx] at h1
    linear_combination h1 - h2
  rcases mul_eq_zero.mp this with h | h
  · left; exact point_ext hP hQ hx (sub_eq_zero.mp h)
  · right
    refine point_ext hP (neg_ne_zero.mpr hQ) (by rw [hx, xc_neg]) ?_
    rw [yc_neg]; exact eq_neg_of_add_eq_zero_left h

theorem xc_add {A : K} {P Q : (W A).Point} (hP : P ≠ 0) (hQ : Q ≠ 0) (hx : xc P ≠ xc Q) :
    xc (P + Q) * (xc P - xc Q) ^ 2 =
      (yc P - yc Q) ^ 2 - (A + xc P + xc Q) * (xc P - xc Q) ^ 2 := by
  obtain ⟨h, hP⟩ := point_eq P hP
  obtain ⟨h', hQ⟩ := point_eq Q hQ
  have hne : xc P - xc Q ≠ 0 := sub_ne_zero.mpr hx
  have : xc (P + Q) = ((yc P - yc Q) / (xc P - xc Q)) ^ 2 - A - xc P - xc Q := by
    clear hne
    cases P with
    | zero => cases hP
    | some x y h1 =>
    cases Q with
    | zero => cases hQ
    | some x' y' h1' =>
    replace hx : x ≠ x' := hx
    rw [WeierstrassCurve.Affine.Point.add_of_X_ne hx]
    change (W A).addX x x' ((W A).slope x x' y y') = _
    rw [WeierstrassCurve.Affine.addX, WeierstrassCurve.Affine.slope_of_X_ne hx]
    simp [W, xc, yc]
  rw [this]
  field_simp
  ring

theorem yc_add {A : K} {P Q : (W A).Point} (hP : P ≠ 0) (hQ : Q ≠ 0) (hx : xc P ≠ xc Q) :
    yc (P + Q) * (xc P - xc Q) =
      -((yc P - yc Q) * (xc (P + Q) - xc P) + yc P * (xc P - xc Q)) := by
  obtain ⟨h, hP⟩ := point_eq P hP
  obtain ⟨h', hQ⟩ := point_eq Q hQ
  have hne : xc P - xc Q ≠ 0 := sub_ne_zero.mpr hx
  have : yc (P + Q) = -(((yc P - yc Q) / (xc P - xc Q)) * (xc (P + Q) - xc P) + yc P) := by
    clear hne
    cases P with
    | zero => cases hP
    | some x y h1 =>
    cases Q with
    | zero => cases hQ
    | some x' y' h1' =>
    replace hx : x ≠ x' := hx
    rw [WeierstrassCurve.Affine.Point.add_of_X_ne hx]
    change (W A).addY x x' y ((W A).slope x x' y y') =
      -(_ * ((W A).addX x x' ((W A).slope x x' y y') - _) + _)
    rw [WeierstrassCurve.Affine.addY, WeierstrassCurve.Affine.negAddY, WeierstrassCurve.Affine.negY,
      WeierstrassCurve.Affine.slope_of_X_ne hx]
    simp [W, xc, yc]
  rw [this]
  field_simp

theorem two_torsion {A : K} (h2 : (2 : K) ≠ 0) {P : (W A).Point} (hP : P ≠ 0) :
    P + P = 0 ↔ yc P = 0 := by
  rw [add_eq_zero_iff_eq_neg]
  constructor
  · intro h
    have := congrArg yc h
    rw [yc_neg] at this
    have : 2 * yc P = 0 := by linear_combination this
    exact (mul_eq_zero.mp this).resolve_left h2
  · intro h
    refine point_ext hP (neg_ne_zero.mpr hP) (xc_neg P).symm ?_
    rw [yc_neg, h, neg_zero]

theorem xc_dbl {A : K} (h2 : (2 : K) ≠ 0) {P : (W A).Point} (hP : P ≠ 0) (hy : yc P ≠ 0) :
    xc (P + P) * (4 * yc P ^ 2) = (xc P ^ 2 - 1) ^ 2 := by
  have hc := point_curve P hP
  obtain ⟨h, hP'⟩ := point_eq P hP
  have hny : yc P ≠ (W A).negY (xc P) (yc P) := by
    intro he
    simp only [W, WeierstrassCurve.Affine.negY] at he
    apply hy
    have : 2 * yc P = 0 := by linear_combination he
    exact (mul_eq_zero.mp this).resolve_left h2
  have : xc (P + P) = ((3 * xc P ^ 2 + 2 * A * xc P + 1) / (2 * yc P)) ^ 2 - A - xc P - xc P := by
    clear hc
    cases P with
    | zero => cases hP'
    | some x y h1 =>
    replace hny : y ≠ (W A).negY x y := hny
    rw [WeierstrassCurve.Affine.Point.add_self_of_Y_ne hny]
    change (W A).addX x x ((W A).slope x x y y) = _
    rw [WeierstrassCurve.Affine.addX, WeierstrassCurve.Affine.slope_of_Y_ne rfl hny]
    simp [W, WeierstrassCurve.Affine.negY, xc, yc]
    ring
  rw [this]
  field_simp
  linear_combination (-16 * A - 32 * xc P) * hc

/-- Mathlib's group of points of a nonsingular Montgomery curve, with its x-coordinates -/
theorem XRep.base {A : K} (h2 : (2 : K) ≠ 0) (hT : (W A).Nonsingular 0 0) :
    XRep A (⊥ : AddSubgroup (W A).Point) (.some 0 0 hT) xc := by
  have hT0 : (.some 0 0 hT : (W A).Point) ≠ 0 := WeierstrassCurve.Affine.Point.some_ne_zero hT
  have hden : ∀ P : (W A).Point, P ≠ 0 → dblDen A (xc P) = 4 * yc P ^ 2 := by
    intro P hP
    rw [point_curve P hP, dblDen]; ring
  have h4 : (4 : K) ≠ 0 := by
    intro h; apply h2
    have : (2 : K) * 2 = 0 := by linear_combination h
    simpa using this
  refine ⟨h2, ?_, by simpa using hT0, rfl, fun P _ => xc_neg P, ?_, ?_, ?_, ?_⟩
  · rw [AddSubgroup.mem_bot, two_torsion h2 hT0]; rfl
  · intro P n _ hn
    rw [AddSubgroup.mem_bot] at hn
    rw [hn, add_zero]
  · intro P Q hP hQ hs hd
    rw [AddSubgroup.mem_bot] at hP hQ hs hd
    have hx : xc P ≠ xc Q := by
      intro h
      rcases same_x hP hQ h with h | h
      · exact hd (by rw [h, sub_self])
      · exact hs (by rw [h, neg_add_cancel])
    have hne : xc P - xc Q ≠ 0 := sub_ne_zero.mpr hx
    have hQ' : -Q ≠ 0 := neg_ne_zero.mpr hQ
    have e1 := xc_add hP hQ hx
    have e2 := xc_add hP hQ' (by rw [xc_neg]; exact hx)
    rw [xc_neg, yc_neg, ← sub_eq_add_neg] at e2
    have c1 := point_curve P hP
    have c2 := point_curve Q hQ
    refine ⟨hx, ?_, ?_⟩
    · apply mul_right_cancel₀ (pow_ne_zero 2 hne)
      generalize xc (P + Q) = s at *
      generalize xc (P - Q) = d at *
      generalize xc P = p at *
      generalize xc Q = q at *
      generalize yc P = u at *
      generalize yc Q = v at *
      have : s * d * (p - q) ^ 2 * (p - q) ^ 2 = (s * (p - q) ^ 2) * (d * (p - q) ^ 2) := by ring
      rw [this, e1, e2]
      have hu : u ^ 2 = p ^ 3 + A * p ^ 2 + p := c1
      have hv : v ^ 2 = q ^ 3 + A * q ^ 2 + q := c2
      have e : ((u - v) ^ 2 - (A + p + q) * (p - q) ^ 2) * ((u - -v) ^ 2 - (A + p + q) * (p - q) ^ 2) =
        (u ^ 2 - v ^ 2) ^ 2 - (A + p + q) * (p - q) ^ 2 * (2 * (u ^ 2 + v ^ 2)) +
          ((A + p + q) * (p - q) ^ 2) ^ 2 := by ring
      rw [e, hu, hv]
      ring
    · linear_combination e1 + e2 + 2 * c1 + 2 * c2
  · intro P hP hPP
    rw [AddSubgroup.mem_bot] at hP hPP
    have hy : yc P ≠ 0 := fun h => hPP ((two_torsion h2 hP).mpr h)
    rw [hden P hP]
    exact ⟨mul_ne_zero h4 (pow_ne_zero 2 hy), xc_dbl h2 hP hy⟩
  · intro P hP hPP
    rw [AddSubgroup.mem_bot] at hP hPP
    rw [hden P hP, (two_torsion h2 hP).mp hPP]
    ring

end Verif.XOnly
