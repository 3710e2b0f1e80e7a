import Verif.Lemmas.HasseBase
import Mathlib.NumberTheory.LegendreSymbol.Basic

/-!
The quadratic twist of a Montgomery curve over a prime field with p ≡ 3 mod 4, and what Hasse's theorem says about a curve with a point of
large order dividing p + 1 and an x-coordinate in the prime field.
-/

namespace Verif.Hasse

open Polynomial XOnly WeierstrassCurve

section twist

variable {k K : Type*} [Field k] [Field K] [DecidableEq k] [DecidableEq K] (σ : k →+* K) {i : K} (hi : i ^ 2 = -1) (two : (2 : K) ≠ 0) {A : k} {B : K} (hB : B = -σ A)
  (hB4 : B ^ 2 ≠ 4)

include hi two hB hB4

omit [DecidableEq k] [DecidableEq K] in
theorem tw_ns {x y : k} (h : (W A).Nonsingular x y) : (W B).Nonsingular (-σ x) (i * σ y) := by
  apply W_nonsingular two hB4
  have := congrArg σ ((W_equation _ _ _).mp h.1)
  simp only [map_add, map_mul, map_pow] at this
  rw [hB]
  linear_combination (i ^ 2) * this + ((σ x) ^ 3 + σ A * σ x ^ 2 + σ x) * hi

/-- (x, y) ↦ (−x, iy) -/
def tw : (W A).Point → (W B).Point
  | .zero => .zero
  | .some x y h => .some (-σ x) (i * σ y) (tw_ns σ hi two hB hB4 h)

theorem tw_add (P Q : (W A).Point) : tw σ hi two hB hB4 (P + Q) = tw σ hi two hB hB4 P + tw σ hi two hB hB4 Q := by
  have hi0 : i ≠ 0 := by
    rintro rfl
    exact one_ne_zero (α := K) (by linear_combination hi)
  rcases P with _ | ⟨x, y, h⟩
  · show tw σ hi two hB hB4 (0 + Q) = 0 + _
    rw [zero_add, zero_add]
  rcases Q with _ | ⟨x', y', h'⟩
  · show tw σ hi two hB hB4 (_ + 0) = _ + 0
    rw [add_zero, add_zero]
  by_cases hxy : x = x' ∧ y = (W A).negY x' y'
  · rw [Affine.Point.add_of_Y_eq hxy.1 hxy.2]
    show 0 = _
    symm
    refine Affine.Point.add_of_Y_eq (by rw [hxy.1]) ?_
    have := hxy.2
    simp only [W, Affine.negY] at this ⊢
    rw [this]
    simp
  · have hxy' : ¬ (-σ x = -σ x' ∧ i * σ y = (W B).negY (-σ x') (i * σ y')) := by
      rintro ⟨h1, h2⟩
      apply hxy
      refine ⟨σ.injective (neg_injective h1), ?_⟩
      simp only [W, Affine.negY] at h2 ⊢
      apply σ.injective
      apply mul_left_cancel₀ hi0
      simp only [map_neg, zero_mul, sub_zero] at h2 ⊢
      rw [h2]; ring
    have hs : (W B).slope (-σ x) (-σ x') (i * σ y) (i * σ y') = -(i * σ ((W A).slope x x' y y')) := by
      by_cases hx : x = x'
      · have hy : y ≠ (W A).negY x' y' := fun hc => hxy ⟨hx, hc⟩
        have hy' : i * σ y ≠ (W B).negY (-σ x') (i * σ y') := fun hc => hxy' ⟨by rw [hx], hc⟩
        rw [Affine.slope_of_Y_ne hx hy, Affine.slope_of_Y_ne (by rw [hx]) hy']
        have e0 : y - (W A).negY x y ≠ 0 := by
          intro hc
          apply hy
          rw [← Affine.Y_eq_of_Y_ne h.1 h'.1 hx hy, ← hx]
          exact sub_eq_zero.mp hc
        simp only [W, Affine.negY] at e0 ⊢
        have e1 : σ (y + y) ≠ 0 := by
          rw [_root_.map_ne_zero]
          intro hc
          apply e0
          linear_combination hc
        simp only [map_div₀, map_sub, map_add, map_mul, map_pow, map_neg, map_zero, map_one, map_ofNat] at e1 ⊢
        rw [hB]
        have e2 : σ y - (-σ y - 0 * σ x - 0) ≠ 0 := by
          intro hc
          apply e1
          linear_combination hc
        have e3 : i * σ y - (-(i * σ y) - 0 * -σ x - 0) ≠ 0 := by
          intro hc
          apply mul_ne_zero hi0 e1
          linear_combination hc
        rw [mul_div_assoc', ← neg_div, div_eq_div_iff e3 e2]
        linear_combination (2 * σ y * (3 * σ x ^ 2 + 2 * σ A * σ x + 1)) * hi
      · rw [Affine.slope_of_X_ne hx, Affine.slope_of_X_ne (fun hc => hx (σ.injective (neg_injective hc)))]
        have e1 : σ x - σ x' ≠ 0 := sub_ne_zero.mpr (fun hc => hx (σ.injective hc))
        rw [map_div₀, map_sub, map_sub]
        rw [mul_div_assoc', ← neg_div, div_eq_div_iff (by intro hc; apply e1; linear_combination -hc) e1]
        ring
    have hX : (W B).addX (-σ x) (-σ x') (-(i * σ ((W A).slope x x' y y'))) = -σ ((W A).addX x x' ((W A).slope x x' y y')) := by
      generalize (W A).slope x x' y y' = l
      simp only [Affine.addX, W, map_sub, map_add, map_mul, map_pow, map_zero]
      rw [hB]
      linear_combination (σ l) ^ 2 * hi
    rw [Affine.Point.add_some hxy]
    refine Eq.trans ?_ (Affine.Point.add_some hxy').symm
    show Affine.Point.some _ _ _ = _
    have e1 : -σ ((W A).addX x x' ((W A).slope x x' y y')) = (W B).addX (-σ x) (-σ x') ((W B).slope (-σ x) (-σ x') (i * σ y) (i * σ y')) := by
      rw [hs, hX]
    have e2 : i * σ ((W A).addY x x' y ((W A).slope x x' y y')) =
        (W B).addY (-σ x) (-σ x') (i * σ y) ((W B).slope (-σ x) (-σ x') (i * σ y) (i * σ y')) := by
      rw [hs]
      simp only [Affine.addY, Affine.negAddY, hX]
      simp only [Affine.negY, W, map_sub, map_add, map_mul, map_neg, map_zero]
      ring
    simp only [Affine.Point.some.injEq]
    exact ⟨e1, e2⟩

end twist

variable {p : ℕ} [Fact p.Prime] {A : ZMod p}

theorem neg_one_ns (hp : p % 4 = 3) : ¬ IsSquare (-1 : ZMod p) := by
  rw [ZMod.exists_sq_eq_neg_one_iff]
  omega

theorem two_ne (hp : p ≠ 2) : (2 : ZMod p) ≠ 0 := by
  intro h
  have hpp : p.Prime := Fact.out
  have h3 : ((2 : ℕ) : ZMod p) = 0 := by exact_mod_cast h
  have h2 := Nat.le_of_dvd (by decide) ((ZMod.natCast_eq_zero_iff 2 p).mp h3)
  have := hpp.two_le
  omega

/-- a curve and its twist have 2p + 2 points -/
theorem card_twist (hp : p % 4 = 3) (hA : A ^ 2 ≠ 4) : Nat.card (W A).Point + Nat.card (W (-A)).Point = 2 * p + 2 := by
  have hp2 : p ≠ 2 := by omega
  have hA' : (-A) ^ 2 ≠ 4 := by rwa [neg_sq]
  rw [card_points (two_ne hp2) hA, card_points (two_ne hp2) hA']
  have h : ∀ a, nY A a + nY (-A) (-a) = 2 := by
    intro a
    have e : (-a) ^ 3 + -A * (-a) ^ 2 + -a = -(a ^ 3 + A * a ^ 2 + a) := by ring
    have hodd : Odd (p / 2) := by rw [Nat.odd_iff]; omega
    have h1 := nY_cases hp2 A a
    have h2 := nY_cases hp2 (-A) (-a)
    rw [e, hodd.neg_pow, neg_eq_zero] at h2
    have h11 : (1 : ZMod p) ≠ -1 := fun hc => two_ne hp2 (by linear_combination hc)
    have hz : p / 2 ≠ 0 := by omega
    rcases h1 with ⟨h1, h1'⟩ | ⟨h1, h1', h1''⟩ | ⟨h1, h1'⟩ <;> rcases h2 with ⟨h2, h2'⟩ | ⟨h2, h2', h2''⟩ | ⟨h2, h2'⟩
    · omega
    · exact absurd (neg_eq_zero.mpr h1') h2'
    · rw [h1', zero_pow hz] at h2'
      simp at h2'
    · exact absurd h2' h1'
    · rw [h1''] at h2''
      exact absurd h2''.symm h11
    · omega
    · rw [h2', zero_pow hz] at h1'
      simp at h1'
    · omega
    · rw [h1'] at h2'
      exact absurd (by linear_combination h2') h11
  have hs : ∑ a, nY (-A) a = ∑ a, nY (-A) (-a) := (Equiv.sum_comp (Equiv.neg (ZMod p)) (fun a => nY (-A) a)).symm
  have : ∑ a, nY A a + ∑ a, nY (-A) a = 2 * p := by
    rw [hs, ← Finset.sum_add_distrib, Finset.sum_congr rfl fun a _ => h a]
    simp [ZMod.card, mul_comm]
  omega

end Verif.Hasse
