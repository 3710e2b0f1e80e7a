import Verif.Lemmas.CsidhCurve
import Mathlib.FieldTheory.IsAlgClosed.AlgebraicClosure
/-
C66: the scalar multiplication of CSIDH, against the group of points of Mathlib.

The curve and the x-coordinate are over the prime field; the point itself may have its y-coordinate in any
extension field `K`.
-/
namespace Props.CsidhCurve
open Model Model.Limb Model.Csidh Lemmas.CsidhNat Verif.XOnly Spec Spec.Csidh Lemmas.CsidhLadder Lemmas.CsidhCurve Lemmas.CsidhField

local notation "𝕡" => Spec.Csidh.p

variable {K : Type} [Field K] [Algebra (ZMod 𝕡) K] [DecidableEq K] {P : Pt Fp} {co : Coef Fp} {k : Fp} {x z a c : ZMod 𝕡}

/-- C66. On every nonsingular curve y² = x³ + (a/c) x² + x, for every point S with x-coordinate (x : z) in the prime
field other than (0, 0) — the point at infinity included, y in any extension field — and for every scalar
0 < k < 2^512, `xMul` returns the x-coordinate of [k]S. -/
theorem c66_ladder (hx : IsElt P.x x) (hz : IsElt P.z z) (ha : IsElt co.a a) (hc : IsElt co.c c) (hc0 : c ≠ 0) (hs : a ^ 2 ≠ 4 * c ^ 2)
    (S : (W (algebraMap (ZMod 𝕡) K (a / c))).Point) (hS : IsX S (algebraMap (ZMod 𝕡) K x) (algebraMap (ZMod 𝕡) K z)) (hT : S = 0 ∨ xc S ≠ 0)
    (hk : k.length = 8) (h0 : 0 < val k) :
    ∃ x' z', IsElt (xMul limbOps P co k).x x' ∧ IsElt (xMul limbOps P co k).z z' ∧
      IsX (val k • S) (algebraMap (ZMod 𝕡) K x') (algebraMap (ZMod 𝕡) K z') := by
  obtain ⟨x', z', h1, h2, h3⟩ := mul_up (K := K) hx hz ha hc k
  obtain ⟨hA, hA4⟩ := coef_ok (K := K) hc0 hs
  have := xMul_isX hA4 (q := ⟨_, _⟩) hS hT hA k hk h0
  rw [h3] at this
  exact ⟨x', z', h1, h2, this⟩

/-- C66. For the remaining point (0, 0) and k ≥ 2 the result is the point at infinity; -/
theorem c66_origin (hx : IsElt P.x 0) (hz : IsElt P.z z) (ha : IsElt co.a a) (hc : IsElt co.c c) (hk : k.length = 8) (h0 : 2 ≤ val k) :
    IsElt (xMul limbOps P co k).z 0 := by
  obtain ⟨x', z', h1, h2, h3⟩ := mul_up (K := ZMod 𝕡) hx hz ha hc k
  have := xMul_T (p := ⟨algebraMap (ZMod 𝕡) (ZMod 𝕡) 0, algebraMap (ZMod 𝕡) (ZMod 𝕡) z⟩) (map_zero _)
    ⟨algebraMap (ZMod 𝕡) (ZMod 𝕡) a, algebraMap (ZMod 𝕡) (ZMod 𝕡) c⟩ k hk h0
  rw [h3] at this
  have h := inj (K := ZMod 𝕡) (this.trans (map_zero _).symm)
  rw [← h]; exact h2

/-- … which is wrong when k is odd, as (0, 0) has order two. -/
theorem c66_origin_odd (hx : IsElt P.x 0) (hz : IsElt P.z z) (ha : IsElt co.a a) (hc : IsElt co.c c)
    (S : (W (algebraMap (ZMod 𝕡) K (a / c))).Point) (hS : S ≠ 0) (hS0 : xc S = 0) (hk : k.length = 8) (h0 : 2 ≤ val k) (hodd : val k % 2 = 1) :
    val k • S = S ∧ ¬ ∃ x' z', IsElt (xMul limbOps P co k).x x' ∧ IsElt (xMul limbOps P co k).z z' ∧
      IsX (val k • S) (algebraMap (ZMod 𝕡) K x') (algebraMap (ZMod 𝕡) K z') := by
  have h2 : S + S = 0 := by
    rw [two_torsion Lemmas.CsidhCurve.two_ne hS]
    have := point_curve S hS
    rw [hS0] at this
    exact pow_eq_zero_iff (two_ne_zero) |>.mp (this.trans (by ring))
  have hkS : val k • S = S := by
    have : val k = 2 * (val k / 2) + 1 := by omega
    rw [this, add_smul, mul_smul, two_smul, one_smul, ← add_smul, ← two_mul, mul_comm, mul_smul, two_smul, h2, smul_zero, zero_add]
  refine ⟨hkS, ?_⟩
  rintro ⟨x', z', _, h4, h5⟩
  rw [hkS] at h5
  have hz' : z' = 0 := elt_inj h4 (c66_origin hx hz ha hc hk h0)
  exact (h5.2 hS).1 (by rw [hz', map_zero])

/-- C66. For the scalar 0 the result is [2]S, so the bound on the scalar cannot be dropped. -/
theorem c66_zero (hx : IsElt P.x x) (hz : IsElt P.z z) (ha : IsElt co.a a) (hc : IsElt co.c c) (hc0 : c ≠ 0) (hs : a ^ 2 ≠ 4 * c ^ 2)
    (S : (W (algebraMap (ZMod 𝕡) K (a / c))).Point) (hS : IsX S (algebraMap (ZMod 𝕡) K x) (algebraMap (ZMod 𝕡) K z)) (h0 : val k = 0) :
    ∃ x' z', IsElt (xMul limbOps P co k).x x' ∧ IsElt (xMul limbOps P co k).z z' ∧
      IsX (2 • S) (algebraMap (ZMod 𝕡) K x') (algebraMap (ZMod 𝕡) K z') := by
  obtain ⟨x', z', h1, h2, h3⟩ := mul_up (K := K) hx hz ha hc k
  obtain ⟨hA, hA4⟩ := coef_ok (K := K) hc0 hs
  have := xDbl_isX hA4 (q := ⟨_, _⟩) hS hA
  rw [xMul_k0 h0] at h3
  rw [h3] at this
  exact ⟨x', z', h1, h2, by rw [two_smul]; exact this⟩

/-- Every x-coordinate belongs to a point over the algebraic closure, so the hypotheses can be met for all of them. -/
theorem c66_points (x z : ZMod 𝕡) (hz0 : z ≠ 0) (hc0 : c ≠ 0) (hs : a ^ 2 ≠ 4 * c ^ 2) :
    ∃ S : (W (algebraMap (ZMod 𝕡) (AlgebraicClosure (ZMod 𝕡)) (a / c))).Point,
      S ≠ 0 ∧ xc S = algebraMap (ZMod 𝕡) _ (x / z) ∧ IsX S (algebraMap (ZMod 𝕡) _ x) (algebraMap (ZMod 𝕡) _ z) := by
  obtain ⟨-, hA4⟩ := coef_ok (K := AlgebraicClosure (ZMod 𝕡)) hc0 hs
  obtain ⟨y, hy⟩ := IsAlgClosed.exists_pow_nat_eq ((algebraMap (ZMod 𝕡) (AlgebraicClosure (ZMod 𝕡)) (x / z)) ^ 3 +
    (algebraMap (ZMod 𝕡) _ (a / c)) * (algebraMap (ZMod 𝕡) _ (x / z)) ^ 2 + algebraMap (ZMod 𝕡) _ (x / z)) (n := 2) (by decide)
  have hn := W_nonsingular Lemmas.CsidhCurve.two_ne hA4 hy
  have hne : (.some _ _ hn : (W (algebraMap (ZMod 𝕡) (AlgebraicClosure (ZMod 𝕡)) (a / c))).Point) ≠ 0 := WeierstrassCurve.Affine.Point.some_ne_zero hn
  refine ⟨.some _ _ hn, hne, rfl, fun h => absurd h hne, fun _ => ⟨?_, ?_⟩⟩
  · intro h
    exact hz0 (inj (K := AlgebraicClosure (ZMod 𝕡)) (h.trans (map_zero _).symm))
  · show _ = algebraMap (ZMod 𝕡) _ (x / z) * _
    rw [← map_mul, div_mul_cancel₀ _ hz0]

open Classical in
/-- a concrete case: the curve y² = x³ + x, a point with x = 1, and k = 3 -/
example : ∃ S : (W (algebraMap (ZMod 𝕡) (AlgebraicClosure (ZMod 𝕡)) (0 / 1))).Point, S ≠ 0 ∧ xc S ≠ 0 ∧
    ∃ x' z', IsElt (xMul limbOps ⟨one, one⟩ ⟨List.replicate 8 0, one⟩ (fpw 3)).x x' ∧
      IsElt (xMul limbOps ⟨one, one⟩ ⟨List.replicate 8 0, one⟩ (fpw 3)).z z' ∧
      IsX (3 • S) (algebraMap (ZMod 𝕡) (AlgebraicClosure (ZMod 𝕡)) x') (algebraMap (ZMod 𝕡) _ z') := by
  have hs : (0 : ZMod 𝕡) ^ 2 ≠ 4 * 1 ^ 2 := by
    intro h
    apply Lemmas.CsidhField.two_ne
    have : (2 : ZMod 𝕡) * 2 = 0 := by linear_combination -h
    simpa using this
  obtain ⟨S, h1, h2, h3⟩ := c66_points (1 : ZMod 𝕡) 1 one_ne_zero one_ne_zero hs
  have h4 : xc S ≠ 0 := by rw [h2, div_one, map_one]; exact one_ne_zero
  refine ⟨S, h1, h4, ?_⟩
  have := c66_ladder (P := ⟨one, one⟩) (co := ⟨List.replicate 8 0, one⟩) (k := fpw 3) one_elt one_elt zero_elt one_elt one_ne_zero hs S h3
    (Or.inr h4) rfl (by decide)
  exact this

end Props.CsidhCurve
