import Mathlib.AlgebraicGeometry.EllipticCurve.Affine.Point

/-!
Specification: Montgomery curves `y² = x³ + A x² + x` as Weierstrass curves of Mathlib, whose group of points
is the reference for the x-only formulas; the doubling and differential addition laws of x-coordinates; and what it
means for a map to be "the x-coordinate on the quotient by a subgroup" (`XRep`).
-/

namespace Verif.XOnly

variable {K : Type*} [Field K]

/-- four times the right hand side of the curve equation: zero exactly at points of order two -/
def dblDen (A x : K) : K := 4 * (x * (x ^ 2 + A * x + 1))

/-- the differential addition law: `s` and `d` are the x-coordinates of the sum and the
difference of points with x-coordinates `p ≠ q` -/
structure DA (A p q s d : K) : Prop where
  ne : p ≠ q
  prod : s * d * (p - q) ^ 2 = (p * q - 1) ^ 2
  sum : (s + d) * (p - q) ^ 2 = 2 * ((p * q + 1) * (p + q) + 2 * A * (p * q))

variable {Γ : Type*} [AddCommGroup Γ]

/-- `g` gives x-coordinates on the curve with coefficient `A` to the elements of `Γ` outside `N`, as if the group of
that curve were `Γ / N`: `g` is constant on the classes of `N`, does not see the sign, sends `T` to 0, and follows the
differential addition and doubling laws of the curve; the doubling formula degenerates exactly at the elements whose
double is neutral. -/
structure XRep (A : K) (N : AddSubgroup Γ) (T : Γ) (g : Γ → K) : Prop where
  two : (2 : K) ≠ 0
  T2 : T + T ∈ N
  TN : T ∉ N
  zero : g T = 0
  neg : ∀ P, P ∉ N → g (-P) = g P
  shift : ∀ P n, P ∉ N → n ∈ N → g (P + n) = g P
  add : ∀ P Q, P ∉ N → Q ∉ N → P + Q ∉ N → P - Q ∉ N → DA A (g P) (g Q) (g (P + Q)) (g (P - Q))
  dbl : ∀ P, P ∉ N → P + P ∉ N →
    dblDen A (g P) ≠ 0 ∧ g (P + P) * dblDen A (g P) = (g P ^ 2 - 1) ^ 2
  dbl0 : ∀ P, P ∉ N → P + P ∈ N → dblDen A (g P) = 0

/-- the curve `y² = x³ + A x² + x` -/
def W (A : K) : WeierstrassCurve.Affine K := { a₁ := 0, a₂ := A, a₃ := 0, a₄ := 1, a₆ := 0 }

/-- x-coordinate of a point; zero stands for the point at infinity -/
def xc {A : K} : (W A).Point → K
  | .zero => 0
  | .some x _ _ => x

/-- y-coordinate of a point; zero stands for the point at infinity -/
def yc {A : K} : (W A).Point → K
  | .zero => 0
  | .some _ y _ => y

end Verif.XOnly
