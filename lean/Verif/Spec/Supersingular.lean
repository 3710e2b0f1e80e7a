import Verif.Spec.CsidhField
import Mathlib.Data.Set.Card
import Mathlib.Data.ZMod.Basic

/-!
Specification: the curves that CSIDH means to work with, in elementary terms.
-/

namespace Spec.Csidh

/-- the pairs of numbers modulo q that satisfy y² = x³ + a x² + x -/
def curvePoints {q : ℕ} (a : ZMod q) : Set (ZMod q × ZMod q) := {P | P.2 ^ 2 = P.1 ^ 3 + a * P.1 ^ 2 + P.1}

/-- the number of points of the curve over the field with q elements: these pairs and the point at infinity -/
noncomputable def order {q : ℕ} (a : ZMod q) : ℕ := (curvePoints a).ncard + 1

/-- y² = x³ + a x² + x is a curve without singular points, and supersingular: it has p + 1 points over the field with p elements -/
def Supersingular (a : ZMod p) : Prop := a ≠ 2 ∧ a ≠ -2 ∧ order a = p + 1

end Spec.Csidh
