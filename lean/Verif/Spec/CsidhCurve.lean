import Verif.Spec.Mont
/-
Points of a Montgomery curve given by a projective x-coordinate.
-/
namespace Spec.Csidh
open Verif.XOnly

/-- (X : Z) is the x-coordinate of the point `Q`: Z = 0 for the point at infinity, and else X / Z is the x-coordinate. -/
def IsX {K : Type*} [Field K] {A : K} (Q : (W A).Point) (X Z : K) : Prop :=
  (Q = 0 → Z = 0) ∧ (Q ≠ 0 → Z ≠ 0 ∧ X = xc Q * Z)

end Spec.Csidh
