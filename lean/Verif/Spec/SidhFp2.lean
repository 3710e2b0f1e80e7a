import Verif.Spec.SidhField
import Mathlib.Algebra.QuadraticAlgebra.Basic
import Mathlib.Data.ZMod.Basic
/-
The quadratic extension F_p(i), i² = −1, of each prime field.
-/
namespace Spec.Sidh

/-- F_{p²} = F_p[i]/(i² + 1): pairs `re + im·i`.  (That −1 is not a square, so that this is a field, is proved.) -/
abbrev Fq (f : Fld) : Type := QuadraticAlgebra (ZMod f.p) (-1) 0

end Spec.Sidh
