import Verif.Model.SidhParams
import Verif.Spec.SidhField
import Verif.Lemmas.SidhArith
import Mathlib.Data.Nat.Prime.Basic
import Mathlib.Data.Nat.ModEq
/-! The constants of the three packages are what the proofs need. -/
namespace Lemmas.SidhGood
open Model Model.Limb Model.Sidh Spec Spec.Sidh Lemmas.Limb Lemmas.SidhArith

/-- The constants of the package for each field. -/
def primeOf : Fld → Prime
  | .p434 => prime434
  | .p503 => prime503
  | .p751 => prime751

theorem n_eq (f : Fld) : (primeOf f).n = f.words := by cases f <;> rfl

theorem p_eq (f : Fld) : val (primeOf f).p = f.p := by cases f <;> decide +kernel

theorem good (f : Fld) : Good (primeOf f) := by
  cases f <;> exact
    { npos := by decide, nle := by decide, lp := by decide, lpx2 := by decide, lp1 := by decide,
      vpx2 := by decide +kernel, vp1 := by decide +kernel, small := by decide +kernel, ppos := by decide +kernel,
      zpos := by decide, zle := by decide, zeros := by decide }

/-- 12 p ≤ R: room for the lazy reductions. -/
theorem room (f : Fld) : 12 * f.p ≤ f.R := by cases f <;> decide +kernel

theorem R_eq (f : Fld) : 2 ^ (64 * (primeOf f).n) = f.R := by rw [n_eq]; rfl

theorem r2_val (f : Fld) : val (primeOf f).r2 = f.R * f.R % f.p ∧ (primeOf f).r2.length = f.words := by
  cases f <;> decide +kernel

theorem p_odd (f : Fld) : f.p % 4 = 3 := by cases f <;> decide +kernel

theorem p_gt (f : Fld) : 2 ^ 64 < f.p := by cases f <;> decide +kernel

theorem coprime (f : Fld) : Nat.Coprime f.R f.p := by
  apply Nat.Coprime.pow_left
  rw [Nat.coprime_two_left, Nat.odd_iff]
  have := p_odd f
  omega

end Lemmas.SidhGood
