import Verif.Lemmas.NPlusOne
import Verif.Spec.CsidhField
import Mathlib.Data.Nat.Prime.Basic
import Mathlib.NumberTheory.LegendreSymbol.Basic
/-! The CSIDH modulus is prime. -/
namespace Lemmas.CsidhPrime
open Spec.Csidh Lemmas.NPlusOne

theorem p_eq : Spec.Csidh.p = 5326738796327623094747867617954605554069371494832722337612446642054009560026576537626892113026381253624626941643949444792662881241621373288942880288065659 := by
  decide +kernel

theorem p_succ : Spec.Csidh.p + 1 = 4 * ell.prod := by decide +kernel

theorem ell_prime : ∀ l ∈ ell, l.Prime := by decide +kernel

theorem ell_iff (n : Nat) : n ∈ ell ↔ (n.Prime ∧ n ≠ 2 ∧ n ≤ 373) ∨ n = 587 := by
  constructor
  · intro h
    have hp := ell_prime n h
    have : ∀ n ∈ ell, n ≠ 2 ∧ (n ≤ 373 ∨ n = 587) := by decide +kernel
    obtain ⟨h1, h2 | h2⟩ := this n h
    · exact Or.inl ⟨hp, h1, h2⟩
    · exact Or.inr h2
  · rintro (⟨h1, h2, h3⟩ | h)
    · have : ∀ n < 374, n.Prime → n ≠ 2 → n ∈ ell := by decide +kernel
      exact this n (by omega) h1 h2
    · subst h; decide +kernel

theorem prime_div (r : Nat) (hr : r.Prime) (hd : r ∣ Spec.Csidh.p + 1) : r ∈ 2 :: ell := by
  rw [p_succ] at hd
  rcases hr.dvd_mul.mp hd with h | h
  · have : r ∣ 2 ^ 2 := h
    have := (Nat.prime_dvd_prime_iff_eq hr Nat.prime_two).mp (hr.dvd_of_dvd_pow this)
    subst this
    exact List.mem_cons_self
  · obtain ⟨l, hl, hdl⟩ := (Prime.dvd_prod_iff hr.prime).mp h
    have := (Nat.prime_dvd_prime_iff_eq hr (ell_prime l hl)).mp hdl
    subst this
    exact List.mem_cons_of_mem _ hl

/-- An element of norm 1 and order p + 1. -/
def wit : Nat × Nat :=
  (5290002666697777418232365082658366895075789622454565631835809079005361218233289802884637684660682072565146755839508414138920378612368812093846722492975552,
   4702224592620246593984324517918548351178479664404058339409608070226987749540702047008566830809495175613463782968451923679040336544327832972308197771533823)

theorem prime : Spec.Csidh.p.Prime := by
  apply prime_of_order Spec.Csidh.p (by decide +kernel) wit 512
  · decide +kernel
  · decide +kernel
  · intro r hr hd
    have : ∀ r ∈ 2 :: ell, Nat.gcd (Nat.gcd ((gpow Spec.Csidh.p wit 512 ((Spec.Csidh.p + 1) / r)).1 + Spec.Csidh.p - 1) (gpow Spec.Csidh.p wit 512 ((Spec.Csidh.p + 1) / r)).2) Spec.Csidh.p = 1 := by
      decide +kernel
    exact this r (prime_div r hr hd)

instance : Fact Spec.Csidh.p.Prime := ⟨prime⟩

theorem p_mod4 : Spec.Csidh.p % 4 = 3 := by decide +kernel

theorem neg_one_nonsquare : ¬ IsSquare (-1 : ZMod Spec.Csidh.p) := by
  rw [ZMod.exists_sq_eq_neg_one_iff]
  simp [p_mod4]

end Lemmas.CsidhPrime
