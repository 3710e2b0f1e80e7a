import Mathlib.Algebra.QuadraticAlgebra.Basic
import Mathlib.Data.ZMod.Basic
import Mathlib.GroupTheory.OrderOfElement
import Mathlib.Algebra.Field.ZMod
import Mathlib.Tactic.Ring
import Mathlib.Tactic.Linarith
/-!
A primality criterion: if an element of (Z/N)[i] has order exactly N + 1 modulo every prime divisor of N, then N is
prime.  (If q is the least prime divisor and N is composite, then q² ≤ N, but the order is at most q² − 1.)
-/
namespace Lemmas.NPlusOne

/-- Product in (Z/N)[i]. -/
def gmul (N : Nat) (x y : Nat × Nat) : Nat × Nat := ((x.1 * y.1 + (N - x.2 * y.2 % N)) % N, (x.1 * y.2 + x.2 * y.1) % N)

/-- x^e for e < 2^fuel -/
def gpow (N : Nat) (x : Nat × Nat) : Nat → Nat → Nat × Nat
  | 0, _ => (1, 0)
  | fuel + 1, e =>
    let h := gpow N x fuel (e / 2)
    let s := gmul N h h
    if e % 2 = 1 then gmul N s x else s

variable (q : Nat) in
/-- The ring F_q[i]. -/
abbrev K : Type := QuadraticAlgebra (ZMod q) (-1) 0

/-- The residue modulo q of a pair. -/
def den (q : Nat) (x : Nat × Nat) : K q := ⟨(x.1 : ZMod q), (x.2 : ZMod q)⟩

theorem cast_mod (q N : Nat) (h : q ∣ N) (a : Nat) : ((a % N : Nat) : ZMod q) = (a : ZMod q) := by
  rw [ZMod.natCast_eq_natCast_iff]
  exact (Nat.mod_modEq a N).of_dvd h

theorem den_gmul (q N : Nat) (h : q ∣ N) (hN : 0 < N) (x y : Nat × Nat) : den q (gmul N x y) = den q x * den q y := by
  have h0 : ((N : Nat) : ZMod q) = 0 := (ZMod.natCast_eq_zero_iff _ _).mpr h
  have hle : x.2 * y.2 % N ≤ N := (Nat.mod_lt _ hN).le
  ext
  · simp only [den, gmul, QuadraticAlgebra.re_mul, cast_mod q N h]
    push_cast [Nat.cast_sub hle]
    rw [cast_mod q N h, h0]
    push_cast
    ring
  · simp only [den, gmul, QuadraticAlgebra.im_mul, cast_mod q N h]
    push_cast
    ring

theorem den_gpow (q N : Nat) (h : q ∣ N) (hN : 0 < N) (x : Nat × Nat) (fuel : Nat) : ∀ e, e < 2 ^ fuel → den q (gpow N x fuel e) = den q x ^ e := by
  induction fuel with
  | zero =>
    intro e he
    have : e = 0 := by simpa using he
    subst this
    simp only [gpow, pow_zero]
    ext <;> simp [den] <;> rfl
  | succ k ih =>
    intro e he
    have hi := ih (e / 2) (by rw [Nat.pow_succ] at he; omega)
    simp only [gpow]
    split
    · rename_i h1
      rw [den_gmul q N h hN, den_gmul q N h hN, hi, ← pow_add, ← pow_succ]
      congr 1; omega
    · rw [den_gmul q N h hN, hi, ← pow_add]
      congr 1; omega

instance (q : Nat) [NeZero q] : Fintype (K q) := Fintype.ofEquiv _ (QuadraticAlgebra.equivProd (-1 : ZMod q) 0).symm

theorem card_K (q : Nat) [NeZero q] : Fintype.card (K q) = q * q := by
  rw [Fintype.card_congr (QuadraticAlgebra.equivProd (-1 : ZMod q) 0), Fintype.card_prod, ZMod.card]

/-- `N` is prime when `x^(N+1) = 1` in (Z/N)[i] and for every prime divisor `r` of `N + 1` the element
`x^((N+1)/r) − 1` is prime to `N`. -/
theorem prime_of_order (N : Nat) (hN : 1 < N) (x : Nat × Nat) (fuel : Nat) (hf : N + 1 < 2 ^ fuel)
    (h1 : gpow N x fuel (N + 1) = (1, 0))
    (h2 : ∀ r, r.Prime → r ∣ N + 1 → Nat.gcd (Nat.gcd ((gpow N x fuel ((N + 1) / r)).1 + N - 1) (gpow N x fuel ((N + 1) / r)).2) N = 1) :
    N.Prime := by
  by_contra hc
  have hq : (Nat.minFac N).Prime := Nat.minFac_prime (by omega)
  have hqN : Nat.minFac N ∣ N := Nat.minFac_dvd N
  have hsq : (Nat.minFac N) ^ 2 ≤ N := Nat.minFac_sq_le_self (by omega) hc
  generalize hqd : Nat.minFac N = q at *
  have : Fact q.Prime := ⟨hq⟩
  have hx : den q x ^ (N + 1) = 1 := by
    rw [← den_gpow q N hqN (by omega) x fuel _ hf, h1]
    ext <;> simp [den] <;> rfl
  have hord : orderOf (den q x) = N + 1 := by
    apply orderOf_eq_of_pow_and_pow_div_prime (by omega) hx
    intro r hr hrd he
    have hlt : (N + 1) / r < 2 ^ fuel := lt_of_le_of_lt (Nat.div_le_self _ _) hf
    rw [← den_gpow q N hqN (by omega) x fuel _ hlt] at he
    have hg := h2 r hr hrd
    generalize gpow N x fuel ((N + 1) / r) = y at *
    have e1 : (y.1 : ZMod q) = 1 := congrArg QuadraticAlgebra.re he
    have e2 : (y.2 : ZMod q) = 0 := congrArg QuadraticAlgebra.im he
    have d2 : q ∣ y.2 := (ZMod.natCast_eq_zero_iff _ _).mp e2
    have d1 : q ∣ y.1 + N - 1 := by
      rw [← ZMod.natCast_eq_zero_iff, Nat.add_sub_assoc (by omega)]
      push_cast [Nat.cast_sub (show 1 ≤ N by omega)]
      rw [e1, (ZMod.natCast_eq_zero_iff N q).mpr hqN]
      ring
    have : q ∣ 1 := by
      rw [← hg]
      exact Nat.dvd_gcd (Nat.dvd_gcd d1 d2) hqN
    exact hq.one_lt.ne' (Nat.dvd_one.mp this)
  have hle : orderOf (den q x) ≤ Fintype.card (K q) := orderOf_le_card_univ
  rw [card_K, hord] at hle
  nlinarith

end Lemmas.NPlusOne
