import Verif.Lemmas.SidhGood
import Verif.Lemmas.SidhAlias
/-!
C38–C42: word arithmetic of the SIDH fields.  `Spec.val` is the number denoted by a word array, `f.p` the prime
2^e2·3^e3 − 1, `f.words` the number of words and `f.R = 2^(64·words)` the Montgomery radix.
-/
namespace Props.SidhArith
open Model Model.Limb Model.Sidh Model.Sidh.Alias Spec Spec.Sidh Lemmas.SidhArith Lemmas.SidhGood

/-- C38. Addition and subtraction of values below 2p stay below 2p and are right modulo p. -/
theorem c38_add_sub (f : Fld) (x y : List W64) (lx : x.length = f.words) (ly : y.length = f.words)
    (hx : val x < 2 * f.p) (hy : val y < 2 * f.p) :
    (val (addP (primeOf f) x y) < 2 * f.p ∧ val (addP (primeOf f) x y) ≡ val x + val y [MOD f.p]) ∧
    (val (subP (primeOf f) x y) < 2 * f.p ∧ val (subP (primeOf f) x y) + val y ≡ val x [MOD f.p]) := by
  have g := good f
  have hp := p_gt f
  obtain ⟨a, _⟩ := addP_spec g x y (by rw [lx, n_eq]) (by rw [ly, n_eq]) (by rw [p_eq]; exact hx) (by rw [p_eq]; exact hy)
  obtain ⟨b, _⟩ := subP_spec g x y (by rw [lx, n_eq]) (by rw [ly, n_eq]) (by rw [p_eq]; exact hx) (by rw [p_eq]; exact hy)
  rw [p_eq] at a b
  rw [a, b]
  refine ⟨⟨Nat.mod_lt _ (by omega), ?_⟩, ⟨Nat.mod_lt _ (by omega), ?_⟩⟩
  · exact (Nat.mod_modEq _ _).of_dvd (Dvd.intro_left 2 rfl)
  · have h : (val x + 2 * f.p - val y) % (2 * f.p) ≡ val x + 2 * f.p - val y [MOD f.p] := (Nat.mod_modEq _ _).of_dvd (Dvd.intro_left 2 rfl)
    refine (h.add_right (val y)).trans ?_
    rw [Nat.sub_add_cancel (by omega)]
    exact Nat.modEq_iff_dvd.mpr ⟨-2, by push_cast; ring⟩

/-- C38. The destination may be one of the arguments (or both): the buffers `z`, `x`, `y` may coincide. -/
theorem c38_alias (f : Fld) (z x y : Nat) (m : Mem) (hz : (m z).length = f.words) (hx : (m x).length = f.words)
    (hy : (m y).length = f.words) :
    addPM (primeOf f) z x y m z = addP (primeOf f) (m x) (m y) ∧ subPM (primeOf f) z x y m z = subP (primeOf f) (m x) (m y) ∧
    ∀ b, b ≠ z → addPM (primeOf f) z x y m b = m b ∧ subPM (primeOf f) z x y m b = m b := by
  have h2 := (good f).lpx2
  have hn := n_eq f
  obtain ⟨a, a'⟩ := Lemmas.SidhAlias.addPM_spec (primeOf f) h2 z x y m (by omega) (by omega) (by omega)
  obtain ⟨b, b'⟩ := Lemmas.SidhAlias.subPM_spec (primeOf f) h2 z x y m (by omega) (by omega) (by omega)
  exact ⟨a, b, fun c hc => ⟨a' c hc, b' c hc⟩⟩

example : val (addP prime434 [5, 0, 0, 0, 0, 0, 0] [7, 0, 0, 0, 0, 0, 0]) = 12 := by decide
/-- The hypotheses are met by p − 1 and p + 1, whose sum wraps around 2p. -/
example : val (addP prime434 prime434.p prime434.p1) = 1 := by decide +kernel
example : val (subP prime434 [5, 0, 0, 0, 0, 0, 0] [7, 0, 0, 0, 0, 0, 0]) = 2 * Fld.p434.p - 2 := by decide +kernel
/-- x := x + x in place. -/
example : addPM prime434 0 0 0 (fun _ => [5, 0, 0, 0, 0, 0, 0]) 0 = [10, 0, 0, 0, 0, 0, 0] := by decide

/-- C39. Strong reduction of a value below 2p gives the representative below p. -/
theorem c39_mod (f : Fld) (x : List W64) (lx : x.length = f.words) (hx : val x < 2 * f.p) :
    val (modP (primeOf f) x) < f.p ∧ val (modP (primeOf f) x) ≡ val x [MOD f.p] := by
  have hp := p_gt f
  obtain ⟨a, _⟩ := modP_spec (good f) x (by rw [lx, n_eq]) (by rw [p_eq]; exact hx)
  rw [p_eq] at a
  rw [a]
  exact ⟨Nat.mod_lt _ (by omega), Nat.mod_modEq _ _⟩

/-- C39. Reduced arrays are equal exactly when the numbers are congruent. -/
theorem c39_canonical (f : Fld) (x y : List W64) (lx : x.length = f.words) (ly : y.length = f.words)
    (hx : val x < 2 * f.p) (hy : val y < 2 * f.p) :
    modP (primeOf f) x = modP (primeOf f) y ↔ val x ≡ val y [MOD f.p] := by
  obtain ⟨a, a'⟩ := modP_spec (good f) x (by rw [lx, n_eq]) (by rw [p_eq]; exact hx)
  obtain ⟨b, b'⟩ := modP_spec (good f) y (by rw [ly, n_eq]) (by rw [p_eq]; exact hy)
  rw [p_eq] at a b
  constructor
  · intro h
    rw [h] at a
    exact a.symm.trans b
  · intro h
    exact Lemmas.Limb.val_inj (by rw [a', b']) (by rw [a, b]; exact h)

example : modP prime434 prime434.p1 = [1, 0, 0, 0, 0, 0, 0] := by decide +kernel
example : modP prime503 prime503.p = List.replicate 8 0 := by decide +kernel

/-- C40. The product of two arrays is exact. -/
theorem c40_mul (f : Fld) (x y : List W64) (lx : x.length = f.words) (ly : y.length = f.words) :
    val (mulW (primeOf f) x y) = val x * val y ∧ (mulW (primeOf f) x y).length = 2 * f.words := by
  rw [← n_eq] at *
  exact mulW_spec (good f) x y lx ly

example : val (mulW prime434 prime434.p prime434.p1) = Fld.p434.p * (Fld.p434.p + 1) := by decide +kernel

/-- C41. Reduction of a value below p·R: below 2p, and R times the result is congruent to the value modulo p. -/
theorem c41_rdc (f : Fld) (x : List W64) (lx : x.length = 2 * f.words) (hx : val x < f.p * f.R) :
    val (rdcP (primeOf f) x) < 2 * f.p ∧ f.R * val (rdcP (primeOf f) x) ≡ val x [MOD f.p] ∧ (rdcP (primeOf f) x).length = f.words := by
  obtain ⟨q, _, h2, h3, h4⟩ := rdcP_spec (good f) x (by rw [lx, n_eq]) (by rw [p_eq, R_eq]; exact hx)
  rw [p_eq, R_eq] at h2
  rw [p_eq] at h3
  refine ⟨h3, ?_, by rw [h4, n_eq]⟩
  rw [h2]
  exact Nat.modEq_iff_dvd.mpr ⟨-q, by push_cast; ring⟩

/-- R reduces to 1. -/
example : rdcP prime434 (List.replicate 7 0 ++ [1] ++ List.replicate 6 0) = [1, 0, 0, 0, 0, 0, 0] := by decide +kernel
/-- A value with a nonzero low half: R·r = x + q·p. -/
example : 2 ^ 448 * val (rdcP prime434 ([1] ++ List.replicate 13 0)) % Fld.p434.p = 1 := by decide +kernel

/-- C42. The conditional swap exchanges its arguments for choice 1 and leaves them for choice 0. -/
theorem c42_cswap (x y : List W64) (hl : x.length = y.length) : cswapP x y 0 = (x, y) ∧ cswapP x y 1 = (y, x) := cswapP_spec x y hl

/-- C42, for elements of the quadratic field. -/
theorem c42_cswap2 (x y : Fp2) (ha : x.A.length = y.A.length) (hb : x.B.length = y.B.length) :
    cswap x y 0 = (x, y) ∧ cswap x y 1 = (y, x) := by
  obtain ⟨a0, a1⟩ := cswapP_spec x.A y.A ha
  obtain ⟨b0, b1⟩ := cswapP_spec x.B y.B hb
  simp only [cswap, a0, a1, b0, b1, and_self]

example : cswapP [1, 2] [3, 4] 1 = ([3, 4], [1, 2]) := by decide

end Props.SidhArith
