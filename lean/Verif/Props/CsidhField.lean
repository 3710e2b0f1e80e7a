import Verif.Lemmas.CsidhField
import Verif.Lemmas.CsidhAlias
import Verif.Props.SidhFp2
/-! C44, C64, C65: the CSIDH field and its multi-precision helpers. -/
namespace Props.CsidhField
open Model Model.Limb Model.Csidh Spec Spec.Csidh Lemmas.CsidhField Lemmas.CsidhArith Lemmas.CsidhPrime

local notation "𝕡" => Spec.Csidh.p

/-- The primes of the code are those of the specification: the odd primes up to 373, and 587. -/
theorem primes_eq : primes.map BitVec.toNat = ell := by decide +kernel

/-- C44. All four moduli are prime, −1 is not a square modulo any of them, and the limb constants hold these numbers;
p511 is 4·l1·…·l74 − 1 for the odd primes up to 373 and 587, which are the entries of `primes`. -/
theorem c44_prime :
    (∀ f : Spec.Sidh.Fld, f.p.Prime ∧ ¬ IsSquare (-1 : ZMod f.p) ∧ val (Lemmas.SidhGood.primeOf f).p = f.p) ∧
    (Nat.Prime 𝕡 ∧ ¬ IsSquare (-1 : ZMod 𝕡) ∧ val Model.Csidh.p = 𝕡 ∧ 𝕡 = 4 * (primes.map BitVec.toNat).prod - 1 ∧
      ∀ n, n ∈ primes.map BitVec.toNat ↔ (n.Prime ∧ n ≠ 2 ∧ n ≤ 373) ∨ n = 587) := by
  refine ⟨Props.SidhFp2.c44_sidh, prime, neg_one_nonsquare, p_val, ?_, ?_⟩
  · rw [primes_eq]; rfl
  · rw [primes_eq]; exact ell_iff

/-- C64. On canonical representatives, addition, subtraction, multiplication, exponentiation with a 512-bit and with a
64-bit exponent are those of F_p, and the results are canonical representatives. -/
theorem c64_field (x y : Fp) (a b : ZMod 𝕡) (hx : IsElt x a) (hy : IsElt y b) :
    IsElt (addRdc x y) (a + b) ∧ IsElt (subRdc x y) (a - b) ∧ IsElt (mulRdc x y) (a * b) ∧
    (∀ e : Fp, e.length = 8 → IsElt (modExpRdc512 x e) (a ^ val e)) ∧ (∀ e : W64, IsElt (modExpRdc64 x e) (a ^ e.toNat)) :=
  ⟨add_elt hx hy, sub_elt hx hy, mul_elt hx hy, exp512_elt hx, exp64_elt hx⟩

/-- C64. The exponent of `groupAction` inverts, and `isNonQuadRes` recognises the non-zero squares. -/
theorem c64_inverse (x : Fp) (a : ZMod 𝕡) (hx : IsElt x a) :
    IsElt (modExpRdc512 x pMin1) a⁻¹ ∧ (isNonQuadRes x = 0 ↔ a ≠ 0 ∧ IsSquare a) ∧ (isNonQuadRes x = 0 ∨ isNonQuadRes x = 1) := by
  refine ⟨inv_elt hx, ?_⟩
  rw [isNonQuadRes_elt hx]
  split <;> simp_all

/-- C64. Every field element has exactly one representative, so that word-wise comparison decides equality. -/
theorem c64_canonical (a : ZMod 𝕡) : ∃! x, IsElt x a := by
  obtain ⟨x, hx⟩ := elt_exists a
  exact ⟨x, hx, fun y hy => elt_unique hy hx⟩

/-- C64. Representatives of the constants. -/
theorem c64_constants : IsElt one 1 ∧ IsElt two 2 ∧ IsElt twoNeg (-2) ∧ IsElt four 4 := ⟨one_elt, two_elt, twoNeg_elt, four_elt⟩

open Model.Csidh.Alias in
/-- C64. The operations in memory: whatever the destination `z` is, one of the arguments or not, it receives the
result, and no other buffer changes. -/
theorem c64_alias (z x y : Nat) (m : Model.Sidh.Alias.Mem) (a b : ZMod 𝕡) (hz : (m z).length = 8) (hx : IsElt (m x) a) (hy : IsElt (m y) b) :
    (IsElt (addRdcM z x y m z) (a + b) ∧ ∀ o, o ≠ z → addRdcM z x y m o = m o) ∧
    (IsElt (subRdcM z x y m z) (a - b) ∧ ∀ o, o ≠ z → subRdcM z x y m o = m o) ∧
    (IsElt (mulRdcM z x y m z) (a * b) ∧ ∀ o, o ≠ z → mulRdcM z x y m o = m o) := by
  obtain ⟨a1, a2⟩ := Lemmas.CsidhAlias.addRdcM_spec z x y m hz hx.len hy.len
  obtain ⟨s1, s2⟩ := Lemmas.CsidhAlias.subRdcM_spec z x y m hz hx.len hy.len
  obtain ⟨m1, m2⟩ := Lemmas.CsidhAlias.mulRdcM_spec z x y m hz (mulGeneric_spec _ _ hx.len hy.len hy.lt).1
  refine ⟨⟨?_, a2⟩, ⟨?_, s2⟩, ⟨?_, m2⟩⟩
  · rw [a1]; exact add_elt hx hy
  · rw [s1]; exact sub_elt hx hy
  · rw [m1]; exact mul_elt hx hy

/-- C65. Multiplication by a word modulo 2^512, and exactly. -/
theorem c65_mul (x : Fp) (m : W64) (hx : x.length = 8) :
    (mul512 x m).length = 8 ∧ val (mul512 x m) = val x * m.toNat % 2 ^ 512 ∧
    (mul576 x m).length = 9 ∧ val (mul576 x m) = val x * m.toNat :=
  ⟨(mul512_spec x m hx).1, (mul512_spec x m hx).2, (mul576_spec x m hx).1, (mul576_spec x m hx).2⟩

/-- C65. The comparisons. -/
theorem c65_compare (x y : Fp) (hx : x.length = 8) (hy : y.length = 8) :
    (isLess x y = true ↔ val x < val y) ∧ (equal x y = true ↔ val x = val y) ∧ (isZero x = true ↔ val x = 0) :=
  ⟨isLess_spec x y (hx.trans hy.symm), equal_spec x y (hx.trans hy.symm), isZero_spec x⟩

/-- C65. Subtraction with borrow. -/
theorem c65_sub (x y : Fp) (hx : x.length = 8) (hy : y.length = 8) :
    (sub512 x y).1.length = 8 ∧ (val x < val y → (sub512 x y).2 = 1 ∧ val (sub512 x y).1 = val x + 2 ^ 512 - val y) ∧
    (val y ≤ val x → (sub512 x y).2 = 0 ∧ val (sub512 x y).1 = val x - val y) := by
  obtain ⟨h1, h2, h3⟩ := Lemmas.Limb.subLoop_borrow x y (hx.trans hy.symm)
  rw [hx] at h1 h3
  rw [sub512]
  refine ⟨h3, fun h => ⟨(h1 h).1, ?_⟩, fun h => ⟨(h2 h).1, ?_⟩⟩
  · have := (h1 h).2
    rw [show 2 ^ 512 = 2 ^ (64 * 8) by rfl]
    omega
  · have := (h2 h).2
    omega

/-- C65. The constant-time swap. -/
theorem c65_swap (x y : Fp) (hx : x.length = 8) (hy : y.length = 8) : cswap512 x y 0 = (x, y) ∧ cswap512 x y 1 = (y, x) :=
  cswap512_spec x y (hx.trans hy.symm)

open Model.Csidh.Alias in
/-- C65. In memory, with any destination. -/
theorem c65_alias (z x y : Nat) (w : W64) (m : Model.Sidh.Alias.Mem) (hz : (m z).length = 8) (hx : (m x).length = 8) (hy : (m y).length = 8) :
    mul512M z x w m z = mul512 (m x) w ∧ (∀ o, o ≠ z → mul512M z x w m o = m o) ∧
    (sub512M z x y m).1 z = (sub512 (m x) (m y)).1 ∧ (sub512M z x y m).2 = (sub512 (m x) (m y)).2 ∧
    ∀ o, o ≠ z → (sub512M z x y m).1 o = m o := by
  obtain ⟨a1, a2⟩ := Lemmas.CsidhAlias.mul512M_spec z x w m hz hx
  obtain ⟨b1, b2, b3⟩ := Lemmas.CsidhAlias.sub512M_spec z x y m hz hx hy
  exact ⟨a1, a2, b1, b2, b3⟩

/-- The hypotheses are met: 2 and 4 as represented by the constants of the code; 2·2 is 4, 2−4 is −2. -/
example : IsElt two 2 ∧ IsElt four 4 ∧ mulRdc two two = four ∧ subRdc two four = twoNeg ∧ addRdc two two = four := by
  refine ⟨two_elt, four_elt, ?_⟩
  decide +kernel

/-- 4 is recognised as a square, and 0 is classed with the non-squares. -/
example : isNonQuadRes four = 0 ∧ isNonQuadRes (List.replicate 8 0) = 1 := by
  constructor
  · have h : (4 : ZMod 𝕡) ≠ 0 ∧ IsSquare (4 : ZMod 𝕡) := by
      refine ⟨?_, 2, by norm_num⟩
      rw [show (4 : ZMod 𝕡) = 2 * 2 by norm_num]
      exact mul_ne_zero two_ne two_ne
    rw [isNonQuadRes_elt four_elt, if_pos h]
  · rw [isNonQuadRes_elt zero_elt, if_neg (by simp)]

/-- An aliased subtraction: the destination is the second argument. -/
example : Model.Csidh.Alias.subRdcM 1 0 1 (fun b => if b = 0 then two else four) 1 = twoNeg := by decide +kernel

end Props.CsidhField
