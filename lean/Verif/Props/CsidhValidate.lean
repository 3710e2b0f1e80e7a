import Verif.Lemmas.CsidhValidate
import Verif.Lemmas.CsidhOrigin
import Verif.Lemmas.CsidhRun
import Verif.Props.CsidhCurve
import Verif.Props.CsidhKeys
/-
C69 and C73: what the validation of a CSIDH public key means.

`K` is any extension of the prime field; a number x of the prime field is the x-coordinate of a point over a
suitable `K`.
-/
namespace Props.CsidhValidate
open Model Model.Limb Model.Csidh Lemmas.CsidhNat Verif.XOnly Spec Spec.Csidh Lemmas.CsidhLadder Lemmas.CsidhField Lemmas.CsidhCurve
  Lemmas.CsidhValidate Lemmas.CsidhKeys

local notation "𝕡" => Spec.Csidh.p

theorem sq_ne {K : Type} [Field K] [Algebra (ZMod 𝕡) K] {a : ZMod 𝕡} (h1 : a ≠ 2) (h2 : a ≠ -2) : (algebraMap (ZMod 𝕡) K a) ^ 2 ≠ 4 := by
  intro h
  rw [← map_pow, ← map_ofNat (algebraMap (ZMod 𝕡) K) 4] at h
  have h := inj h
  have : (a - 2) * (a + 2) = 0 := by linear_combination h
  rcases mul_eq_zero.mp this with h | h
  · exact h1 (by linear_combination h)
  · exact h2 (by linear_combination h)

theorem validate_eq {pub : PublicKey} {a : ZMod 𝕡} (ha : IsElt pub.a a) (h1 : a ≠ 2) (h2 : a ≠ -2) (rng : List Byte) :
    validate pub rng = validateLoop pub.a rng := by
  rw [validate, if_neg, if_neg]
  · rw [Bool.or_eq_true, equal_elt ha two_elt, equal_elt ha twoNeg_elt]
    push Not
    exact ⟨h1, h2⟩
  · have := (Lemmas.CsidhArith.isLess_spec pub.a Model.Csidh.p (by rw [ha.len]; rfl)).mpr (by rw [Lemmas.CsidhArith.p_val]; exact ha.lt)
    rw [this]; simp

theorem coef_cases {pub : PublicKey} (hl : pub.a.length = 8) :
    (𝕡 ≤ val pub.a ∨ IsElt pub.a 2 ∨ IsElt pub.a (-2)) ∨ ∃ a, IsElt pub.a a ∧ a ≠ 2 ∧ a ≠ -2 := by
  by_cases hp : 𝕡 ≤ val pub.a
  · exact Or.inl (Or.inl hp)
  obtain ⟨a, ha⟩ := elt_of hl (not_le.mp hp)
  by_cases h1 : a = 2
  · exact Or.inl (Or.inr (Or.inl (h1 ▸ ha)))
  by_cases h2 : a = -2
  · exact Or.inl (Or.inr (Or.inr (h2 ▸ ha)))
  exact Or.inr ⟨a, ha, h1, h2⟩

theorem origin {K : Type} [Field K] [Algebra (ZMod 𝕡) K] [DecidableEq K] {A : K} {S : (W A).Point} (h : ¬ (S ≠ 0 ∧ xc S = 0)) : S ≠ Tp A := by
  rintro rfl
  exact h ⟨Tp_ne, rfl⟩

/-- One round of `Validate`: let x be the number drawn, and S a point with that x-coordinate such that [p+1]S is not the
point (0, 0).  If [p+1]S is not the point at infinity the key is refused.  If it is, and the order of [4]S exceeds
4√p, the key is accepted.  Otherwise there is another round. -/
theorem c69_round {K : Type} [Field K] [Algebra (ZMod 𝕡) K] [DecidableEq K] {pub : PublicKey} {a : ZMod 𝕡} (ha : IsElt pub.a a) (h1 : a ≠ 2) (h2 : a ≠ -2)
    {rng rest : List Byte} {lx : Fp} {x : ZMod 𝕡} (hr : randFp rng = some (lx, rest)) (hx : IsElt lx x)
    {S : (W (algebraMap (ZMod 𝕡) K a)).Point} (hS : S ≠ 0) (hSx : xc S = algebraMap (ZMod 𝕡) K x)
    (hT : (𝕡 + 1) • S = 0 ∨ xc ((𝕡 + 1) • S) ≠ 0) :
    ((𝕡 + 1) • S ≠ 0 → validate pub rng = some (false, rest)) ∧
    ((𝕡 + 1) • S = 0 → 16 * 𝕡 < addOrderOf (4 • S) ^ 2 → validate pub rng = some (true, rest)) ∧
    ((𝕡 + 1) • S = 0 → ¬ 16 * 𝕡 < addOrderOf (4 • S) ^ 2 → validate pub rng = validate pub rest) := by
  have hT' : (𝕡 + 1) • S ≠ Tp _ := origin (fun h => hT.elim h.1 (fun h' => h' h.2))
  rw [validate_eq ha h1 h2, validate_eq ha h1 h2]
  exact validateLoop_round ha (sq_ne h1 h2) hr hx hS hSx hT'

theorem is_origin {K : Type} [Field K] [Algebra (ZMod 𝕡) K] [DecidableEq K] {A : K} {S : (W A).Point} (h : S ≠ 0 ∧ xc S = 0) : S = Tp A := by
  by_contra hc
  exact (ne_Tp hc).elim h.1 (fun h' => h' h.2)

/-- The remaining case of a round: [p+1]S is the point (0, 0).  If the order of [4]S is 2 there is another round.  Otherwise the key is accepted when the
product of the primes counted by mistake (`Spec.Csidh.credit`) exceeds 4√p, and refused when not. -/
theorem c69_round_origin {K : Type} [Field K] [Algebra (ZMod 𝕡) K] [DecidableEq K] {pub : PublicKey} {a : ZMod 𝕡} (ha : IsElt pub.a a) (h1 : a ≠ 2) (h2 : a ≠ -2)
    {rng rest : List Byte} {lx : Fp} {x : ZMod 𝕡} (hr : randFp rng = some (lx, rest)) (hx : IsElt lx x)
    {S : (W (algebraMap (ZMod 𝕡) K a)).Point} (hS : S ≠ 0) (hSx : xc S = algebraMap (ZMod 𝕡) K x)
    (hT : (𝕡 + 1) • S ≠ 0 ∧ xc ((𝕡 + 1) • S) = 0) :
    (addOrderOf (4 • S) = 2 → validate pub rng = validate pub rest) ∧
    (addOrderOf (4 • S) ≠ 2 →
      validate pub rng = some (decide (16 * 𝕡 < credit (fun i => decide (ell.getD i 0 ∣ addOrderOf (4 • S))) 0 74 ^ 2), rest)) := by
  rw [validate_eq ha h1 h2, validate_eq ha h1 h2]
  exact Lemmas.CsidhOrigin.validateLoop_origin ha (sq_ne h1 h2) hr hx hS hSx (is_origin hT)

/-- The primes that are enough: with these 32 primes in the order of [4]S, the other 42 are counted. -/
example : 16 * 𝕡 < credit (fun i => decide (i ∈ [0, 3, 5, 8, 10, 13, 15, 17, 19, 22, 24, 26, 28, 31, 33, 35, 37, 40, 42, 45, 47, 50, 52, 54, 56, 59, 61, 63, 65, 68, 70, 72])) 0 74 ^ 2 := by
  decide +kernel

/-- With an order of one odd prime, say 587, only one other prime is counted. -/
example : credit (fun i => decide (i = 73)) 0 74 = 373 := by decide +kernel

/-- C69 (partial). If `Validate` accepts a key then it is the canonical representation of a coefficient a ≠ ±2, and it has drawn
a number x such that every point S with x-coordinate x has an order that divides p + 1 and exceeds 4√p, or else [p+1]S = (0, 0), and
then the order of [4]S exceeds 2^64 and has so many of the primes that those counted by mistake exceed 4√p.

Missing: the second case, in which the ladder is not exact (see c66_origin) and primes are counted that do not divide the order; by
c69_round_origin the key is then accepted indeed. -/
theorem c69_accept_partial {pub : PublicKey} {rng rest : List Byte} (hl : pub.a.length = 8) (h : validate pub rng = some (true, rest)) :
    ∃ a x : ZMod 𝕡, IsElt pub.a a ∧ a ≠ 2 ∧ a ≠ -2 ∧
      ∀ (K : Type) [Field K] [Algebra (ZMod 𝕡) K] [DecidableEq K] (S : (W (algebraMap (ZMod 𝕡) K a)).Point), S ≠ 0 → xc S = algebraMap (ZMod 𝕡) K x →
        (addOrderOf S ∣ 𝕡 + 1 ∧ 16 * 𝕡 < addOrderOf S ^ 2) ∨
        ((𝕡 + 1) • S ≠ 0 ∧ xc ((𝕡 + 1) • S) = 0 ∧ 2 ^ 64 < addOrderOf (4 • S) ∧
          16 * 𝕡 < credit (fun i => decide (ell.getD i 0 ∣ addOrderOf (4 • S))) 0 74 ^ 2) := by
  rcases coef_cases hl with hc | ⟨a, ha, h1, h2⟩
  · have := (Props.CsidhKeys.c68_rejects pub hl hc PrivateKey.zero [] rng).1
    rw [this] at h
    simp at h
  rw [validate_eq ha h1 h2] at h
  obtain ⟨-, rng', lx, hr, hv⟩ := validateLoop_last _ rng le_rfl h
  obtain ⟨x, hx⟩ := randFp_elt hr
  refine ⟨a, x, ha, h1, h2, ?_⟩
  intro K _ _ _ S hS hSx
  by_cases hT : (𝕡 + 1) • S ≠ 0 ∧ xc ((𝕡 + 1) • S) = 0
  · right
    obtain ⟨k1, k2⟩ := Lemmas.CsidhOrigin.validateLoop_origin ha (sq_ne h1 h2) hr hx hS hSx (is_origin hT)
    by_cases ho : addOrderOf (4 • S) = 2
    · rw [k1 ho] at hv
      have := (validateLoop_last _ rest le_rfl hv).1
      omega
    · rw [k2 ho] at hv
      have hb : 16 * 𝕡 < credit (fun i => decide (ell.getD i 0 ∣ addOrderOf (4 • S))) 0 74 ^ 2 := by simpa using hv
      refine ⟨hT.1, hT.2, Lemmas.CsidhOrigin.credit_order ?_ hb, hb⟩
      intro h0
      have h4 : ((𝕡 + 1) * 2) • 4 • S = 0 := by
        rw [mul_comm, mul_smul, smul_comm (𝕡 + 1) 4 S, is_origin hT, ← mul_smul, show 2 * 4 = 4 * 2 from rfl, mul_smul, two_smul, Tp_two, smul_zero]
      have := addOrderOf_dvd_of_nsmul_eq_zero h4
      rw [h0] at this
      have := Nat.eq_zero_of_zero_dvd this
      omega
  left
  obtain ⟨k1, k2, k3⟩ := validateLoop_round ha (sq_ne h1 h2) hr hx hS hSx (origin hT)
  by_cases h0 : (𝕡 + 1) • S = 0
  · refine ⟨addOrderOf_dvd_of_nsmul_eq_zero h0, ?_⟩
    by_cases hb : 16 * 𝕡 < addOrderOf (4 • S) ^ 2
    · refine lt_of_lt_of_le hb (Nat.pow_le_pow_left (Nat.le_of_dvd ?_ ?_) 2)
      · exact Nat.pos_of_dvd_of_pos (addOrderOf_dvd_of_nsmul_eq_zero h0) (Nat.succ_pos _)
      · apply addOrderOf_dvd_of_nsmul_eq_zero
        rw [smul_comm, addOrderOf_nsmul_eq_zero, smul_zero]
    · rw [k3 h0 hb] at hv
      have := (validateLoop_last _ rest le_rfl hv).1
      omega
  · rw [k1 h0] at hv
    simp at hv

/-- C73. If `Validate` refuses a key, then it is not the canonical representation of a number below p, or it is ±2, or there is a
number x such that no point with x-coordinate x has an order dividing p + 1: so no coefficient of a supersingular curve
is ever refused. -/
theorem c73_reject {pub : PublicKey} {rng rest : List Byte} (hl : pub.a.length = 8) (h : validate pub rng = some (false, rest)) :
    𝕡 ≤ val pub.a ∨ IsElt pub.a 2 ∨ IsElt pub.a (-2) ∨ ∃ a x : ZMod 𝕡, IsElt pub.a a ∧
      ∀ (K : Type) [Field K] [Algebra (ZMod 𝕡) K] [DecidableEq K] (S : (W (algebraMap (ZMod 𝕡) K a)).Point), S ≠ 0 → xc S = algebraMap (ZMod 𝕡) K x →
        (𝕡 + 1) • S ≠ 0 := by
  rcases coef_cases hl with hc | ⟨a, ha, h1, h2⟩
  · tauto
  rw [validate_eq ha h1 h2] at h
  obtain ⟨-, rng', lx, hr, hv⟩ := validateLoop_last _ rng le_rfl h
  obtain ⟨x, hx⟩ := randFp_elt hr
  refine Or.inr (Or.inr (Or.inr ⟨a, x, ha, ?_⟩))
  intro K _ _ _ S hS hSx h0
  obtain ⟨k1, k2, k3⟩ := validateLoop_round ha (sq_ne h1 h2) hr hx hS hSx (by rw [h0]; exact Tp_ne.symm)
  by_cases hb : 16 * 𝕡 < addOrderOf (4 • S) ^ 2
  · rw [k2 h0 hb] at hv
    simp at hv
  · rw [k3 h0 hb] at hv
    have := (validateLoop_last _ rest le_rfl hv).1
    omega

theorem zero_ne_two : (0 : ZMod 𝕡) ≠ 2 ∧ (0 : ZMod 𝕡) ≠ -2 :=
  ⟨fun h => Lemmas.CsidhField.two_ne h.symm, fun h => Lemmas.CsidhField.two_ne (by linear_combination h)⟩

/-- The key 0 is accepted when the number drawn is 4 (a calculation of the kernel). -/
theorem accepted (rest : List Byte) : validate ⟨List.replicate 8 0⟩ (fpBytes four ++ rest) = some (true, rest) := by
  rw [validate_eq (pub := ⟨List.replicate 8 0⟩) zero_elt zero_ne_two.1 zero_ne_two.2]
  rw [Lemmas.CsidhRun.validateLoop_run Lemmas.CsidhRun.zero_rn Lemmas.CsidhRun.four_rn (Lemmas.CsidhRun.rand_elt four_elt rest) Lemmas.CsidhRun.round_0_4.1,
    Lemmas.CsidhRun.round_0_4.2]

theorem one_ne_two : (1 : ZMod 𝕡) ≠ 2 ∧ (1 : ZMod 𝕡) ≠ -2 := by
  constructor
  · intro h
    have : (1 : ZMod 𝕡) = 0 := by linear_combination -h
    exact one_ne_zero this
  · intro h
    have h : ((3 : Nat) : ZMod 𝕡) = 0 := by push_cast; linear_combination h
    have := (ZMod.natCast_eq_zero_iff 3 𝕡).mp h
    exact absurd (Nat.le_of_dvd (by decide) this) (by decide +kernel)

/-- The key 1 is refused when the number drawn is 4 (a calculation of the kernel). -/
theorem refused (rest : List Byte) : validate ⟨one⟩ (fpBytes four ++ rest) = some (false, rest) := by
  rw [validate_eq (pub := ⟨one⟩) one_elt one_ne_two.1 one_ne_two.2]
  rw [Lemmas.CsidhRun.validateLoop_run Lemmas.CsidhRun.one_rn Lemmas.CsidhRun.four_rn (Lemmas.CsidhRun.rand_elt four_elt rest) Lemmas.CsidhRun.round_1_4.1,
    Lemmas.CsidhRun.round_1_4.2]

open Classical in
/-- So on y² = x³ + x there is a number x all of whose points have a large order dividing p + 1, or … -/
example : ∃ x : ZMod 𝕡, ∀ S : (W (algebraMap (ZMod 𝕡) (AlgebraicClosure (ZMod 𝕡)) 0)).Point, S ≠ 0 → xc S = algebraMap (ZMod 𝕡) _ x →
    (addOrderOf S ∣ 𝕡 + 1 ∧ 16 * 𝕡 < addOrderOf S ^ 2) ∨ ((𝕡 + 1) • S ≠ 0 ∧ xc ((𝕡 + 1) • S) = 0 ∧ 2 ^ 64 < addOrderOf (4 • S) ∧
      16 * 𝕡 < credit (fun i => decide (ell.getD i 0 ∣ addOrderOf (4 • S))) 0 74 ^ 2) := by
  obtain ⟨a, x, h1, _, _, h4⟩ := c69_accept_partial rfl (accepted [])
  obtain rfl := elt_inj h1 zero_elt
  exact ⟨x, h4 _⟩

end Props.CsidhValidate
