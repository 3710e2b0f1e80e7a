import Verif.Lemmas.XOddIso
import Verif.Lemmas.Colon
import Mathlib.NumberTheory.LegendreSymbol.QuadraticChar.GaussSum
import Mathlib.FieldTheory.Finite.Basic

/-!
The curve y² = x³ + x over the algebraic closure of a prime field with p ≡ 3 mod 4: its Frobenius endomorphism, and the
number of points on which it is the identity, or the negative.
-/

namespace Verif.XOnly

open WeierstrassCurve

variable {p : ℕ} [Fact p.Prime] {K : Type} [Field K] [Algebra (ZMod p) K]

/-- the Frobenius homomorphism -/
noncomputable def frob (p : ℕ) [Fact p.Prime] (K : Type) [Field K] [Algebra (ZMod p) K] : K →+* K :=
  ((FiniteField.frobeniusAlgHom (ZMod p) K : K →ₐ[ZMod p] K) : K →+* K)

theorem frob_eq (x : K) : frob p K x = x ^ p := by
  show x ^ Fintype.card (ZMod p) = _
  rw [ZMod.card]

theorem frob_alg (v : ZMod p) : frob p K (algebraMap (ZMod p) K v) = algebraMap (ZMod p) K v := by
  rw [frob_eq, ← map_pow, ZMod.pow_card]

/-- the elements fixed by Frobenius are those of the prime field -/
theorem frob_fix {x : K} (h : frob p K x = x) : ∃ v, algebraMap (ZMod p) K v = x := by
  classical
  by_contra hc
  have hp := (Fact.out : p.Prime).one_lt
  have hne : (Polynomial.X ^ p - Polynomial.X : Polynomial K) ≠ 0 := FiniteField.X_pow_card_sub_X_ne_zero K hp
  have hr : ∀ z : K, frob p K z = z → z ∈ (Polynomial.X ^ p - Polynomial.X : Polynomial K).roots.toFinset := by
    intro z hz
    rw [Multiset.mem_toFinset, Polynomial.mem_roots hne, Polynomial.IsRoot.def, Polynomial.eval_sub, Polynomial.eval_pow, Polynomial.eval_X,
      ← frob_eq, hz, sub_self]
  have hs : insert x (Finset.univ.image (algebraMap (ZMod p) K)) ⊆ (Polynomial.X ^ p - Polynomial.X : Polynomial K).roots.toFinset := by
    intro z hz
    rcases Finset.mem_insert.mp hz with rfl | hz
    · exact hr _ h
    · obtain ⟨v, _, rfl⟩ := Finset.mem_image.mp hz
      exact hr _ (frob_alg v)
  have h1 := Finset.card_le_card hs
  rw [Finset.card_insert_of_notMem (by
    intro hz
    obtain ⟨v, _, hv⟩ := Finset.mem_image.mp hz
    exact hc ⟨v, hv⟩), Finset.card_image_of_injective _ (algebraMap (ZMod p) K).injective, Finset.card_univ, ZMod.card] at h1
  have h2 := (Multiset.toFinset_card_le _).trans (Polynomial.card_roots' (Polynomial.X ^ p - Polynomial.X : Polynomial K))
  rw [FiniteField.X_pow_card_sub_X_natDegree_eq K hp] at h2
  omega

variable [DecidableEq K]

/-- the Frobenius endomorphism of y² = x³ + x -/
theorem exists_pi : ∃ π : (W (0 : K)).Point →+ (W (0 : K)).Point, ∀ x y (h : (W (0 : K)).Nonsingular x y), ∃ h', π (.some x y h) = .some (frob p K x) (frob p K y) h' := by
  have e : ((W (0 : ZMod p)).baseChange K) = W (0 : K) := by
    simp only [WeierstrassCurve.baseChange, WeierstrassCurve.map, W, map_zero, map_one]
  rw [← e]
  exact ⟨Affine.Point.map (W' := W (0 : ZMod p)) (FiniteField.frobeniusAlgHom (ZMod p) K), fun x y h => ⟨_, Affine.Point.map_some _ h⟩⟩

/-- the sum of the quadratic character over x³ + x -/
theorem char_sum (hp : p % 4 = 3) : ∑ x : ZMod p, quadraticChar (ZMod p) (x ^ 3 + x) = 0 := by
  have h2 : ringChar (ZMod p) ≠ 2 := by
    rw [ZMod.ringChar_zmod_n]; rintro rfl; omega
  have hm : quadraticChar (ZMod p) (-1) = -1 := by
    rw [quadraticChar_neg_one h2, ZMod.card]
    exact ZMod.χ₄_nat_three_mod_four hp
  have h1 : ∑ x : ZMod p, quadraticChar (ZMod p) (x ^ 3 + x) = ∑ x : ZMod p, quadraticChar (ZMod p) ((-x) ^ 3 + -x) :=
    (Equiv.sum_comp (Equiv.neg (ZMod p)) fun x => quadraticChar (ZMod p) (x ^ 3 + x)).symm
  have h3 : ∀ x : ZMod p, quadraticChar (ZMod p) ((-x) ^ 3 + -x) = -quadraticChar (ZMod p) (x ^ 3 + x) := by
    intro x
    have : (-x) ^ 3 + -x = -1 * (x ^ 3 + x) := by ring
    rw [this, map_mul, hm, neg_one_mul]
  simp only [h3, Finset.sum_neg_distrib] at h1
  linarith

theorem card_affine (hp : p % 4 = 3) : Fintype.card (Σ x : ZMod p, {y : ZMod p // y ^ 2 = x ^ 3 + x}) = p := by
  have h2 : ringChar (ZMod p) ≠ 2 := by
    rw [ZMod.ringChar_zmod_n]; rintro rfl; omega
  rw [Fintype.card_sigma]
  have h : ∀ x : ZMod p, (Fintype.card {y : ZMod p // y ^ 2 = x ^ 3 + x} : ℤ) = quadraticChar (ZMod p) (x ^ 3 + x) + 1 := by
    intro x
    rw [← quadraticChar_card_sqrts h2, Set.toFinset_card]
    rfl
  have h3 : ((∑ x : ZMod p, Fintype.card {y : ZMod p // y ^ 2 = x ^ 3 + x} : ℕ) : ℤ) = p := by
    push_cast
    rw [Finset.sum_congr rfl fun x _ => h x, Finset.sum_add_distrib, char_sum hp]
    simp [ZMod.card]
  exact_mod_cast h3

theorem two_ne' (hp : p % 4 = 3) : (2 : K) ≠ 0 := by
  intro h
  have h1 : (2 : ZMod p) = 0 := by
    apply (algebraMap (ZMod p) K).injective
    rw [map_ofNat, map_zero, h]
  have h3 : ((2 : ℕ) : ZMod p) = 0 := by exact_mod_cast h1
  have h2 := Nat.le_of_dvd (by decide) ((ZMod.natCast_eq_zero_iff 2 p).mp h3)
  interval_cases p <;> omega

theorem four_ne' (hp : p % 4 = 3) : (0 : K) ^ 2 ≠ 4 := by
  intro h
  have h2 := two_ne' (K := K) hp
  apply mul_ne_zero h2 h2
  linear_combination -h

theorem on_curve (hp : p % 4 = 3) {x y : K} (h : y ^ 2 = x ^ 3 + x) : (W (0 : K)).Nonsingular x y := by
  refine W_nonsingular (two_ne' hp) (four_ne' hp) ?_
  rw [h]; ring

theorem of_curve {x y : K} (h : (W (0 : K)).Nonsingular x y) : y ^ 2 = x ^ 3 + x := by
  have := (W_equation _ _ _).mp h.1
  rw [this]; ring

section
variable {π : (W (0 : K)).Point →+ (W (0 : K)).Point} (hπ : ∀ x y (h : (W (0 : K)).Nonsingular x y), ∃ h', π (.some x y h) = .some (frob p K x) (frob p K y) h')
include hπ

theorem card_fix (hp : p % 4 = 3) : Nat.card (Colon.eig π false).ker = p + 1 := by
  rw [← card_affine hp, ← Nat.card_eq_fintype_card, ← Finite.card_option]
  symm
  refine Nat.card_eq_of_bijective (fun o : Option (Σ x : ZMod p, {y : ZMod p // y ^ 2 = x ^ 3 + x}) => (match o with
    | none => ⟨0, map_zero _⟩
    | some s => ⟨.some (algebraMap (ZMod p) K s.1) (algebraMap (ZMod p) K s.2.1) (on_curve hp (by rw [← map_pow, s.2.2, map_add, map_pow])), by
        obtain ⟨h', e⟩ := hπ _ _ (on_curve (K := K) hp (x := algebraMap (ZMod p) K s.1) (y := algebraMap (ZMod p) K s.2.1) (by rw [← map_pow, s.2.2, map_add, map_pow]))
        rw [AddMonoidHom.mem_ker, Colon.eig_false, e, sub_eq_zero]
        simp only [frob_alg]⟩ : (Colon.eig π false).ker)) ⟨?_, ?_⟩
  · rintro (_ | ⟨x, y, h⟩) (_ | ⟨x', y', h'⟩) e
    · rfl
    · exact absurd (congrArg Subtype.val e).symm (Affine.Point.some_ne_zero _)
    · exact absurd (congrArg Subtype.val e) (Affine.Point.some_ne_zero _)
    · have e := congrArg Subtype.val e
      simp only [Affine.Point.some.injEq] at e
      have h1 := (algebraMap (ZMod p) K).injective e.1
      have h2 := (algebraMap (ZMod p) K).injective e.2
      subst h1
      subst h2
      rfl
  · rintro ⟨P, hP⟩
    rw [AddMonoidHom.mem_ker, Colon.eig_false, sub_eq_zero] at hP
    rcases P with _ | ⟨x, y, h⟩
    · exact ⟨none, rfl⟩
    · obtain ⟨h', e⟩ := hπ x y h
      rw [e] at hP
      simp only [Affine.Point.some.injEq] at hP
      obtain ⟨u, rfl⟩ := frob_fix hP.1
      obtain ⟨v, rfl⟩ := frob_fix hP.2
      refine ⟨some ⟨u, v, ?_⟩, rfl⟩
      have := of_curve h
      apply (algebraMap (ZMod p) K).injective
      rw [map_pow, this, map_add, map_pow]

/-- multiplication by i -/
def mulI (hp : p % 4 = 3) (i : K) (hi : i ^ 2 = -1) : (W (0 : K)).Point → (W (0 : K)).Point
  | .zero => 0
  | .some x y h => .some (-x) (i * y) (on_curve hp (by rw [mul_pow, hi, of_curve h]; ring))

theorem card_neg (hp : p % 4 = 3) {i : K} (hi : i ^ 2 = -1) : Nat.card (Colon.eig π true).ker = p + 1 := by
  rw [← card_fix hπ hp]
  have hfi : frob p K i = -i := by
    rw [frob_eq]
    obtain ⟨k, hk⟩ : ∃ k, p = 2 * (2 * k + 1) + 1 := ⟨p / 4, by omega⟩
    have : i ^ p = i ^ (2 * (2 * k + 1) + 1) := by rw [← hk]
    rw [this, pow_succ, pow_mul, hi, Odd.neg_one_pow ⟨k, rfl⟩, neg_one_mul]
  have key : ∀ P, (π P = P → π (mulI hp i hi P) = -mulI hp i hi P) ∧ (π P = -P → π (mulI hp i hi P) = mulI hp i hi P) := by
    rintro (_ | ⟨x, y, h⟩)
    · refine ⟨fun _ => ?_, fun _ => ?_⟩
      · show π 0 = -0
        rw [map_zero, neg_zero]
      · show π 0 = 0
        rw [map_zero]
    · obtain ⟨h', e⟩ := hπ x y h
      have hm : (W (0 : K)).Nonsingular (-x) (i * y) := on_curve hp (by rw [mul_pow, hi, of_curve h]; ring)
      have em : mulI hp i hi (.some x y h) = .some (-x) (i * y) hm := rfl
      obtain ⟨h2, e2⟩ := hπ _ _ hm
      rw [e, em, e2]
      have hn : ∀ {a b : K} (h : (W (0 : K)).Nonsingular a b), ∃ h', -(Affine.Point.some a b h) = .some a (-b) h' := by
        intro a b h
        rw [Affine.Point.neg_some]
        have : (W (0 : K)).negY a b = -b := by simp [Affine.negY, W]
        refine ⟨this ▸ (Affine.nonsingular_neg a b).mpr h, ?_⟩
        simp only [this]
      obtain ⟨h3, e3⟩ := hn hm
      obtain ⟨h4, e4⟩ := hn h
      rw [e3, e4]
      simp only [Affine.Point.some.injEq, map_neg, map_mul, hfi]
      constructor
      · rintro ⟨hx, hy⟩
        rw [hx, hy]
        exact ⟨rfl, by ring⟩
      · rintro ⟨hx, hy⟩
        rw [hx, hy]
        exact ⟨rfl, by ring⟩
  have hJ : ∀ P, mulI hp i hi (mulI hp i hi P) = -P := by
    rintro (_ | ⟨x, y, h⟩)
    · show 0 = -0
      rw [neg_zero]
    · show Affine.Point.some (- -x) (i * (i * y)) _ = _
      rw [Affine.Point.neg_some]
      have e1 : (W (0 : K)).negY x y = i * (i * y) := by
        simp only [Affine.negY, W]
        linear_combination -y * hi
      simp only [e1, neg_neg]
  have hJn : ∀ P, mulI hp i hi (-P) = -mulI hp i hi P := by
    intro P
    rw [← hJ (mulI hp i hi P), hJ P]
  refine Nat.card_congr ⟨fun P => ⟨mulI hp i hi P.1, ?_⟩, fun P => ⟨-mulI hp i hi P.1, ?_⟩, fun P => ?_, fun P => ?_⟩
  · have := P.2
    rw [AddMonoidHom.mem_ker, Colon.eig_true] at this
    rw [AddMonoidHom.mem_ker, Colon.eig_false, sub_eq_zero]
    exact (key P.1).2 (eq_neg_of_add_eq_zero_left this)
  · have := P.2
    rw [AddMonoidHom.mem_ker, Colon.eig_false, sub_eq_zero] at this
    rw [AddMonoidHom.mem_ker, Colon.eig_true, map_neg, (key P.1).1 this]
    abel
  · apply Subtype.ext
    show -mulI hp i hi (mulI hp i hi P.1) = _
    rw [hJ, neg_neg]
  · apply Subtype.ext
    show mulI hp i hi (-mulI hp i hi P.1) = _
    rw [hJn, hJ, neg_neg]

/-- the curve itself is the start of the chain -/
theorem Iso.base [IsAlgClosed K] (hp : p % 4 = 3) {i : K} (hi : i ^ 2 = -1) :
    Iso (frob p K) π 0 (⊥ : AddSubgroup (W (0 : K)).Point) (.some 0 0 (on_curve hp (by ring))) (.some i 0 (on_curve hp (by linear_combination -i * hi))) xc yc where
  x := XRep.base (two_ne' hp) _
  t := by
    have h0 : i ≠ 0 := by rintro rfl; simp at hi
    refine ⟨?_, ?_, ?_⟩
    · rw [AddSubgroup.mem_bot, two_torsion (two_ne' hp) (Affine.Point.some_ne_zero _)]; rfl
    · rw [AddSubgroup.mem_bot]; exact Affine.Point.some_ne_zero _
    · rw [AddSubgroup.mem_bot, sub_eq_zero]
      intro e
      simp only [Affine.Point.some.injEq] at e
      exact h0 e.1
  fin := Set.finite_singleton 0
  surj := by
    intro u
    obtain ⟨v, hv⟩ := IsAlgClosed.exists_pow_nat_eq (u ^ 3 + u) (n := 2) (by decide)
    exact ⟨.some u v (on_curve hp hv), by rw [AddSubgroup.mem_bot]; exact Affine.Point.some_ne_zero _, rfl⟩
  ysq := by
    intro P hP
    rw [AddSubgroup.mem_bot] at hP
    rw [point_curve P hP]; ring
  yneg := fun P _ => yc_neg P
  yshift := by
    intro P n _ hn
    rw [AddSubgroup.mem_bot] at hn
    rw [hn, add_zero]
  stab := by
    rintro (_ | ⟨x, y, h⟩)
    · show π 0 ∈ _ ↔ _
      rw [map_zero]
      rfl
    · obtain ⟨h', e⟩ := hπ x y h
      rw [e, AddSubgroup.mem_bot, AddSubgroup.mem_bot]
      exact ⟨fun h => absurd h (Affine.Point.some_ne_zero _), fun h => absurd h (Affine.Point.some_ne_zero _)⟩
  gfrob := by
    rintro (_ | ⟨x, y, h⟩) hP
    · exact absurd rfl hP
    · obtain ⟨h', e⟩ := hπ x y h
      rw [e]; rfl
  yfrob := by
    rintro (_ | ⟨x, y, h⟩) hP
    · exact absurd rfl hP
    · obtain ⟨h', e⟩ := hπ x y h
      rw [e]; rfl

end

end Verif.XOnly
