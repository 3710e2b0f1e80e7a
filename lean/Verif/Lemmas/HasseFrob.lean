import Verif.Lemmas.HasseTwist
import Verif.Lemmas.FrobBase

/-!
The Frobenius endomorphism of a Montgomery curve over a prime field with p ≡ 3 mod 4: the points it fixes are those of the curve over
the prime field, and those it negates are those of the twist. Any curve can be the start of a chain of isogenies.
-/

set_option linter.unusedSectionVars false

namespace Verif.Hasse

open XOnly WeierstrassCurve

variable {p : ℕ} [Fact p.Prime] {K : Type} [Field K] [Algebra (ZMod p) K] [DecidableEq K] {a : ZMod p}

theorem exists_pi (a : ZMod p) : ∃ π : (W (algebraMap (ZMod p) K a)).Point →+ (W (algebraMap (ZMod p) K a)).Point,
    ∀ x y (h : (W (algebraMap (ZMod p) K a)).Nonsingular x y), ∃ h', π (.some x y h) = .some (frob p K x) (frob p K y) h' := by
  have e : ((W a).baseChange K) = W (algebraMap (ZMod p) K a) := by
    simp only [WeierstrassCurve.baseChange, WeierstrassCurve.map, W, map_zero, map_one]
  rw [← e]
  exact ⟨Affine.Point.map (W' := W a) (FiniteField.frobeniusAlgHom (ZMod p) K), fun x y h => ⟨_, Affine.Point.map_some _ h⟩⟩

theorem exists_emb (K : Type) [Field K] [Algebra (ZMod p) K] [DecidableEq K] (a : ZMod p) : ∃ ψ : (W a).Point →+ (W (algebraMap (ZMod p) K a)).Point,
    ∀ x y (h : (W a).Nonsingular x y), ∃ h', ψ (.some x y h) = .some (algebraMap (ZMod p) K x) (algebraMap (ZMod p) K y) h' := by
  have e : ((W a).baseChange K) = W (algebraMap (ZMod p) K a) := by
    simp only [WeierstrassCurve.baseChange, WeierstrassCurve.map, W, map_zero, map_one]
  have e' : ((W a).baseChange (ZMod p)) = W a := by
    simp only [WeierstrassCurve.baseChange, WeierstrassCurve.map, W, map_zero, map_one]
    rfl
  rw [← e]
  have : ∃ ψ : ((W a).baseChange (ZMod p)).toAffine.Point →+ ((W a).baseChange K).toAffine.Point,
      ∀ x y (h : ((W a).baseChange (ZMod p)).toAffine.Nonsingular x y), ∃ h', ψ (.some x y h) = .some (algebraMap (ZMod p) K x) (algebraMap (ZMod p) K y) h' :=
    ⟨Affine.Point.map (W' := W a) (Algebra.ofId (ZMod p) K), fun x y h => ⟨_, Affine.Point.map_some _ h⟩⟩
  rw [e'] at this
  exact this

theorem neg_pt {A x y : K} (h : (W A).Nonsingular x y) : ∃ h', -(Affine.Point.some x y h) = .some x (-y) h' := by
  rw [Affine.Point.neg_some]
  have : (W A).negY x y = -y := by simp [Affine.negY, W]
  refine ⟨this ▸ (Affine.nonsingular_neg x y).mpr h, ?_⟩
  simp only [this]

theorem ns_alg {x y : ZMod p} (two : (2 : ZMod p) ≠ 0) (ha : a ^ 2 ≠ 4) (h : (W (algebraMap (ZMod p) K a)).Nonsingular (algebraMap (ZMod p) K x) (algebraMap (ZMod p) K y)) :
    (W a).Nonsingular x y := by
  apply W_nonsingular two ha
  apply (algebraMap (ZMod p) K).injective
  have := (W_equation _ _ _).mp h.1
  simpa only [map_add, map_mul, map_pow] using this

/-- Every number of the prime field is the x-coordinate of a point of the curve over the prime field, or of its twist. -/
theorem exists_point [IsAlgClosed K] (hp : p % 4 = 3) (ha : a ^ 2 ≠ 4) (x : ZMod p) :
    ∃ (n : ℕ) (b : ℤ) (S : (W (algebraMap (ZMod p) K a)).Point),
      S ≠ 0 ∧ xc S = algebraMap (ZMod p) K x ∧ n • S = 0 ∧ (n : ℤ) = p + 1 - b ∧ b ^ 2 ≤ 4 * p ∧
      ((Nat.card (W a).Point : ℤ) = p + 1 - b ∨ (Nat.card (W a).Point : ℤ) = p + 1 + b) := by
  have hp2 : p ≠ 2 := by omega
  have two := two_ne hp2
  by_cases hsq : IsSquare (x ^ 3 + a * x ^ 2 + x)
  · obtain ⟨y, hy⟩ := hsq
    have hn := W_nonsingular two ha (x := x) (y := y) (by rw [hy]; ring)
    obtain ⟨ψ, hψ⟩ := exists_emb K a
    obtain ⟨k, e⟩ := hψ x y hn
    refine ⟨Nat.card (W a).Point, p + 1 - Nat.card (W a).Point, ψ (.some x y hn), ?_, ?_, ?_,
      by ring, hasse hp2 ha, Or.inl (by ring)⟩
    · rw [e]; exact Affine.Point.some_ne_zero _
    · rw [e]; rfl
    · rw [← map_nsmul, card_nsmul_eq_zero', map_zero]
  · have hA' : (-a) ^ 2 ≠ 4 := by rwa [neg_sq]
    have hsq' : IsSquare (-(x ^ 3 + a * x ^ 2 + x)) := by
      have h2 : ringChar (ZMod p) ≠ 2 := by rwa [ZMod.ringChar_zmod_n]
      have h0 : x ^ 3 + a * x ^ 2 + x ≠ 0 := fun hc => hsq (by rw [hc]; exact IsSquare.zero)
      rw [← quadraticChar_one_iff_isSquare (neg_ne_zero.mpr h0), ← neg_one_mul, map_mul]
      rw [quadraticChar_neg_one_iff_not_isSquare.mpr hsq, quadraticChar_neg_one_iff_not_isSquare.mpr (neg_one_ns hp)]
      norm_num
    obtain ⟨y, hy⟩ := hsq'
    have hn := W_nonsingular two hA' (x := -x) (y := y) (by linear_combination -hy)
    obtain ⟨i, hi⟩ := IsAlgClosed.exists_pow_nat_eq (-1 : K) (n := 2) (by norm_num)
    have hB : algebraMap (ZMod p) K a = -(algebraMap (ZMod p) K (-a)) := by rw [map_neg, neg_neg]
    have hB4 : (algebraMap (ZMod p) K a) ^ 2 ≠ 4 := Hasse.hA' ha
    let φ := AddMonoidHom.mk' (tw (algebraMap (ZMod p) K) hi (two' two) hB hB4) (tw_add _ _ _ _ _)
    refine ⟨Nat.card (W (-a)).Point, p + 1 - Nat.card (W (-a)).Point, φ (.some (-x) y hn), ?_, ?_, ?_,
      by ring, hasse hp2 hA', ?_⟩
    · exact Affine.Point.some_ne_zero _
    · show -(algebraMap (ZMod p) K (-x)) = _
      rw [map_neg, neg_neg]
    · rw [← map_nsmul, card_nsmul_eq_zero', map_zero]
    · right
      have := card_twist hp ha
      have : (Nat.card (W a).Point : ℤ) + Nat.card (W (-a)).Point = 2 * p + 2 := by exact_mod_cast this
      linear_combination this

variable {π : (W (algebraMap (ZMod p) K a)).Point →+ (W (algebraMap (ZMod p) K a)).Point}
  (hπ : ∀ x y (h : (W (algebraMap (ZMod p) K a)).Nonsingular x y), ∃ h', π (.some x y h) = .some (frob p K x) (frob p K y) h')

include hπ

theorem card_fix (two : (2 : ZMod p) ≠ 0) (ha : a ^ 2 ≠ 4) : Nat.card (Colon.eig π false).ker = Nat.card (W a).Point := by
  obtain ⟨ψ, hψ⟩ := exists_emb K a
  symm
  refine Nat.card_eq_of_bijective (fun P => (⟨ψ P, ?_⟩ : (Colon.eig π false).ker)) ⟨?_, ?_⟩
  · rw [AddMonoidHom.mem_ker, Colon.eig_false]
    rcases P with _ | ⟨x, y, h⟩
    · show π (ψ 0) - ψ 0 = 0
      rw [map_zero, map_zero, sub_zero]
    · obtain ⟨h', e⟩ := hψ x y h
      obtain ⟨h'', e'⟩ := hπ _ _ h'
      rw [e, e', sub_eq_zero]
      simp only [frob_alg]
  · intro P Q e
    have e := congrArg Subtype.val e
    simp only at e
    rcases P with _ | ⟨x, y, h⟩ <;> rcases Q with _ | ⟨x', y', h'⟩
    · rfl
    · obtain ⟨k, e'⟩ := hψ x' y' h'
      rw [e'] at e
      have : ψ 0 = _ := e
      rw [map_zero] at this
      exact absurd this.symm (Affine.Point.some_ne_zero _)
    · obtain ⟨k, e'⟩ := hψ x y h
      rw [e'] at e
      have : _ = ψ 0 := e
      rw [map_zero] at this
      exact absurd this (Affine.Point.some_ne_zero _)
    · obtain ⟨k, e'⟩ := hψ x y h
      obtain ⟨k', e''⟩ := hψ x' y' h'
      rw [e', e''] at e
      simp only [Affine.Point.some.injEq] at e
      have h1 := (algebraMap (ZMod p) K).injective e.1
      have h2 := (algebraMap (ZMod p) K).injective e.2
      subst h1
      subst h2
      rfl
  · rintro ⟨P, hP⟩
    rw [AddMonoidHom.mem_ker, Colon.eig_false, sub_eq_zero] at hP
    rcases P with _ | ⟨x, y, h⟩
    · exact ⟨0, Subtype.ext (map_zero ψ)⟩
    · obtain ⟨h', e⟩ := hπ x y h
      rw [e] at hP
      simp only [Affine.Point.some.injEq] at hP
      obtain ⟨u, rfl⟩ := frob_fix hP.1
      obtain ⟨v, rfl⟩ := frob_fix hP.2
      obtain ⟨k, e'⟩ := hψ u v (ns_alg two ha h)
      exact ⟨.some u v (ns_alg two ha h), Subtype.ext e'⟩

theorem card_neg (hp : p % 4 = 3) (ha : a ^ 2 ≠ 4) {i : K} (hi : i ^ 2 = -1) : Nat.card (Colon.eig π true).ker = Nat.card (W (-a)).Point := by
  have hp2 : p ≠ 2 := by omega
  have two := two_ne hp2
  have hi0 : i ≠ 0 := by
    rintro rfl
    exact one_ne_zero (α := K) (by linear_combination hi)
  have hfi : frob p K i = -i := by
    rw [frob_eq]
    obtain ⟨k, hk⟩ : ∃ k, p = 2 * (2 * k + 1) + 1 := ⟨p / 4, by omega⟩
    have : i ^ p = i ^ (2 * (2 * k + 1) + 1) := by rw [← hk]
    rw [this, pow_succ, pow_mul, hi, Odd.neg_one_pow ⟨k, rfl⟩, neg_one_mul]
  have hB : algebraMap (ZMod p) K a = -(algebraMap (ZMod p) K (-a)) := by rw [map_neg, neg_neg]
  have hB4 : (algebraMap (ZMod p) K a) ^ 2 ≠ 4 := Hasse.hA' ha
  have hA' : (-a) ^ 2 ≠ 4 := by rwa [neg_sq]
  symm
  refine Nat.card_eq_of_bijective (fun P => (⟨tw (algebraMap (ZMod p) K) hi (two' two) hB hB4 P, ?_⟩ : (Colon.eig π true).ker)) ⟨?_, ?_⟩
  · rw [AddMonoidHom.mem_ker, Colon.eig_true]
    rcases P with _ | ⟨x, y, h⟩
    · show π 0 + 0 = 0
      rw [map_zero, add_zero]
    · obtain ⟨h'', e'⟩ := hπ _ _ (tw_ns (algebraMap (ZMod p) K) hi (two' two) hB hB4 h)
      show π (.some _ _ (tw_ns (algebraMap (ZMod p) K) hi (two' two) hB hB4 h)) + .some _ _ (tw_ns (algebraMap (ZMod p) K) hi (two' two) hB hB4 h) = 0
      obtain ⟨h3, e3⟩ := neg_pt (tw_ns (algebraMap (ZMod p) K) hi (two' two) hB hB4 h)
      rw [add_eq_zero_iff_eq_neg, e', e3]
      simp only [Affine.Point.some.injEq, map_neg, map_mul, hfi, frob_alg]
      exact ⟨trivial, by ring⟩
  · intro P Q e
    have e := congrArg Subtype.val e
    simp only at e
    rcases P with _ | ⟨x, y, h⟩ <;> rcases Q with _ | ⟨x', y', h'⟩
    · rfl
    · exact absurd e.symm (Affine.Point.some_ne_zero _)
    · exact absurd e (Affine.Point.some_ne_zero _)
    · simp only [tw, Affine.Point.some.injEq] at e
      have h1 := (algebraMap (ZMod p) K).injective (neg_injective e.1)
      have h2 := (algebraMap (ZMod p) K).injective (mul_left_cancel₀ hi0 e.2)
      subst h1
      subst h2
      rfl
  · rintro ⟨P, hP⟩
    rw [AddMonoidHom.mem_ker, Colon.eig_true, add_eq_zero_iff_eq_neg] at hP
    rcases P with _ | ⟨x, y, h⟩
    · exact ⟨0, rfl⟩
    · obtain ⟨h', e⟩ := hπ x y h
      obtain ⟨h3, e3⟩ := neg_pt h
      rw [e, e3] at hP
      simp only [Affine.Point.some.injEq] at hP
      obtain ⟨u, rfl⟩ := frob_fix hP.1
      obtain ⟨v, hv⟩ := frob_fix (x := -(i * y)) (by rw [map_neg, map_mul, hfi, hP.2]; ring)
      have hy : y = i * algebraMap (ZMod p) K v := by
        rw [hv]; linear_combination y * hi
      subst hy
      have hns : (W (-a)).Nonsingular (-u) v := by
        apply W_nonsingular two hA'
        apply (algebraMap (ZMod p) K).injective
        have := (W_equation _ _ _).mp h.1
        simp only [map_add, map_mul, map_pow, map_neg]
        linear_combination -this + (algebraMap (ZMod p) K v) ^ 2 * hi
      refine ⟨.some (-u) v hns, Subtype.ext ?_⟩
      simp only [tw, map_neg, neg_neg]

/-- any curve is the start of a chain -/
theorem iso_start [IsAlgClosed K] (two : (2 : ZMod p) ≠ 0) (ha : a ^ 2 ≠ 4) :
    ∃ T τ : (W (algebraMap (ZMod p) K a)).Point, Iso (frob p K) π (algebraMap (ZMod p) K a) ⊥ T τ xc yc := by
  have two' : (2 : K) ≠ 0 := Hasse.two' two
  have ha' : (algebraMap (ZMod p) K a) ^ 2 ≠ 4 := Hasse.hA' ha
  obtain ⟨s, hs⟩ := IsAlgClosed.exists_pow_nat_eq ((algebraMap (ZMod p) K a) ^ 2 - 4) (n := 2) (by decide)
  obtain ⟨r, hr⟩ : ∃ r : K, r ^ 2 + algebraMap (ZMod p) K a * r + 1 = 0 := by
    refine ⟨(s - algebraMap (ZMod p) K a) / 2, ?_⟩
    field_simp
    linear_combination hs
  have hr0 : r ≠ 0 := by
    rintro rfl
    simp at hr
  have h0 := W_nonsingular two' ha' (x := 0) (y := 0) (by ring)
  have h1 := W_nonsingular two' ha' (x := r) (y := 0) (by linear_combination -r * hr)
  refine ⟨.some 0 0 h0, .some r 0 h1, ?_⟩
  exact {
    x := XRep.base two' _
    t := by
      refine ⟨?_, ?_, ?_⟩
      · rw [AddSubgroup.mem_bot, two_torsion two' (Affine.Point.some_ne_zero _)]; rfl
      · rw [AddSubgroup.mem_bot]; exact Affine.Point.some_ne_zero _
      · rw [AddSubgroup.mem_bot, sub_eq_zero]
        intro e
        simp only [Affine.Point.some.injEq] at e
        exact hr0 e.1
    fin := Set.finite_singleton 0
    surj := by
      intro u
      obtain ⟨v, hv⟩ := IsAlgClosed.exists_pow_nat_eq (u ^ 3 + algebraMap (ZMod p) K a * u ^ 2 + u) (n := 2) (by decide)
      exact ⟨.some u v (W_nonsingular two' ha' hv), by rw [AddSubgroup.mem_bot]; exact Affine.Point.some_ne_zero _, rfl⟩
    ysq := by
      intro P hP
      rw [AddSubgroup.mem_bot] at hP
      rw [point_curve P hP]; ring
    yneg := fun P _ => yc_neg P
    yshift := by
      intro P n _ hn
      rw [AddSubgroup.mem_bot] at hn
      rw [hn, add_zero]
    stab := by
      rintro (_ | ⟨x, y, h⟩)
      · show π 0 ∈ _ ↔ _
        rw [map_zero]
        rfl
      · obtain ⟨h', e⟩ := hπ x y h
        rw [e, AddSubgroup.mem_bot, AddSubgroup.mem_bot]
        exact ⟨fun h => absurd h (Affine.Point.some_ne_zero _), fun h => absurd h (Affine.Point.some_ne_zero _)⟩
    gfrob := by
      rintro (_ | ⟨x, y, h⟩) hP
      · exact absurd rfl hP
      · obtain ⟨h', e⟩ := hπ x y h
        rw [e]; rfl
    yfrob := by
      rintro (_ | ⟨x, y, h⟩) hP
      · exact absurd rfl hP
      · obtain ⟨h', e⟩ := hπ x y h
        rw [e]; rfl }

end Verif.Hasse
