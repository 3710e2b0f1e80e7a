import Verif.Lemmas.CsidhLadder
import Verif.Spec.CsidhCurve
/-
From the word arithmetic to points over an extension of the prime field.
-/
namespace Lemmas.CsidhCurve
open Model Model.Limb Model.Csidh Lemmas.CsidhNat Verif.XOnly Spec Spec.Csidh Lemmas.CsidhLadder Lemmas.CsidhField

local notation "𝕡" => Spec.Csidh.p

variable {K : Type} [Field K] [Algebra (ZMod 𝕡) K]

theorem inj : Function.Injective (algebraMap (ZMod 𝕡) K) := by
  exact (algebraMap (ZMod 𝕡) K).injective

theorem two_ne : (2 : K) ≠ 0 := by
  have h : (2 : ZMod 𝕡) ≠ 0 := Lemmas.CsidhField.two_ne
  intro h'
  apply h
  apply inj (K := K)
  rw [map_ofNat, map_zero, h']

/-- the words represent the element, seen in the extension -/
def Up (K : Type) [Field K] [Algebra (ZMod 𝕡) K] (x : Fp) (x' : K) : Prop := ∃ v, IsElt x v ∧ algebraMap (ZMod 𝕡) K v = x'

theorem up_rel : OpsRel limbOps (fieldOps K) (Up K) := by
  have h := limb_rel
  constructor
  case zero => exact ⟨_, h.zero, map_zero _⟩
  case one => exact ⟨_, h.one, map_one _⟩
  case four => exact ⟨_, h.four, map_ofNat _ 4⟩
  case add => rintro x y _ _ ⟨v, hv, rfl⟩ ⟨w, hw, rfl⟩; exact ⟨_, h.add hv hw, map_add _ v w⟩
  case sub => rintro x y _ _ ⟨v, hv, rfl⟩ ⟨w, hw, rfl⟩; exact ⟨_, h.sub hv hw, map_sub _ v w⟩
  case mul => rintro x y _ _ ⟨v, hv, rfl⟩ ⟨w, hw, rfl⟩; exact ⟨_, h.mul hv hw, map_mul _ v w⟩
  case exp64 => rintro x _ n ⟨v, hv, rfl⟩; exact ⟨_, h.exp64 n hv, map_pow _ v _⟩
  case cswap =>
    rintro x y _ _ c hc ⟨v, hv, rfl⟩ ⟨w, hw, rfl⟩
    obtain ⟨h1, h2⟩ := h.cswap hc hv hw
    refine ⟨⟨_, h1, ?_⟩, ⟨_, h2, ?_⟩⟩
    · simp only [fieldOps]; split <;> rfl
    · simp only [fieldOps]; split <;> rfl

theorem up_unique {x : Fp} {v : ZMod 𝕡} {x' : K} (hv : IsElt x v) (h : Up K x x') : algebraMap (ZMod 𝕡) K v = x' := by
  obtain ⟨w, hw, rfl⟩ := h
  rw [elt_inj hv hw]

variable [DecidableEq K]

theorem nonsing0 {A : K} : (W A).Nonsingular 0 0 := by
  rw [WeierstrassCurve.Affine.nonsingular_iff]
  simp [WeierstrassCurve.Affine.equation_iff, W]

theorem isX_of_pr {A : K} {Q : (W A).Point} {q : Pt K} (h : Pr ⊥ xc Q q) : IsX Q q.x q.z := by
  refine ⟨fun h0 => (h.inf (by rw [h0]; exact AddSubgroup.zero_mem _)).1, fun h0 => h.fin (by rwa [AddSubgroup.mem_bot])⟩

theorem pr_of_isX {A : K} {Q : (W A).Point} {q : Pt K} (h : IsX Q q.x q.z) (hQ : Q ≠ 0) : Pr ⊥ xc Q q := by
  refine ⟨fun h0 => absurd ((AddSubgroup.mem_bot).mp h0) hQ, fun _ => h.2 hQ⟩

/-- the ladder over a field: every point but (0, 0), every k > 0 -/
theorem xMul_isX {A : K} (hA : A ^ 2 ≠ 4) {P : (W A).Point} {q : Pt K} (hq : IsX P q.x q.z) (hT : P = 0 ∨ xc P ≠ 0)
    {c : Coef K} (hc : IsA c A) (k : Fp) (hk : k.length = 8) (h0 : 0 < val k) :
    IsX (val k • P) (xMul (fieldOps K) q c k).x (xMul (fieldOps K) q c k).z := by
  by_cases hP : P = 0
  · subst hP
    rw [smul_zero]
    exact ⟨fun _ => xMul_zero (hq.1 rfl) c k, fun h => absurd rfl h⟩
  · exact isX_of_pr (xMul_pr (XRep.base two_ne nonsing0) hA (pr_of_isX hq hP) (by rwa [AddSubgroup.mem_bot]) (hT.resolve_left hP) hc k hk h0)

theorem topBit_zero {k : Fp} (h : val k = 0) : ∀ j, topBit k j = 0
  | 0 => rfl
  | j + 1 => by
    rw [topBit, bitAt_testBit, h, Nat.zero_testBit, if_neg (by decide), topBit_zero h j]

omit [Algebra (ZMod 𝕡) K] [DecidableEq K] in
theorem xMul_k0 {k : Fp} (h : val k = 0) (q : Pt K) (c : Coef K) : xMul (fieldOps K) q c k = xDbl (fieldOps K) q ⟨c.a, c.c⟩ := by
  rw [xMul]
  simp only [topBit_zero h, xMulLoop, word0_bit, bitAt_testBit, h, Nat.zero_testBit, cswappoint_eq]
  rfl

theorem xDbl_isX {A : K} (hA : A ^ 2 ≠ 4) {P : (W A).Point} {q : Pt K} (hq : IsX P q.x q.z)
    {c : Coef K} (hc : IsA c A) : IsX (P + P) (xDbl (fieldOps K) q ⟨c.a, c.c⟩).x (xDbl (fieldOps K) q ⟨c.a, c.c⟩).z := by
  by_cases hP : P = 0
  · subst hP
    have := hq.1 rfl
    refine ⟨fun _ => by simp only [xDbl, fadd, fsub, fmul, this]; ring, fun h => absurd (add_zero 0) h⟩
  · exact isX_of_pr (xDbl_pr (XRep.base two_ne nonsing0) hA (pr_of_isX hq hP) hc)

variable {a c : ZMod 𝕡}

omit [DecidableEq K] in
theorem coef_ok (hc : c ≠ 0) (hs : a ^ 2 ≠ 4 * c ^ 2) :
    IsA ⟨algebraMap (ZMod 𝕡) K a, algebraMap (ZMod 𝕡) K c⟩ (algebraMap (ZMod 𝕡) K (a / c)) ∧ (algebraMap (ZMod 𝕡) K (a / c)) ^ 2 ≠ 4 := by
  constructor
  · refine ⟨?_, ?_⟩
    · intro h
      exact hc (inj (K := K) (h.trans (map_zero _).symm))
    · show _ = _
      rw [← map_mul, div_mul_cancel₀ _ hc]
  · intro h
    apply hs
    rw [← map_pow, ← map_ofNat (algebraMap (ZMod 𝕡) K) 4] at h
    have h := inj h
    rw [div_pow, div_eq_iff (pow_ne_zero 2 hc)] at h
    exact h

variable {P : Pt Fp} {co : Coef Fp} {x z : ZMod 𝕡}

omit [DecidableEq K] in
theorem mul_up (hx : IsElt P.x x) (hz : IsElt P.z z) (ha : IsElt co.a a) (hc : IsElt co.c c) (k : Fp) :
    ∃ x' z', IsElt (xMul limbOps P co k).x x' ∧ IsElt (xMul limbOps P co k).z z' ∧
      (xMul (fieldOps K) ⟨algebraMap (ZMod 𝕡) K x, algebraMap (ZMod 𝕡) K z⟩ ⟨algebraMap (ZMod 𝕡) K a, algebraMap (ZMod 𝕡) K c⟩ k) =
        ⟨algebraMap (ZMod 𝕡) K x', algebraMap (ZMod 𝕡) K z'⟩ := by
  obtain ⟨⟨x', h1, h2⟩, ⟨z', h3, h4⟩⟩ := xMul_rel (up_rel (K := K)) (P := P) (P' := ⟨algebraMap (ZMod 𝕡) K x, algebraMap (ZMod 𝕡) K z⟩) (A := co)
    (A' := ⟨algebraMap (ZMod 𝕡) K a, algebraMap (ZMod 𝕡) K c⟩) ⟨⟨x, hx, rfl⟩, ⟨z, hz, rfl⟩⟩ ⟨⟨a, ha, rfl⟩, ⟨c, hc, rfl⟩⟩ k
  exact ⟨x', z', h1, h3, by rw [h2, h4]⟩

end Lemmas.CsidhCurve
