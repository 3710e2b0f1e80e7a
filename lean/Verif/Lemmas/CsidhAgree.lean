import Verif.Lemmas.CsidhOrbit
import Verif.Props.CsidhValidate
import Mathlib.FieldTheory.IsAlgClosed.AlgebraicClosure

/-!
The curves reached from the starting curve: that they exist, that the record of the group action determines them, and
that they pass the validation.
-/

namespace Lemmas.CsidhAgree

open Model Model.Limb Model.Csidh Lemmas.CsidhNat Lemmas.CsidhLadder Lemmas.CsidhIso Lemmas.CsidhCof Lemmas.CsidhField Lemmas.CsidhCurve Lemmas.CsidhAction
  Lemmas.CsidhKeys Lemmas.CsidhOrbit Verif.XOnly Verif.Colon Spec Spec.Csidh

local notation "𝕡" => Spec.Csidh.p

/-- the algebraic closure of the prime field -/
abbrev F : Type := AlgebraicClosure (ZMod 𝕡)

/-- the group of the starting curve with its Frobenius endomorphism -/
theorem base : ∃ (Γ : Type) (_ : AddCommGroup Γ) (π : Γ →+ Γ) (T τ : Γ) (g0 : Γ → F), (∀ s, Nat.card (eig π s).ker = 𝕡 + 1) ∧ Good π T τ g0 0 [] := by
  classical
  have hp := Lemmas.CsidhPrime.p_mod4
  obtain ⟨π, hπ⟩ := exists_pi (p := 𝕡) (K := F)
  obtain ⟨i, hi⟩ := IsAlgClosed.exists_pow_nat_eq (-1 : F) (n := 2) (by decide)
  refine ⟨(W (0 : F)).Point, inferInstance, π, _, _, xc, ?_, ⊥, xc, yc, Iso.base hπ hp hi, rfl, canon_base _⟩
  intro s
  cases s
  · exact card_fix hπ hp
  · exact card_neg hπ hp hi

/-! ### The record -/

theorem count_degs (log : List Event) (v : W64) (sg : Bool) : (degs log).count (v.toNat, sg) = cnt log v sg := by
  rw [degs, cnt, List.count, List.countP_map, List.countP_eq_length_filter]
  congr 2
  funext ev
  simp only [Function.comp]
  rw [Bool.eq_iff_iff, beq_iff_eq, decide_eq_true_iff, Prod.mk.injEq, BitVec.toNat_inj]

theorem degs_perm {la la' : Fp} {prv : PrivateKey} {rng rng' rest rest' : List Byte} {s s' : RoundSt} (h : groupActionLog la prv rng = some (s, rest))
    (h' : groupActionLog la' prv rng' = some (s', rest')) : (degs s.log).Perm (degs s'.log) := by
  obtain ⟨i1, d0, d1, -, e1⟩ := groupActionLog_spec prv h
  obtain ⟨i1', d0', d1', -, e1'⟩ := groupActionLog_spec prv h'
  have key : ∀ {s : RoundSt}, RInv (target prv.e) s → s.h0.done = true → s.h1.done = true → ∀ i < 74, ∀ sg, cnt s.log (word primes i) sg = target prv.e sg i := by
    intro s i1 d0 d1 i hi sg
    cases sg
    · have := i1.h0.sum i hi
      rw [i1.d0 d0 i hi] at this
      rw [← this]; exact (Nat.zero_add _).symm
    · have := i1.h1.sum i hi
      rw [i1.d1 d1 i hi] at this
      rw [← this]; exact (Nat.zero_add _).symm
  rw [List.perm_iff_count]
  rintro ⟨d, sg⟩
  by_cases hd : ∃ i < 74, (word primes i).toNat = d
  · obtain ⟨i, hi, rfl⟩ := hd
    rw [count_degs, count_degs, key i1 d0 d1 i hi sg, key i1' d0' d1' i hi sg]
  · have zero : ∀ {s : RoundSt}, (∀ ev ∈ s.log, ∃ j < 74, ev.degree = word primes j) → (degs s.log).count (d, sg) = 0 := by
      intro s e
      rw [List.count_eq_zero]
      intro hm
      obtain ⟨ev, hev, he⟩ := List.mem_map.mp hm
      obtain ⟨j, hj, hw⟩ := e ev hev
      rw [Prod.mk.injEq] at he
      exact hd ⟨j, hj, by rw [← hw]; exact he.1⟩
    rw [zero fun ev hev => (e1 ev hev).1, zero fun ev hev => (e1' ev hev).1]

/-! ### Validation -/

section
variable {K : Type} [Field K] [Algebra (ZMod 𝕡) K] [IsAlgClosed K] {Γ : Type*} [AddCommGroup Γ] {π : Γ →+ Γ} {T τ : Γ} {g0 : Γ → K}

theorem exists_p1 : ∃ k : Fp, k.length = 8 ∧ val k = 𝕡 + 1 := ⟨Model.Csidh.p.set 0 (word Model.Csidh.p 0 + 1), by decide +kernel, by decide +kernel⟩

theorem p1_even : (𝕡 + 1) % 2 = 0 := by decide +kernel

theorem good_order [DecidableEq K] (hcard : ∀ s, Nat.card (eig π s).ker = 𝕡 + 1) {L : List (ℕ × Bool)} {a x : ZMod 𝕡} (hg : Good π T τ g0 (algebraMap (ZMod 𝕡) K a) L)
    {S : (W (algebraMap (ZMod 𝕡) K a)).Point} (hS : S ≠ 0) (hx : xc S = algebraMap (ZMod 𝕡) K x) : (𝕡 + 1) • S = 0 := by
  obtain ⟨N, g, y, I, hN, can⟩ := hg
  have hA := A_sq I.x I.t
  have X := XRep.base (I.x.two) (nonsing0 (A := algebraMap (ZMod 𝕡) K a))
  have hS' : S ∉ (⊥ : AddSubgroup (W (algebraMap (ZMod 𝕡) K a)).Point) := by rwa [AddSubgroup.mem_bot]
  by_cases h0 : algebraMap (ZMod 𝕡) K x = 0
  · have h1 := X.of_zero hS' (hx.trans h0)
    rw [AddSubgroup.mem_bot, sub_eq_zero] at h1
    have h2 := X.T2
    rw [AddSubgroup.mem_bot] at h2
    have e : 𝕡 + 1 = (𝕡 + 1) / 2 * 2 := by have := p1_even; omega
    rw [e, mul_smul, two_smul, h1, h2, smul_zero]
  · obtain ⟨P, hP, hPx⟩ := I.surj (algebraMap (ZMod 𝕡) K x)
    haveI : Finite N := I.fin
    have hord : (𝕡 + 1) • P ∈ N := by
      by_cases hs : x ^ 3 + a * x ^ 2 + x ≠ 0 ∧ IsSquare (x ^ 3 + a * x ^ 2 + x)
      · exact smul_mem (Nat.succ_ne_zero _) (hcard false) (fun Q hQ => (I.stab Q).mpr hQ) (sign_of I rfl hP hPx false ⟨fun _ => hs, fun _ => rfl⟩)
      · exact smul_mem (Nat.succ_ne_zero _) (hcard true) (fun Q hQ => (I.stab Q).mpr hQ) (sign_of I rfl hP hPx true ⟨(by intro h; cases h), fun h => absurd h hs⟩)
    obtain ⟨k, hk, hkv⟩ := exists_p1
    have hIA : IsA (⟨algebraMap (ZMod 𝕡) K a, 1⟩ : Coef K) (algebraMap (ZMod 𝕡) K a) := ⟨one_ne_zero, (mul_one _).symm⟩
    have m1 := xMul_pr I.x hA (p := ⟨algebraMap (ZMod 𝕡) K x, 1⟩) ⟨fun h => absurd h hP, fun _ => ⟨one_ne_zero, by rw [hPx]; exact (mul_one _).symm⟩⟩ hP (by rw [hPx]; exact h0) hIA k hk (by rw [hkv]; exact Nat.succ_pos _)
    have m2 := xMul_pr X hA (p := ⟨algebraMap (ZMod 𝕡) K x, 1⟩) ⟨fun h => absurd h hS', fun _ => ⟨one_ne_zero, by rw [hx]; exact (mul_one _).symm⟩⟩ hS' (by rw [hx]; exact h0) hIA k hk (by rw [hkv]; exact Nat.succ_pos _)
    rw [hkv] at m1 m2
    have hz := (m1.inf hord).1
    have := (Pr.weak m2).z.mp hz
    rwa [AddSubgroup.mem_bot] at this

theorem good_validate (hcard : ∀ s, Nat.card (eig π s).ker = 𝕡 + 1) {L : List (ℕ × Bool)} {pub : PublicKey} {a : ZMod 𝕡} (ha : IsElt pub.a a)
    (hg : Good π T τ g0 (algebraMap (ZMod 𝕡) K a) L) {rng rest : List Byte} : validate pub rng ≠ some (false, rest) := by
  classical
  intro h
  have hA : (algebraMap (ZMod 𝕡) K a) ^ 2 ≠ 4 := by
    obtain ⟨N, g, y, I, hN, can⟩ := hg
    exact A_sq I.x I.t
  rcases Props.CsidhValidate.c73_reject ha.len h with h1 | h1 | h1 | ⟨a', x, ha', h1⟩
  · exact absurd ha.lt (not_lt.mpr h1)
  · rw [elt_inj ha h1] at hA
    apply hA
    rw [← map_pow, ← map_ofNat (algebraMap (ZMod 𝕡) K) 4]
    congr 1
  · rw [elt_inj ha h1] at hA
    apply hA
    rw [← map_pow, ← map_ofNat (algebraMap (ZMod 𝕡) K) 4]
    congr 1
  · have e := elt_inj ha' ha
    subst e
    obtain ⟨v, hv⟩ := IsAlgClosed.exists_pow_nat_eq (algebraMap (ZMod 𝕡) K x ^ 3 + algebraMap (ZMod 𝕡) K a' * algebraMap (ZMod 𝕡) K x ^ 2 + algebraMap (ZMod 𝕡) K x) (n := 2) (by decide)
    have hns := W_nonsingular (Lemmas.CsidhCurve.two_ne (K := K)) hA hv
    refine h1 K (.some _ _ hns) (WeierstrassCurve.Affine.Point.some_ne_zero hns) rfl ?_
    exact good_order hcard hg (WeierstrassCurve.Affine.Point.some_ne_zero hns) rfl

end

end Lemmas.CsidhAgree
