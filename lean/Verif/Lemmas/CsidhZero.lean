import Verif.Lemmas.CsidhAction
/-
The group action with exponents that are all zero.
-/
namespace Lemmas.CsidhZero
open Model Model.Limb Model.Csidh Spec Spec.Csidh Lemmas.CsidhField Lemmas.CsidhAction Lemmas.CsidhKeys Lemmas.CsidhNat

/-- no isogeny is left to do -/
def Z (h : Half) : Prop := ∀ j, h.e.getD j 0 = 0

theorem actStep_zero (sg : Bool) (st x : Fp) (v : W64) (i : Nat) (s : ActSt) (h : Z s.half) : actStep sg st x v i s = s := by
  rw [actStep]
  have h0 : ¬ s.half.e.getD i 0 ≠ 0 := not_not.mpr (h i)
  have hd : decide (s.half.e.getD i 0 = 0) = true := decide_eq_true (h i)
  simp only [if_neg h0, hd, Bool.and_true]

theorem actLoop_zero (sg : Bool) (st x : Fp) : ∀ (vs : List W64) (i : Nat) (s : ActSt), Z s.half → actLoop sg st x vs i s = s
  | [], _, _, _ => rfl
  | v :: vs, i, s, h => by
    rw [actLoop, actStep_zero sg st x v i s h, actLoop_zero sg st x vs (i + 1) s h]

theorem norm_one {A : Fp} {α : ZMod Spec.Csidh.p} (hA : IsElt A α) : mulRdc A (modExpRdc512 one pMin1) = A := by
  have h := mul_elt hA (exp512_elt one_elt pMin1 rfl)
  rw [one_pow, mul_one] at h
  exact elt_unique h hA

seal actLoop xMul modExpRdc512 mulRdc in
theorem actRound_zero {s : RoundSt} {α : ZMod Spec.Csidh.p} (hA : IsElt s.A α) (h0 : Z s.h0) (h1 : Z s.h1) (x : Fp) (b : Bool)
    (hb : decide (isNonQuadRes (montEval limbOps s.A x) ≠ 0) = b) :
    actRound s x = if (if b then s.h1 else s.h0).done then none else
      some ⟨s.A, if b then s.h0 else {s.h0 with done := true}, if b then {s.h1 with done := true} else s.h1, s.log⟩ := by
  rw [actRound]
  simp only [hb]
  cases b with
  | true =>
    simp only [if_true]
    by_cases hd : s.h1.done = true
    · simp only [hd, if_true]
    · simp only [hd]
      rw [if_neg (by simp), if_neg (by simp)]
      have e : ∃ P, roundHalf true s.A x s.h1 s.log = ⟨P, ⟨s.A, one⟩, {s.h1 with done := true}, s.log⟩ := by
        refine ⟨xMul limbOps ⟨x, one⟩ ⟨s.A, one⟩ s.h1.k, ?_⟩
        rw [roundHalf]
        exact actLoop_zero _ _ _ _ _ _ h1
      obtain ⟨P, e⟩ := e
      rw [e]
      simp only
      rw [norm_one hA]
  | false =>
    simp only [Bool.false_eq_true, if_false]
    by_cases hd : s.h0.done = true
    · simp only [hd, if_true]
    · simp only [hd]
      rw [if_neg (by simp), if_neg (by simp)]
      have e : ∃ P, roundHalf false s.A x s.h0 s.log = ⟨P, ⟨s.A, one⟩, {s.h0 with done := true}, s.log⟩ := by
        refine ⟨xMul limbOps ⟨x, one⟩ ⟨s.A, one⟩ s.h0.k, ?_⟩
        rw [roundHalf]
        exact actLoop_zero _ _ _ _ _ _ h0
      obtain ⟨P, e⟩ := e
      rw [e]
      simp only
      rw [norm_one hA]

theorem start_zero (sg : Bool) (h : Half) (hd : h.done = false) (he : h.e = List.replicate 74 0) :
    Z (splitKey PrivateKey.zero.e sg primes 0 h) ∧ (splitKey PrivateKey.zero.e sg primes 0 h).done = false := by
  obtain ⟨a1, a2, -, a4⟩ := splitKey_spec PrivateKey.zero.e sg 74 0 rfl h (by rw [he]; simp) (splitKey PrivateKey.zero.e sg primes 0 h) (by rw [List.drop_zero])
  refine ⟨fun j => ?_, a1.trans hd⟩
  by_cases hj : j < 74
  · have e0 : expAt PrivateKey.zero.e j = 0 := by
      rw [expAt]
      have : PrivateKey.zero.e.getD (j / 2) 0 = 0 := by
        rw [PrivateKey.zero, List.getD_eq_getElem?_getD, List.getElem?_replicate]
        split <;> rfl
      rw [this]
      rcases Nat.mod_two_eq_zero_or_one j with h | h <;> rw [h] <;> decide
    rw [a4 j (by omega) hj]
    simp only [e0]
    cases sg <;> decide
  · rw [List.getD_eq_getElem?_getD, List.getElem?_eq_none (by omega)]; rfl

theorem inv_zero {a : Fp} {α : ZMod Spec.Csidh.p} (ha : IsElt a α) (s : RoundSt) (x : Fp) (s' : RoundSt) (h : s.A = a ∧ Z s.h0 ∧ Z s.h1)
    (hr : actRound s x = some s') : s'.A = a ∧ Z s'.h0 ∧ Z s'.h1 := by
  obtain ⟨e, h0, h1⟩ := h
  obtain ⟨b, hb⟩ : ∃ b, decide (isNonQuadRes (montEval limbOps s.A x) ≠ 0) = b := ⟨_, rfl⟩
  rw [actRound_zero (e ▸ ha) h0 h1 x b hb] at hr
  cases b with
  | true =>
    simp only [if_true] at hr
    by_cases hd : s.h1.done = true
    · rw [if_pos hd] at hr; cases hr
    · rw [if_neg hd] at hr
      have hr := Option.some.inj hr
      subst hr
      exact ⟨e, h0, h1⟩
  | false =>
    simp only [Bool.false_eq_true, if_false] at hr
    by_cases hd : s.h0.done = true
    · rw [if_pos hd] at hr; cases hr
    · rw [if_neg hd] at hr
      have hr := Option.some.inj hr
      subst hr
      exact ⟨e, h0, h1⟩

/-- the zero key leaves the curve as it is -/
theorem zero_action {a : Fp} {α : ZMod Spec.Csidh.p} (ha : IsElt a α) {rng rest : List Byte} {a' : Fp} (h : groupAction a PrivateKey.zero rng = some (a', rest)) :
    a' = a := by
  rw [groupAction] at h
  match hg : groupActionLog a PrivateKey.zero rng with
  | none => rw [hg] at h; cases h
  | some (s, r) =>
    rw [hg] at h
    simp only [Option.map_some, Option.some.injEq, Prod.mk.injEq] at h
    rw [groupActionLog] at hg
    obtain ⟨z0, -⟩ := start_zero false ⟨fpw 4, List.replicate 74 0, false⟩ rfl rfl
    obtain ⟨z1, -⟩ := start_zero true ⟨fpw 4, List.replicate 74 0, false⟩ rfl rfl
    obtain ⟨H0, e0⟩ : ∃ H, splitKey PrivateKey.zero.e false primes 0 ⟨fpw 4, List.replicate 74 0, false⟩ = H := ⟨_, rfl⟩
    obtain ⟨H1, e1⟩ : ∃ H, splitKey PrivateKey.zero.e true primes 0 ⟨fpw 4, List.replicate 74 0, false⟩ = H := ⟨_, rfl⟩
    rw [e0] at z0
    rw [e1] at z1
    simp only [e0, e1] at hg
    have := (actRounds_inv actRound (fun s => s.A = a ∧ Z s.h0 ∧ Z s.h1) (fun s x s' hs _ hr => inv_zero ha s x s' hs hr) _ rng s r ⟨rfl, z0, z1⟩ hg).1.1
    rw [← h.1, this]

theorem two_rounds (round : RoundSt → Fp → Option RoundSt) {s s1 s2 : RoundSt} {rng r1 r2 : List Byte} {x1 x2 : Fp} (h1 : randFp rng = some (x1, r1))
    (h2 : randFp r1 = some (x2, r2)) (e1 : round s x1 = some s1) (e2 : round s1 x2 = some s2) (d1 : (s1.h0.done && s1.h1.done) = false)
    (d2 : (s2.h0.done && s2.h1.done) = true) : actRounds round s rng = some (s2, r2) := by
  rw [actRounds, h1]
  simp only [e1, d1, Bool.false_eq_true, if_false]
  rw [actRounds, h2]
  simp only [e2, d2, if_true]

theorem ends_zero {a : Fp} {α : ZMod Spec.Csidh.p} (ha : IsElt a α) {rng r1 r2 : List Byte} {x1 x2 : Fp} (h1 : randFp rng = some (x1, r1))
    (h2 : randFp r1 = some (x2, r2)) (b : Bool) (hb1 : decide (isNonQuadRes (montEval limbOps a x1) ≠ 0) = b)
    (hb2 : decide (isNonQuadRes (montEval limbOps a x2) ≠ 0) = !b) (H0 H1 : Half) (z0 : Z H0) (z1 : Z H1) (d0 : H0.done = false) (d1 : H1.done = false) :
    ∃ s, actRounds actRound ⟨a, H0, H1, []⟩ rng = some (s, r2) ∧ s.A = a := by
  have s1 := actRound_zero (s := ⟨a, H0, H1, []⟩) ha z0 z1 x1 b hb1
  cases b with
  | true =>
    have s2 := actRound_zero (s := ⟨a, H0, {H1 with done := true}, []⟩) ha z0 z1 x2 false hb2
    simp only [if_true, d1, Bool.false_eq_true, if_false] at s1
    simp only [Bool.false_eq_true, if_false, d0] at s2
    exact ⟨_, two_rounds actRound h1 h2 s1 s2 (by rw [d0]; rfl) rfl, rfl⟩
  | false =>
    have s2 := actRound_zero (s := ⟨a, {H0 with done := true}, H1, []⟩) ha z0 z1 x2 true hb2
    simp only [d0, Bool.false_eq_true, if_false] at s1
    simp only [if_true, Bool.false_eq_true, if_false, d1] at s2
    exact ⟨_, two_rounds actRound h1 h2 s1 s2 (by rw [d1]; rfl) rfl, rfl⟩

/-- two numbers of the two kinds are enough for the zero key -/
theorem zero_ends {a : Fp} {α : ZMod Spec.Csidh.p} (ha : IsElt a α) {rng r1 r2 : List Byte} {x1 x2 : Fp} (h1 : randFp rng = some (x1, r1))
    (h2 : randFp r1 = some (x2, r2)) (b : Bool) (hb1 : decide (isNonQuadRes (montEval limbOps a x1) ≠ 0) = b)
    (hb2 : decide (isNonQuadRes (montEval limbOps a x2) ≠ 0) = !b) : groupAction a PrivateKey.zero rng = some (a, r2) := by
  obtain ⟨z0, d0⟩ := start_zero false ⟨fpw 4, List.replicate 74 0, false⟩ rfl rfl
  obtain ⟨z1, d1⟩ := start_zero true ⟨fpw 4, List.replicate 74 0, false⟩ rfl rfl
  obtain ⟨s, hs, e⟩ := ends_zero ha h1 h2 b hb1 hb2 _ _ z0 z1 d0 d1
  have hg : groupActionLog a PrivateKey.zero rng = some (s, r2) := hs
  rw [groupAction, hg, Option.map_some, e]

end Lemmas.CsidhZero
