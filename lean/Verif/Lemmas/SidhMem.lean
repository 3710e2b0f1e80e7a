import Verif.Model.SidhMem
/-
Lemmas for Props/SidhMem.
-/
namespace Lemmas.SidhMem
open Model Model.Limb Model.Sidh Model.Sidh.Mem

variable {L : Type} [DecidableEq L]

@[simp] theorem put_ne {V : Type} (m : L → V) {l b : L} (v : V) (h : b ≠ l) : put m l v b = m b := if_neg h
@[simp] theorem put_eq {V : Type} (m : L → V) (l : L) (v : V) : put m l v l = v := if_pos rfl
theorem put_apply {V : Type} (m : L → V) (l b : L) (v : V) : put m l v b = if b = l then v else m b := rfl
@[simp] theorem put_put {V : Type} (m : L → V) (l : L) (v w : V) : put (put m l v) l w = put m l w := by
  funext b
  unfold put
  split <;> rfl

@[simp] theorem setA_A (m : L → Fp2) (l : L) (v : List W64) : (setA m l v l).A = v := by simp [setA]
@[simp] theorem setA_B (m : L → Fp2) (l b : L) (v : List W64) : (setA m l v b).B = (m b).B := by
  unfold setA; split <;> rfl
@[simp] theorem setB_B (m : L → Fp2) (l : L) (v : List W64) : (setB m l v l).B = v := by simp [setB]
@[simp] theorem setB_A (m : L → Fp2) (l b : L) (v : List W64) : (setB m l v b).A = (m b).A := by
  unfold setB; split <;> rfl

theorem setB_setA (m : L → Fp2) (l : L) (a b : List W64) : setB (setA m l a) l b = put m l ⟨a, b⟩ := by
  funext c
  by_cases h : c = l <;> simp [setA, setB, put, h]

theorem setA_setB (m : L → Fp2) (l : L) (a b : List W64) : setA (setB m l b) l a = put m l ⟨a, b⟩ := by
  funext c
  by_cases h : c = l <;> simp [setA, setB, put, h]

variable (P : Prime)

theorem mulPM_spec (dest lhs rhs : L) (m : L → List W64) : mulPM P dest lhs rhs m = put m dest (mulP P (m lhs) (m rhs)) := rfl

theorem sqrTimesM_spec (dest : L) (k : Nat) : ∀ m : L → List W64, sqrTimesM P dest m k = put m dest (sqrTimes P (m dest) k) := by
  induction k with
  | zero =>
    intro m
    funext b
    unfold sqrTimesM sqrTimes put
    split
    · rename_i h; rw [h]
    · rfl
  | succ k ih =>
    intro m
    rw [sqrTimesM, ih, mulPM_spec, put_eq, put_put]
    rfl

theorem p34LoopM_spec (dest : L) (lookup : List (List W64)) (pows : List Nat) : ∀ (muls : List Nat) (m : L → List W64),
    p34LoopM P dest lookup m pows muls = put m dest (p34Loop P lookup (m dest) pows muls) := by
  have h0 : ∀ m : L → List W64, m = put m dest (m dest) := by
    intro m
    funext b
    unfold put
    split
    · rename_i h; rw [h]
    · rfl
  induction pows with
  | nil => intro muls m; simp only [p34LoopM, p34Loop]; exact h0 m
  | cons pw pows ih =>
    intro muls m
    cases muls with
    | nil => simp only [p34LoopM, p34Loop]; exact h0 m
    | cons e muls =>
      simp only [p34LoopM, p34Loop]
      rw [ih, mulPM_spec, sqrTimesM_spec]
      simp only [put_eq, put_put]
      rfl

theorem p34M_spec (dest x : L) (m : L → List W64) : p34M P dest x m = put m dest (p34 P (m x)) := by
  unfold p34M
  dsimp only
  rw [p34LoopM_spec, put_eq, put_put]
  rfl

theorem addM_spec (dest lhs rhs : L) (m : L → Fp2) : addM P dest lhs rhs m = put m dest (add P (m lhs) (m rhs)) := by
  unfold addM
  dsimp only
  rw [setA_B, setA_B, setB_setA]
  rfl

theorem subM_spec (dest lhs rhs : L) (m : L → Fp2) : subM P dest lhs rhs m = put m dest (sub P (m lhs) (m rhs)) := by
  unfold subM
  dsimp only
  rw [setA_B, setA_B, setB_setA]
  rfl

theorem mulM_spec (dest lhs rhs : L) (m : L → Fp2) : mulM P dest lhs rhs m = put m dest (mul P (m lhs) (m rhs)) := by
  unfold mulM
  dsimp only
  rw [setA_setB]
  rfl

theorem sqrM_spec (dest x : L) (m : L → Fp2) : sqrM P dest x m = put m dest (sqr P (m x)) := by
  unfold sqrM
  dsimp only
  rw [setB_setA]
  rfl

theorem invM_spec (dest x : L) (m : L → Fp2) : invM P dest x m = put m dest (inv P (m x)) := by
  unfold invM
  dsimp only
  rw [setA_B, setB_setA, p34M_spec, put_eq]
  rfl

theorem toMontgomeryM_spec (out inp : L) (m : L → Fp2) : toMontgomeryM P out inp m = put m out (toMontgomery P (m inp)) := by
  unfold toMontgomeryM
  dsimp only
  rw [setA_B, setB_setA]
  rfl

theorem fromMontgomeryM_spec (out inp : L) (m : L → Fp2) : fromMontgomeryM P out inp m = put m out (fromMontgomery P (m inp)) := by
  unfold fromMontgomeryM
  dsimp only
  rw [setA_A, setB_B, setA_B, setA_B]
  funext b
  unfold setB setA put
  split
  · rfl
  · rfl

/-- The four locations of `cswap` are different. -/
theorem cswapM_spec {a b c d : L} (hab : a ≠ b) (hac : a ≠ c) (had : a ≠ d) (hbc : b ≠ c) (hbd : b ≠ d) (hcd : c ≠ d) (choice : Byte) (m : L → Fp2) :
    cswapM a b c d choice m =
      put (put (put (put m a (cswap (m a) (m c) choice).1) c (cswap (m a) (m c) choice).2) b (cswap (m b) (m d) choice).1) d (cswap (m b) (m d) choice).2 := by
  unfold cswapM
  dsimp only
  funext l
  simp only [setA, setB, put, cswap, hab, hac, had, hbc, hbd, hcd, hab.symm, hac.symm, had.symm, hbc.symm, hbd.symm, hcd.symm, if_true, if_false]
  by_cases h1 : l = d
  · subst h1; simp [had.symm, hbd.symm, hcd.symm]
  · by_cases h2 : l = b
    · subst h2; simp [hab.symm, hbc, hbd]
    · by_cases h3 : l = c
      · subst h3; simp [hac.symm, hbc.symm, hcd]
      · by_cases h4 : l = a
        · subst h4; simp [hab, hac, had]
        · simp [h1, h2, h3, h4]

variable {F : Type} (o : Ops F)

theorem jinvariantM_spec (A C j : L) (h : j ≠ C) (m : L → F) : jinvariantM o A C j m = put m j (jinvariant o ⟨m A, m C⟩) := by
  unfold jinvariantM
  dsimp only
  simp only [put_eq, put_put, put_ne m _ (Ne.symm h)]
  rfl

theorem recoverCoordinateAM_spec (one : F) (a xp xq xr : L) (h : a ≠ xr) (m : L → F) :
    recoverCoordinateAM o one a xp xq xr m = put m a (recoverCoordinateA o one (m xp) (m xq) (m xr)) := by
  unfold recoverCoordinateAM
  dsimp only
  simp only [put_eq, put_put, put_ne m _ (Ne.symm h)]
  rfl

theorem recoverCurveCoefficients3M_spec (a c A C : L) (h1 : a ≠ A) (h2 : a ≠ C) (m : L → F) :
    recoverCurveCoefficients3M o a c A C m =
      put (put m a (recoverCurveCoefficients3 o ⟨m A, m C⟩).A) c (recoverCurveCoefficients3 o ⟨m A, m C⟩).C := by
  unfold recoverCurveCoefficients3M
  dsimp only
  simp only [put_eq, put_put, put_ne m _ (Ne.symm h1), put_ne m _ (Ne.symm h2)]
  rfl

theorem recoverCurveCoefficients4M_spec (half : F) (a c A C : L) (h1 : c ≠ A) (h2 : c ≠ a) (m : L → F) :
    recoverCurveCoefficients4M o half a c A C m =
      put (put m a (recoverCurveCoefficients4 o half ⟨m A, m C⟩).A) c (recoverCurveCoefficients4 o half ⟨m A, m C⟩).C := by
  unfold recoverCurveCoefficients4M
  dsimp only
  rw [put_eq, put_ne m _ (Ne.symm h1), put_ne _ _ h2, put_eq]
  funext b
  unfold put
  by_cases hb : b = c
  · simp only [hb, if_true]; rfl
  · simp only [hb, if_false]; rfl

/-- What `Pow2k` and `Pow3k` read and write. -/
structure Apart (x z A C : L) : Prop where
  xz : x ≠ z
  xA : x ≠ A
  xC : x ≠ C
  zA : z ≠ A
  zC : z ≠ C

theorem put_self {V : Type} (m : L → V) (l : L) : put m l (m l) = m := by
  funext b
  unfold put
  split
  · rename_i h; rw [h]
  · rfl

theorem put_comm {V : Type} (m : L → V) {l k : L} (h : l ≠ k) (v w : V) : put (put m l v) k w = put (put m k w) l v := by
  funext b
  unfold put
  by_cases h1 : b = k
  · have : b ≠ l := fun e => h (e.symm.trans h1)
    simp [h1, this, h.symm]
  · simp [h1]

theorem dblStepM_spec {x z A C : L} (h : Apart x z A C) (m : L → F) :
    dblStepM o x z A C m = put (put m x (dblStep o ⟨m A, m C⟩ ⟨m x, m z⟩).X) z (dblStep o ⟨m A, m C⟩ ⟨m x, m z⟩).Z := by
  unfold dblStepM
  dsimp only
  simp only [put_eq, put_put, put_ne _ _ h.xA.symm, put_ne _ _ h.zA.symm, put_ne _ _ h.xz.symm]
  rw [put_comm _ h.xz.symm, put_put]
  rfl

theorem pow2kM_spec {x z A C : L} (h : Apart x z A C) (k : Nat) : ∀ m : L → F,
    pow2kM o x z A C k m = put (put m x (pow2k o ⟨m A, m C⟩ k ⟨m x, m z⟩).X) z (pow2k o ⟨m A, m C⟩ k ⟨m x, m z⟩).Z := by
  induction k with
  | zero =>
    intro m
    simp only [pow2kM, pow2k]
    rw [put_self, put_self]
  | succ k ih =>
    intro m
    simp only [pow2kM, pow2k]
    rw [ih, dblStepM_spec o h]
    simp only [put_eq, put_ne _ _ h.xA.symm, put_ne _ _ h.zA.symm, put_ne _ _ h.xC.symm, put_ne _ _ h.zC.symm, put_ne _ _ h.xz]
    rw [put_comm _ h.xz.symm, put_put, put_put]

theorem tplStepM_spec {x z A C : L} (m : L → F) :
    tplStepM o x z A C m = put (put m x (tplStep o ⟨m A, m C⟩ ⟨m x, m z⟩).X) z (tplStep o ⟨m A, m C⟩ ⟨m x, m z⟩).Z := rfl

theorem pow3kM_spec {x z A C : L} (h : Apart x z A C) (k : Nat) : ∀ m : L → F,
    pow3kM o x z A C k m = put (put m x (pow3k o ⟨m A, m C⟩ k ⟨m x, m z⟩).X) z (pow3k o ⟨m A, m C⟩ k ⟨m x, m z⟩).Z := by
  induction k with
  | zero =>
    intro m
    simp only [pow3kM, pow3k]
    rw [put_self, put_self]
  | succ k ih =>
    intro m
    simp only [pow3kM, pow3k]
    rw [ih, tplStepM_spec o]
    simp only [put_eq, put_ne _ _ h.xA.symm, put_ne _ _ h.zA.symm, put_ne _ _ h.xC.symm, put_ne _ _ h.zC.symm, put_ne _ _ h.xz]
    rw [put_comm _ h.xz.symm, put_put, put_put]

theorem batch3InvM_spec (x1 x2 x3 y1 y2 y3 : L) (h1 : y1 ≠ x1) (h2 : y1 ≠ x3) (h3 : y2 ≠ x3) (m : L → F) :
    batch3InvM o x1 x2 x3 y1 y2 y3 m =
      put (put (put m y1 (batch3Inv o (m x1) (m x2) (m x3)).1) y2 (batch3Inv o (m x1) (m x2) (m x3)).2.1) y3
        (batch3Inv o (m x1) (m x2) (m x3)).2.2 := by
  unfold batch3InvM
  dsimp only
  simp only [put_eq, put_put, put_ne _ _ h1.symm, put_ne _ _ h2.symm, put_ne _ _ h3.symm]
  rfl

end Lemmas.SidhMem
