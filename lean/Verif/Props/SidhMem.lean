import Verif.Lemmas.SidhMem
import Verif.Props.SidhFp2
/-
C111, SIDH: destinations that are also operands.  `Model.Sidh.Mem` has fp2.go and the in-place routines of curve.go on a
memory that maps locations to elements; `m l` is what location `l` holds.  The statements are for every memory and every
choice of locations, equal or not, except where a hypothesis keeps two apart.
-/
namespace Props.SidhMem
open Model Model.Limb Model.Sidh Model.Sidh.Mem Spec Spec.Sidh Lemmas.SidhArith Lemmas.SidhGood Lemmas.SidhFp2 Lemmas.SidhMem Props.SidhFp2

variable {L : Type} [DecidableEq L]

/-- C111. The operations of F_{p²} are right wherever the result goes: to an operand, to both, or elsewhere. -/
theorem c111_field (f : Fld) (d x y : L) (m : L → Fp2) (a b : Fq f) (hx : IsElt f (m x) a) (hy : IsElt f (m y) b) :
    IsElt f (addM (primeOf f) d x y m d) (a + b) ∧ IsElt f (subM (primeOf f) d x y m d) (a - b) ∧
    IsElt f (mulM (primeOf f) d x y m d) (a * b) ∧ IsElt f (sqrM (primeOf f) d x m d) (a ^ 2) ∧
    IsElt f (invM (primeOf f) d x m d) a⁻¹ := by
  rw [addM_spec, subM_spec, mulM_spec, sqrM_spec, invM_spec, put_eq, put_eq, put_eq, put_eq, put_eq]
  exact c43_field f (m x) (m y) a b hx hy

/-- C111. They change nothing but their destination. -/
theorem c111_frame (P : Prime) (d x y l : L) (m : L → Fp2) (h : l ≠ d) :
    addM P d x y m l = m l ∧ subM P d x y m l = m l ∧ mulM P d x y m l = m l ∧ sqrM P d x m l = m l ∧ invM P d x m l = m l ∧
    toMontgomeryM P d x m l = m l ∧ fromMontgomeryM P d x m l = m l := by
  rw [addM_spec, subM_spec, mulM_spec, sqrM_spec, invM_spec, toMontgomeryM_spec, fromMontgomeryM_spec]
  simp only [put_ne _ _ h, and_self]

/-- C111. The conversions to and from Montgomery form may work in place. -/
theorem c111_montgomery (P : Prime) (d x : L) (m : L → Fp2) :
    toMontgomeryM P d x m d = toMontgomery P (m x) ∧ fromMontgomeryM P d x m d = fromMontgomery P (m x) := by
  rw [toMontgomeryM_spec, fromMontgomeryM_spec, put_eq, put_eq]
  exact ⟨rfl, rfl⟩

/-- C111. The power (p−3)/4 in the inversion may overwrite its argument. -/
theorem c111_p34 (P : Prime) (d x l : L) (m : L → List W64) : p34M P d x m l = if l = d then p34 P (m x) else m l := by
  rw [p34M_spec]
  rfl

/-- C111. The conditional swap of four different elements. -/
theorem c111_cswap (a b c d : L) (hab : a ≠ b) (hac : a ≠ c) (had : a ≠ d) (hbc : b ≠ c) (hbd : b ≠ d) (hcd : c ≠ d) (choice : Byte) (m : L → Fp2) (l : L) :
    cswapM a b c d choice m l =
      if l = a then (cswap (m a) (m c) choice).1 else if l = c then (cswap (m a) (m c) choice).2
      else if l = b then (cswap (m b) (m d) choice).1 else if l = d then (cswap (m b) (m d) choice).2 else m l := by
  rw [cswapM_spec hab hac had hbc hbd hcd]
  unfold put
  by_cases h1 : l = a
  · subst h1; simp [hab, hac, had]
  · by_cases h2 : l = c
    · subst h2; simp [hcd, hac.symm, hbc.symm]
    · by_cases h3 : l = b
      · subst h3; simp [hbd, hab.symm, hbc]
      · simp [h1, h2, h3]

variable {F : Type} (o : Ops F)

/-- C111. The j-invariant may overwrite A, not C. -/
theorem c111_jinvariant (A C j : L) (h : j ≠ C) (m : L → F) (l : L) :
    jinvariantM o A C j m l = if l = j then jinvariant o ⟨m A, m C⟩ else m l := by
  rw [jinvariantM_spec o A C j h]
  rfl

/-- C111. The coefficient of the curve may overwrite the x of P or of Q, not that of the difference. -/
theorem c111_coordinateA (one : F) (a xp xq xr : L) (h : a ≠ xr) (m : L → F) (l : L) :
    recoverCoordinateAM o one a xp xq xr m l = if l = a then recoverCoordinateA o one (m xp) (m xq) (m xr) else m l := by
  rw [recoverCoordinateAM_spec o one a xp xq xr h]
  rfl

/-- C111. The coefficients from the two equivalent forms. -/
theorem c111_coefficients (half : F) (a c A C : L) (h1 : a ≠ A) (h2 : a ≠ C) (h3 : c ≠ A) (h4 : c ≠ a) (m : L → F) (l : L) :
    recoverCurveCoefficients3M o a c A C m l =
      (if l = a then (recoverCurveCoefficients3 o ⟨m A, m C⟩).A else if l = c then (recoverCurveCoefficients3 o ⟨m A, m C⟩).C else m l) ∧
    recoverCurveCoefficients4M o half a c A C m l =
      (if l = a then (recoverCurveCoefficients4 o half ⟨m A, m C⟩).A else if l = c then (recoverCurveCoefficients4 o half ⟨m A, m C⟩).C else m l) := by
  rw [recoverCurveCoefficients3M_spec o a c A C h1 h2, recoverCurveCoefficients4M_spec o half a c A C h3 h4]
  unfold put
  by_cases h : l = c
  · subst h; simp [h4]
  · simp [h]

/-- C111. Repeated doubling and tripling overwrite the point, for every number of repetitions; the locations of the
coordinates x, z of the point and of the coefficients A, C differ. -/
theorem c111_powers (x z A C : L) (h1 : x ≠ z) (h2 : x ≠ A) (h3 : x ≠ C) (h4 : z ≠ A) (h5 : z ≠ C) (k : Nat) (m : L → F) (l : L) :
    pow2kM o x z A C k m l =
      (if l = x then (pow2k o ⟨m A, m C⟩ k ⟨m x, m z⟩).X else if l = z then (pow2k o ⟨m A, m C⟩ k ⟨m x, m z⟩).Z else m l) ∧
    pow3kM o x z A C k m l =
      (if l = x then (pow3k o ⟨m A, m C⟩ k ⟨m x, m z⟩).X else if l = z then (pow3k o ⟨m A, m C⟩ k ⟨m x, m z⟩).Z else m l) := by
  rw [pow2kM_spec o ⟨h1, h2, h3, h4, h5⟩, pow3kM_spec o ⟨h1, h2, h3, h4, h5⟩]
  unfold put
  by_cases h : l = z
  · subst h; simp [h1.symm]
  · simp [h]

/-- C111. The three inverses may overwrite the arguments, except that the first may not go over x1 or x3 and the second not
over x3. -/
theorem c111_batch (x1 x2 x3 y1 y2 y3 : L) (h1 : y1 ≠ x1) (h2 : y1 ≠ x3) (h3 : y2 ≠ x3) (h12 : y1 ≠ y2) (h13 : y1 ≠ y3) (h23 : y2 ≠ y3)
    (m : L → F) (l : L) :
    batch3InvM o x1 x2 x3 y1 y2 y3 m l =
      if l = y1 then (batch3Inv o (m x1) (m x2) (m x3)).1 else if l = y2 then (batch3Inv o (m x1) (m x2) (m x3)).2.1
      else if l = y3 then (batch3Inv o (m x1) (m x2) (m x3)).2.2 else m l := by
  rw [batch3InvM_spec o x1 x2 x3 y1 y2 y3 h1 h2 h3]
  unfold put
  by_cases h : l = y1
  · subst h; simp [h12, h13]
  · by_cases h' : l = y2
    · subst h'; simp [h23, h]
    · simp [h, h']

/-! ### The calls of the code, and calls that would go wrong -/

/-- `sqr(&t3, &t3)` and `mul(&t4, &t3, &t4)`, for every element -/
example (f : Fld) (a b : Fq f) : ∃ m : Bool → Fp2, IsElt f (sqrM (primeOf f) true true m true) (a ^ 2) ∧
    IsElt f (mulM (primeOf f) true false true m true) (b * a) := by
  obtain ⟨x, hx⟩ := c43_total f a
  obtain ⟨y, hy⟩ := c43_total f b
  refine ⟨fun l => if l then x else y, (c111_field f true true true _ a a hx hx).2.2.2.1, (c111_field f true false true _ b a hy hx).2.2.1⟩

/-- The numbers with their operations. -/
def intOps : Ops Int where
  add := (· + ·)
  sub := (· - ·)
  mul := (· * ·)
  sqr := fun a => a * a
  inv := fun a => a
  cswap := fun a b c => if c = 0 then (a, b) else (b, a)

/-- core.go:184, 217: the three inverses to new places -/
example (m : Fin 6 → Int) : batch3InvM intOps (0 : Fin 6) 1 2 3 4 5 m 4 = (batch3Inv intOps (m 0) (m 1) (m 2)).2.1 := by
  rw [c111_batch intOps 0 1 2 3 4 5 (by decide) (by decide) (by decide) (by decide) (by decide) (by decide)]
  rfl

/-- Four triplings in place -/
example (m : Fin 4 → Int) : pow3kM intOps (0 : Fin 4) 1 2 3 4 m 0 = (pow3k intOps ⟨m 2, m 3⟩ 4 ⟨m 0, m 1⟩).X :=
  ((c111_powers intOps 0 1 2 3 (by decide) (by decide) (by decide) (by decide) (by decide) 4 m 0).2).trans (if_pos rfl)

/-- C111. The hypotheses are needed. -/
theorem c111_needed :
    (∃ m : Fin 2 → Int, jinvariantM intOps 0 1 1 m 1 ≠ jinvariant intOps ⟨m 0, m 1⟩) ∧
    (∃ m : Fin 3 → Int, recoverCoordinateAM intOps 1 2 0 1 2 m 2 ≠ recoverCoordinateA intOps 1 (m 0) (m 1) (m 2)) ∧
    (∃ m : Fin 5 → Int, batch3InvM intOps 0 1 2 0 3 4 m 3 ≠ (batch3Inv intOps (m 0) (m 1) (m 2)).2.1) := by
  refine ⟨⟨fun l => l.val + 2, ?_⟩, ⟨fun l => l.val + 2, ?_⟩, ⟨fun l => l.val + 2, ?_⟩⟩ <;> decide

end Props.SidhMem
