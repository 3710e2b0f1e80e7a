import Verif.Lemmas.SidhLimb
import Verif.Lemmas.SidhIso
/-!
C46–C51: the curve code of SIDH and key agreement.

`W A` is the curve y² = x³ + A x² + x over F_{p²} as a Weierstrass curve of Mathlib, with Mathlib's group of points,
and `xc P` the x-coordinate of a point (0 for infinity, so that `xc P ≠ 0` says that P is neither infinity nor (0, 0)).
The routines are those on word arrays: `limbOps (primeOf f)` is the arithmetic of the package of field f.
-/
namespace Props.SidhCurve
open Model Model.Sidh Spec Spec.Sidh Verif.XOnly Lemmas.SidhGood Lemmas.SidhFp2 Lemmas.SidhNat Lemmas.SidhX Lemmas.SidhTotal Lemmas.SidhIso
open Lemmas.SidhLimb Lemmas.SidhWalk Props.SidhFp2 Props.SidhKeys Lemmas.SidhBytes

/-! ### what the word arrays stand for -/

/-- `p` holds projective coordinates (X : Z) of the x-coordinate of `P`; infinity is (X : 0) with X ≠ 0. -/
def HasX (f : Fld) {A : Fq f} (P : (W A).Point) (p : Pt Fp2) : Prop :=
  ∃ X Z : Fq f, IsElt f p.X X ∧ IsElt f p.Z Z ∧ (P = 0 → X ≠ 0 ∧ Z = 0) ∧ (P ≠ 0 → Z ≠ 0 ∧ X = xc P * Z)

/-- `p` holds projective coordinates of the field element `x`. -/
def HasVal (f : Fld) (x : Fq f) (p : Pt Fp2) : Prop :=
  ∃ X Z : Fq f, IsElt f p.X X ∧ IsElt f p.Z Z ∧ Z ≠ 0 ∧ X = x * Z

/-- `c` holds the coefficient `A` as a quotient A : 1. -/
def HasA (f : Fld) (A : Fq f) (c : Coef Fp2) : Prop :=
  ∃ a b : Fq f, IsElt f c.A a ∧ IsElt f c.C b ∧ b ≠ 0 ∧ a = A * b

/-- `c` holds A + 2 : 4. -/
def HasA4 (f : Fld) (A : Fq f) (c : Coef Fp2) : Prop :=
  ∃ a b : Fq f, IsElt f c.A a ∧ IsElt f c.C b ∧ b ≠ 0 ∧ 4 * a = (A + 2) * b

/-- `c` holds A + 2 : A − 2. -/
def HasA3 (f : Fld) (A : Fq f) (c : Coef Fp2) : Prop :=
  ∃ a b : Fq f, IsElt f c.A a ∧ IsElt f c.C b ∧ ¬ (a = 0 ∧ b = 0) ∧ a * (A - 2) = b * (A + 2)

variable {f : Fld} {A : Fq f}

theorem hasX_iff {P : (W A).Point} {p : Pt Fp2} : HasX f P p ↔ ∃ p', RPt (IsElt f) p p' ∧ PX P p' := by
  constructor
  · rintro ⟨X, Z, h1, h2, h3, h4⟩
    exact ⟨⟨X, Z⟩, ⟨h1, h2⟩, ⟨h3, fun h => ⟨(h4 h).1, (h4 h).2⟩⟩⟩
  · rintro ⟨⟨X, Z⟩, ⟨h1, h2⟩, h3, h4⟩
    exact ⟨X, Z, h1, h2, h3, fun h => ⟨(h4 h).Z, (h4 h).X⟩⟩

theorem hasVal_iff {x : Fq f} {p : Pt Fp2} : HasVal f x p ↔ ∃ p', RPt (IsElt f) p p' ∧ Rep p' x := by
  constructor
  · rintro ⟨X, Z, h1, h2, h3, h4⟩
    exact ⟨⟨X, Z⟩, ⟨h1, h2⟩, ⟨h3, h4⟩⟩
  · rintro ⟨⟨X, Z⟩, ⟨h1, h2⟩, h3, h4⟩
    exact ⟨X, Z, h1, h2, h3, h4⟩

theorem hasA_iff {c : Coef Fp2} : HasA f A c ↔ ∃ c', RCoef (IsElt f) c c' ∧ IsA c' A := by
  constructor
  · rintro ⟨X, Z, h1, h2, h3, h4⟩
    exact ⟨⟨X, Z⟩, ⟨h1, h2⟩, ⟨h3, h4⟩⟩
  · rintro ⟨⟨X, Z⟩, ⟨h1, h2⟩, h3, h4⟩
    exact ⟨X, Z, h1, h2, h3, h4⟩

theorem hasA4_iff {c : Coef Fp2} : HasA4 f A c ↔ ∃ c', RCoef (IsElt f) c c' ∧ IsA4 c' A := by
  constructor
  · rintro ⟨X, Z, h1, h2, h3, h4⟩
    exact ⟨⟨X, Z⟩, ⟨h1, h2⟩, ⟨h3, h4⟩⟩
  · rintro ⟨⟨X, Z⟩, ⟨h1, h2⟩, h3, h4⟩
    exact ⟨X, Z, h1, h2, h3, h4⟩

theorem hasA3_iff {c : Coef Fp2} : HasA3 f A c ↔ ∃ c', RCoef (IsElt f) c c' ∧ IsA3 c' A := by
  constructor
  · rintro ⟨X, Z, h1, h2, h3, h4⟩
    exact ⟨⟨X, Z⟩, ⟨h1, h2⟩, ⟨h3, h4⟩⟩
  · rintro ⟨⟨X, Z⟩, ⟨h1, h2⟩, h3, h4⟩
    exact ⟨X, Z, h1, h2, h3, h4⟩

theorem two (f : Fld) : (2 : Fq f) ≠ 0 := Lemmas.SidhBase.two_ne f

theorem neT (hA : A ^ 2 ≠ 4) {P : (W A).Point} (h : xc P ≠ 0) : P ≠ T0 (two f) hA := by
  rintro rfl; exact h rfl

theorem ne0 {P : (W A).Point} (h : xc P ≠ 0) : P ≠ 0 := by
  rintro rfl; exact h rfl

theorem eqT (hA : A ^ 2 ≠ 4) {T : (W A).Point} (h0 : T ≠ 0) (h : xc T = 0) : T = T0 (two f) hA := by
  cases T with
  | zero => exact absurd rfl h0
  | some x y hs =>
    change x = 0 at h
    subst h
    have := (W_equation _ _ _).mp hs.1
    have hy : y = 0 := by simpa using this
    subst hy
    rfl

/-- Every curve coefficient, point and field element has a representation in words. -/
theorem reps (f : Fld) (A : Fq f) : (∃ c, HasA f A c) ∧ (∃ c, HasA4 f A c) ∧ (∃ c, HasA3 f A c) ∧ (∀ x, ∃ p, HasVal f x p) ∧
    ∀ P : (W A).Point, ∃ p, HasX f P p := by
  obtain ⟨o, ho⟩ := c43_total f 1
  obtain ⟨z, hz⟩ := c43_total f 0
  obtain ⟨a, ha⟩ := c43_total f A
  obtain ⟨a2, ha2⟩ := c43_total f (A + 2)
  obtain ⟨b2, hb2⟩ := c43_total f (A - 2)
  obtain ⟨q, hq⟩ := c43_total f 4
  have h4 := four_ne (two f)
  refine ⟨⟨⟨a, o⟩, A, 1, ha, ho, one_ne_zero, by ring⟩, ⟨⟨a2, q⟩, A + 2, 4, ha2, hq, h4, by ring⟩,
    ⟨⟨a2, b2⟩, A + 2, A - 2, ha2, hb2, ?_, by ring⟩, fun x => ?_, fun P => ?_⟩
  · rintro ⟨h1, h2⟩
    exact h4 (by linear_combination h1 - h2)
  · obtain ⟨x', hx⟩ := c43_total f x
    exact ⟨⟨x', o⟩, x, 1, hx, ho, one_ne_zero, by ring⟩
  · by_cases h : P = 0
    · exact ⟨⟨o, z⟩, 1, 0, ho, hz, fun _ => ⟨one_ne_zero, rfl⟩, fun h' => absurd h h'⟩
    · obtain ⟨x', hx⟩ := c43_total f (xc P)
      exact ⟨⟨x', o⟩, xc P, 1, hx, ho, fun h' => absurd h' h, fun _ => ⟨one_ne_zero, by ring⟩⟩

/-! ### C46 -/

/-- C46. `Pow2k` computes the x-coordinate of 2^k P, for all curves and all points including infinity. -/
theorem c46_double (f : Fld) (A : Fq f) (hA : A ^ 2 ≠ 4) (c : Coef Fp2) (hc : HasA4 f A c) (P : (W A).Point) (p : Pt Fp2) (hp : HasX f P p) (k : Nat) :
    HasX f ((2 ^ k) • P) (pow2k (limbOps (primeOf f)) c k p) := by
  obtain ⟨c', hr, hc'⟩ := hasA4_iff.mp hc
  obtain ⟨p', hq, hp'⟩ := hasX_iff.mp hp
  exact hasX_iff.mpr ⟨_, pow2k_rel (opsRel f) hr k hq, pow2k_tot (two f) hA hc' k hp'⟩

/-- C46. `Pow3k` computes the x-coordinate of 3^k P, for all curves and all points including infinity. -/
theorem c46_triple (f : Fld) (A : Fq f) (hA : A ^ 2 ≠ 4) (c : Coef Fp2) (hc : HasA3 f A c) (P : (W A).Point) (p : Pt Fp2) (hp : HasX f P p) (k : Nat) :
    HasX f ((3 ^ k) • P) (pow3k (limbOps (primeOf f)) c k p) := by
  obtain ⟨c', hr, hc'⟩ := hasA3_iff.mp hc
  obtain ⟨p', hq, hp'⟩ := hasX_iff.mp hp
  exact hasX_iff.mpr ⟨_, pow3k_rel (opsRel f) hr k hq, pow3k_tot (two f) hA hc' k hp'⟩

/-- C46. `xDbladd` computes the x-coordinates of 2P and, when P − Q is neither infinity nor (0, 0), of P + Q; P, Q and
P + Q may be infinity. -/
theorem c46_dbladd (f : Fld) (A : Fq f) (hA : A ^ 2 ≠ 4) (c : Coef Fp2) (hc : HasA f A c) (P Q : (W A).Point) (p q d : Pt Fp2) (hp : HasX f P p)
    (hq : HasX f Q q) (hd : HasX f (P - Q) d) :
    let r := xDbladd (limbOps (primeOf f)) p q d (calcAplus2Over4 (limbOps (primeOf f)) c)
    HasX f (2 • P) r.1 ∧ (xc (P - Q) ≠ 0 → HasX f (P + Q) r.2) := by
  obtain ⟨c', hr, hc'⟩ := hasA_iff.mp hc
  obtain ⟨p', hrp, hp'⟩ := hasX_iff.mp hp
  obtain ⟨q', hrq, hq'⟩ := hasX_iff.mp hq
  obtain ⟨d', hrd, hd'⟩ := hasX_iff.mp hd
  obtain ⟨h1, h2⟩ := xDbladd_rel (opsRel f) hrp hrq hrd (calcAplus2Over4_rel (opsRel f) hr)
  refine ⟨?_, fun h => ?_⟩
  · rw [two_smul]
    exact hasX_iff.mpr ⟨_, h1, xdbl_tot (two f) hA (aplus2 (four_ne (two f)) hc') hp' _ _⟩
  · exact hasX_iff.mpr ⟨_, h2, xadd_tot (two f) hA _ hp' hq' hd' (ne0 h) (neT hA h)⟩

/-- The points P_A, Q_A, P_B, Q_B of the parameter tables meet the hypotheses of C46–C49: on the curve with A = 6 no
P + [z]Q is infinity or (0, 0), and the multiples of P + [z]Q by 4^n and 3^m (n and m the lengths of the strategy
tables) have order 4 and 3. -/
theorem start (f : Fld) (z : ℤ) : (6 : Fq f) ^ 2 ≠ 4 ∧
    xc (Lemmas.SidhBase.PA f + z • Lemmas.SidhBase.QA f) ≠ 0 ∧ xc (Lemmas.SidhBase.PB f + z • Lemmas.SidhBase.QB f) ≠ 0 ∧
    (let κ := (4 ^ (paramsOf f).A.isogenyStrategy.length) • (Lemmas.SidhBase.PA f + z • Lemmas.SidhBase.QA f); 4 • κ = 0 ∧ xc (2 • κ) ≠ 0) ∧
    (let κ := (3 ^ (paramsOf f).B.isogenyStrategy.length) • (Lemmas.SidhBase.PB f + z • Lemmas.SidhBase.QB f); 3 • κ = 0 ∧ κ ≠ 0) := by
  have B := basis_ok f
  have X := Lemmas.SidhBase.X0 f
  have hx : ∀ P : (Lemmas.SidhBase.E f).Point, P ∉ (⊥ : AddSubgroup _) → P - Lemmas.SidhBase.T f ∉ (⊥ : AddSubgroup _) → xc P ≠ 0 :=
    fun P h1 h2 => X.ne_zero h1 h2
  refine ⟨Lemmas.SidhBase.six_sq f, ?_, ?_, ?_, ?_⟩
  · have I := B.indepA (N := ⊥) bot_le
    exact hx _ (I.ne z) (I.neT z)
  · have I := B.indepB (N := ⊥) bot_le
    exact hx _ (I.ne z) (I.neT z)
  · have I := B.ker4 (N := ⊥) bot_le z
    have h4 := (AddSubgroup.mem_bot).mp I.four
    refine ⟨?_, ?_⟩
    · rw [show (4 : Nat) = 2 + 2 from rfl, add_smul, two_smul]; exact h4
    · rw [two_smul]
      exact hx _ I.ne I.neT
  · have I := B.ker3 (N := ⊥) bot_le z
    have h3 := (AddSubgroup.mem_bot).mp I.three
    refine ⟨?_, fun h => I.ne ((AddSubgroup.mem_bot).mpr h)⟩
    rw [show (3 : Nat) = 2 + 1 from rfl, add_smul, two_smul, one_smul]; exact h3

/-- Non-vacuity of C46: points in words, with difference neither infinity nor (0, 0). -/
example (f : Fld) : ∃ (P Q : (W (6 : Fq f)).Point) (p q d : Pt Fp2) (c : Coef Fp2), (6 : Fq f) ^ 2 ≠ 4 ∧ HasA f 6 c ∧ HasX f P p ∧ HasX f Q q ∧
    HasX f (P - Q) d ∧ xc (P - Q) ≠ 0 := by
  obtain ⟨⟨c, hc⟩, _, _, _, h⟩ := reps f 6
  obtain ⟨p, hp⟩ := h (Lemmas.SidhBase.PA f)
  obtain ⟨q, hq⟩ := h (Lemmas.SidhBase.QA f)
  obtain ⟨d, hd⟩ := h (Lemmas.SidhBase.PA f - Lemmas.SidhBase.QA f)
  refine ⟨_, _, p, q, d, c, (start f 0).1, hc, hp, hq, hd, ?_⟩
  have := (start f (-1)).2.1
  rwa [neg_one_smul, ← sub_eq_add_neg] at this

/-! ### C47 -/

/-- C47. The three-point ladder returns the x-coordinate of P + [k]Q, k the number in the `n` low bits of the scalar,
provided no P + [z]Q with |z| < 2^n is infinity or (0, 0). -/
theorem c47_ladder (f : Fld) (A : Fq f) (hA : A ^ 2 ≠ 4) (c : Coef Fp2) (hc : HasA f A c) (P Q : (W A).Point) (p q d : Pt Fp2) (hp : HasX f P p)
    (hq : HasX f Q q) (hd : HasX f (P - Q) d) (scalar : List Byte) (n : Nat) (hn : n ≤ 8 * scalar.length)
    (hne : ∀ z : ℤ, |z| < 2 ^ n → xc (P + z • Q) ≠ 0) :
    ∃ r, scalarMul3Pt (limbOps (primeOf f)) c p q d n scalar = some r ∧ HasX f (P + (bval scalar % 2 ^ n) • Q) r := by
  obtain ⟨c', hr, hc'⟩ := hasA_iff.mp hc
  obtain ⟨p', hrp, hp'⟩ := hasX_iff.mp hp
  obtain ⟨q', hrq, hq'⟩ := hasX_iff.mp hq
  obtain ⟨d', hrd, hd'⟩ := hasX_iff.mp hd
  obtain ⟨x, h1, h2⟩ := scalarMul3Pt_tot (two f) hA hc' scalar n hn (fun z hz => ⟨ne0 (hne z hz), neT hA (hne z hz)⟩) hp' hq' hd'
  have h3 := scalarMul3Pt_rel (opsRel f) hr hrp hrq hrd n scalar
  rw [h1] at h3
  obtain ⟨r, h4, h5⟩ := ropt_some h3
  rw [natCast_zsmul] at h2
  exact ⟨r, h4, hasX_iff.mpr ⟨_, h5, h2⟩⟩

/-- C47. A scalar with fewer bytes than the ladder reads is a panic. -/
theorem c47_short (f : Fld) (c : Coef Fp2) (p q d : Pt Fp2) (scalar : List Byte) (n : Nat) (hn : 8 * scalar.length < n) :
    scalarMul3Pt (limbOps (primeOf f)) c p q d n scalar = none := by
  have key : ∀ (k i : Nat) (a : Fp2) (r0 r1 r2 : Pt Fp2) (b : Byte), i ≤ 8 * scalar.length → 8 * scalar.length < i + k →
      ladderLoop (limbOps (primeOf f)) a scalar i k r0 r1 r2 b = none := by
    intro k
    induction k with
    | zero => intro i _ _ _ _ _ h1 h2; omega
    | succ k ih =>
      intro i a r0 r1 r2 b h1 h2
      rw [ladderLoop]
      by_cases h : i = 8 * scalar.length
      · have : scalarBit scalar i = none := by
          rw [scalarBit, List.getElem?_eq_none (by omega)]; rfl
        rw [this]; rfl
      · cases hb : scalarBit scalar i with
        | none => rfl
        | some bit => exact ih (i + 1) _ _ _ _ _ (by omega) (by omega)
  rw [scalarMul3Pt]
  simp only [Option.bind_eq_bind]
  rw [key n 0 _ _ _ _ _ (by omega) (by omega)]
  rfl

/-- Non-vacuity of C47: the points of the tables, with every scalar of enough bytes. -/
example (f : Fld) (n : Nat) : ∀ z : ℤ, |z| < 2 ^ n → xc (Lemmas.SidhBase.PA f + z • Lemmas.SidhBase.QA f) ≠ 0 := fun z _ => (start f z).2.1

/-! ### C48 -/

/-- C48. 3-isogenies.  For a point κ of order 3 the routines return the coefficient of a nonsingular curve and evaluate
a map that is the x-coordinate on that curve of the quotient by ⟨κ⟩: it follows the laws of doubling and differential
addition (`XRep`).  Points of ⟨κ⟩ go to infinity. -/
theorem c48_three (f : Fld) (A : Fq f) (hA : A ^ 2 ≠ 4) (κ : (W A).Point) (hκ : κ ≠ 0) (h3 : 3 • κ = 0) (k : Pt Fp2) (hk : HasX f κ k) :
    ∃ (A' : Fq f) (g : (W A).Point → Fq f), A' ^ 2 ≠ 4 ∧ HasA3 f A' (gen3 (limbOps (primeOf f)) k).1 ∧
      (∀ T, T ≠ 0 → xc T = 0 → XRep A' (AddSubgroup.zmultiples κ) T g) ∧
      (∀ (P : (W A).Point) (p : Pt Fp2), HasX f P p → P ∉ AddSubgroup.zmultiples κ →
        HasVal f (g P) (eval3 (limbOps (primeOf f)) (gen3 (limbOps (primeOf f)) k).2 p)) ∧
      (∀ (P : (W A).Point) (p : Pt Fp2), HasX f P p → P ∈ AddSubgroup.zmultiples κ →
        IsElt f (eval3 (limbOps (primeOf f)) (gen3 (limbOps (primeOf f)) k).2 p).Z 0) := by
  have h3' : κ + κ + κ = 0 := by rw [← h3, show (3 : Nat) = 2 + 1 from rfl, add_smul, two_smul, one_smul]
  have hker : Ker3 (⊥ : AddSubgroup (W A).Point) κ := ⟨(AddSubgroup.mem_bot).mpr h3', bot.mpr hκ⟩
  have X := baseX (two f) hA
  obtain ⟨k', hr, hk'⟩ := hasX_iff.mp hk
  have hkr := hk'.fin hκ
  obtain ⟨h1, h2⟩ := gen3_rel (opsRel f) hr
  refine ⟨coef3 A (xc κ), fun P => phi3 (xc κ) (xc P), coef3_ns (two f) hA h3' hκ, hasA3_iff.mpr ⟨_, h1, gen3_rep (two f) hkr (hker.psi X)⟩, ?_, ?_, ?_⟩
  · intro T hT0 hT
    have := X.step3 hker
    rw [bot_sup] at this
    rw [eqT hA hT0 hT]; exact this
  · intro P p hp hP
    obtain ⟨p', hrp, hp'⟩ := hasX_iff.mp hp
    have hP0 : P ≠ 0 := by rintro rfl; exact hP (AddSubgroup.zero_mem _)
    exact hasVal_iff.mpr ⟨_, eval3_rel (opsRel f) h2 hrp, eval3_rep (four_ne (two f)) hkr (hp'.fin hP0) (hker.x_ne X (by rw [bot_sup]; exact hP))⟩
  · intro P p hp hP
    obtain ⟨p', hrp, hp'⟩ := hasX_iff.mp hp
    have := (eval3_rel (opsRel f) h2 hrp).Z
    rwa [eval3_ker (two f) hA h3' hP hk' hκ hp'] at this

/-- C48. 4-isogenies.  For a point κ of order 4 with 2κ ≠ (0, 0). -/
theorem c48_four (f : Fld) (A : Fq f) (hA : A ^ 2 ≠ 4) (κ : (W A).Point) (h4 : 4 • κ = 0) (hκ : xc (2 • κ) ≠ 0) (k : Pt Fp2) (hk : HasX f κ k) :
    ∃ (A' : Fq f) (g : (W A).Point → Fq f), A' ^ 2 ≠ 4 ∧ HasA4 f A' (gen4 (limbOps (primeOf f)) k).1 ∧
      (∀ T, T ≠ 0 → xc T = 0 → XRep A' (AddSubgroup.zmultiples κ) T g) ∧
      (∀ (P : (W A).Point) (p : Pt Fp2), HasX f P p → P ∉ AddSubgroup.zmultiples κ →
        HasVal f (g P) (eval4 (limbOps (primeOf f)) (gen4 (limbOps (primeOf f)) k).2 p)) ∧
      (∀ (P : (W A).Point) (p : Pt Fp2), HasX f P p → P ∈ AddSubgroup.zmultiples κ →
        IsElt f (eval4 (limbOps (primeOf f)) (gen4 (limbOps (primeOf f)) k).2 p).Z 0) := by
  have h4' : κ + κ + (κ + κ) = 0 := by rw [← h4, show (4 : Nat) = 2 + 2 from rfl, add_smul, two_smul]
  rw [two_smul] at hκ
  have hker : Ker4 (⊥ : AddSubgroup (W A).Point) (T0 (two f) hA) κ := ker4 h4' (ne0 hκ) (neT hA hκ)
  have X := baseX (two f) hA
  obtain ⟨k', hr, hk'⟩ := hasX_iff.mp hk
  have hkr := hk'.fin (bot.mp hker.ne1)
  obtain ⟨h1, h2⟩ := gen4_rel (opsRel f) hr
  refine ⟨coef4 (xc κ), fun P => phi4 (xc κ) (xc P), coef4_ns (two f) hA h4' (ne0 hκ) (neT hA hκ),
    hasA4_iff.mpr ⟨_, h1, gen4_rep (four_ne (two f)) hkr⟩, ?_, ?_, ?_⟩
  · intro T hT0 hT
    have := X.step4 hker
    rw [bot_sup] at this
    rw [eqT hA hT0 hT]; exact this
  · intro P p hp hP
    obtain ⟨p', hrp, hp'⟩ := hasX_iff.mp hp
    have hP0 : P ≠ 0 := by rintro rfl; exact hP (AddSubgroup.zero_mem _)
    obtain ⟨a, b⟩ := hker.x_ne X (P := P) (by rw [bot_sup]; exact hP)
    exact hasVal_iff.mpr ⟨_, eval4_rel (opsRel f) h2 hrp, eval4_rep (four_ne (two f)) hkr (hp'.fin hP0) a b⟩
  · intro P p hp hP
    obtain ⟨p', hrp, hp'⟩ := hasX_iff.mp hp
    have := (eval4_rel (opsRel f) h2 hrp).Z
    rwa [eval4_ker (two f) hA h4' (ne0 hκ) (neT hA hκ) hP hk' hp'] at this

/-- Non-vacuity of C48: a point of order 4 with double other than (0, 0), and a point of order 3. -/
example (f : Fld) : (∃ κ : (W (6 : Fq f)).Point, 4 • κ = 0 ∧ xc (2 • κ) ≠ 0) ∧ (∃ κ : (W (6 : Fq f)).Point, κ ≠ 0 ∧ 3 • κ = 0) :=
  ⟨⟨_, (start f 0).2.2.2.1⟩, ⟨_, (start f 0).2.2.2.2.2, (start f 0).2.2.2.2.1⟩⟩

/-! ### C49 -/

/-- Both points stand for the same field element. -/
def Same (f : Fld) (p q : Pt Fp2) : Prop := ∃ x : Fq f, HasVal f x p ∧ HasVal f x q

theorem forall2_same {l l' : List (Pt Fp2)} {m m' : List (Pt (Fq f))} {us : List (Fq f)} (h1 : List.Forall₂ (RPt (IsElt f)) l m)
    (h2 : List.Forall₂ (RPt (IsElt f)) l' m') (h3 : List.Forall₂ Rep m us) (h4 : List.Forall₂ Rep m' us) : List.Forall₂ (Same f) l l' := by
  induction h3 generalizing l l' m' with
  | nil => cases h4; cases h1; cases h2; exact .nil
  | cons a as ih =>
    cases h4 with
    | cons b bs =>
      cases h1 with
      | cons r rs =>
        cases h2 with
        | cons t ts => exact .cons ⟨_, hasVal_iff.mpr ⟨_, r, a⟩, hasVal_iff.mpr ⟨_, t, b⟩⟩ (ih rs ts bs)

theorem plain_rel {α β C C' I I' : Type} {r : α → β → Prop} {rc : C → C' → Prop} {ri : I → I' → Prop}
    {pw : C → Nat → α → α} {pw' : C' → Nat → β → β} {gen : α → C × I} {gen' : β → C' × I'} {ev : I → α → α} {ev' : I' → β → β}
    (hpw : ∀ c c', rc c c' → ∀ k a b, r a b → r (pw c k a) (pw' c' k b)) (hgen : ∀ a b, r a b → rc (gen a).1 (gen' b).1 ∧ ri (gen a).2 (gen' b).2)
    (hev : ∀ i i', ri i i' → ∀ a b, r a b → r (ev i a) (ev' i' b)) :
    ∀ (n : Nat) {c : C} {c' : C'} {x : α} {x' : β} {e : List α} {e' : List β}, rc c c' → r x x' → List.Forall₂ r e e' →
    r (plain pw gen ev n c x e).1 (plain pw' gen' ev' n c' x' e').1 ∧ List.Forall₂ r (plain pw gen ev n c x e).2 (plain pw' gen' ev' n c' x' e').2
  | 0, _, _, _, _, _, _, _, hx, he => ⟨hx, he⟩
  | n + 1, _, _, _, _, _, _, hc, hx, he => by
    rw [plain, plain]
    obtain ⟨h1, h2⟩ := hgen _ _ (hpw _ _ hc (n + 1) _ _ hx)
    refine plain_rel hpw hgen hev n h1 (hev _ _ h2 _ _ hx) ?_
    rw [List.forall₂_map_left_iff, List.forall₂_map_right_iff]
    exact he.imp fun _ _ h => hev _ _ h2 _ _ h

theorem ropt_pair {α β : Type} {r : α → β → Prop} {x : Option α} {b : β} (h : ROpt r x (some b)) : ∃ a, x = some a ∧ r a b := ropt_some h

theorem gen3_same {x y : Pt (Fq f)} {u a : Fq f} (hx : Rep x u) (hy : Rep y u) (h : IsA3 (gen3 (fieldOps (Fq f)) x).1 a) :
    IsA3 (gen3 (fieldOps (Fq f)) y).1 a := by
  have ea : ∀ {p : Pt (Fq f)}, Rep p u → (gen3 (fieldOps (Fq f)) p).1.A = p.Z ^ 4 * ((3 * u + 1) ^ 3 * (u - 1)) := by
    intro p hp
    simp only [gen3, fadd, fsub, fmul, fsqr, hp.2]; ring
  have ec : ∀ {p : Pt (Fq f)}, Rep p u → (gen3 (fieldOps (Fq f)) p).1.C = p.Z ^ 4 * ((3 * u - 1) ^ 3 * (u + 1)) := by
    intro p hp
    simp only [gen3, fadd, fsub, fmul, fsqr, hp.2]; ring
  have h1 := h.ne
  have h2 := h.A
  have zx := pow_ne_zero 4 hx.1
  have zy := pow_ne_zero 4 hy.1
  rw [ea hx, ec hx] at h1 h2
  constructor
  · rw [ea hy, ec hy]
    rintro ⟨f1, f2⟩
    apply h1
    rw [(mul_eq_zero.mp f1).resolve_left zy, (mul_eq_zero.mp f2).resolve_left zy]
    simp
  · rw [ea hy, ec hy]
    have : (3 * u + 1) ^ 3 * (u - 1) * (a - 2) = (3 * u - 1) ^ 3 * (u + 1) * (a + 2) := by
      apply mul_left_cancel₀ zx
      linear_combination h2
    linear_combination y.Z ^ 4 * this

theorem nsmul0 {Γ : Type} [AddCommGroup Γ] (n : Nat) : n • (0 : Γ) = 0 := smul_zero _

theorem extras {κ : (W A).Point} {Ps : List (W A).Point} {extra : List (Pt Fp2)} (hP : ∀ P ∈ Ps, P ∉ AddSubgroup.zmultiples κ)
    (he : List.Forall₂ (HasX f) Ps extra) : ∃ e', List.Forall₂ (RPt (IsElt f)) extra e' ∧ List.Forall₂ (fun (P : (W A).Point) p => Rep p (xc P)) Ps e' := by
  induction he with
  | nil => exact ⟨[], .nil, .nil⟩
  | @cons P p Ps ps h hs ih =>
    obtain ⟨e', h1, h2⟩ := ih fun P hP' => hP P (List.mem_cons_of_mem _ hP')
    obtain ⟨p', hr, hp⟩ := hasX_iff.mp h
    have h0 : P ≠ 0 := by rintro rfl; exact hP _ List.mem_cons_self (AddSubgroup.zero_mem _)
    exact ⟨p' :: e', .cons hr h1, .cons (hp.fin h0) h2⟩

/-- C49. The traversal for A with the strategy of the table does not panic and ends with the same kernel point and the
same images of extra points, hence the same image curve, as the plain chain of 4-isogenies, for every curve and every R of order 4^(n+1) whose
multiple by 2·4^n is not (0, 0). -/
theorem c49_A (f : Fld) (A : Fq f) (hA : A ^ 2 ≠ 4) (c : Coef Fp2) (hc : HasA f A c) (R : (W A).Point) (r : Pt Fp2) (hr : HasX f R r)
    (h4 : 4 • ((4 ^ (paramsOf f).A.isogenyStrategy.length) • R) = 0) (hT : xc (2 • ((4 ^ (paramsOf f).A.isogenyStrategy.length) • R)) ≠ 0)
    (Ps : List (W A).Point) (hP : ∀ P ∈ Ps, P ∉ AddSubgroup.zmultiples R) (extra : List (Pt Fp2)) (he : List.Forall₂ (HasX f) Ps extra) :
    ∃ x e, traverseTreeA (limbOps (primeOf f)) (paramsOf f).A.isogenyStrategy c r extra = some (x, e) ∧
      Same f x (plain4 (limbOps (primeOf f)) (paramsOf f).A.isogenyStrategy.length c r extra).1 ∧
      List.Forall₂ (Same f) e (plain4 (limbOps (primeOf f)) (paramsOf f).A.isogenyStrategy.length c r extra).2 ∧
      ∃ A', HasA4 f A' (gen4 (limbOps (primeOf f)) x).1 ∧
        HasA4 f A' (gen4 (limbOps (primeOf f)) (plain4 (limbOps (primeOf f)) (paramsOf f).A.isogenyStrategy.length c r extra).1).1 := by
  have X := baseX (two f) hA
  obtain ⟨c', hrc, hc'⟩ := hasA_iff.mp hc
  obtain ⟨r', hrr, hr'⟩ := hasX_iff.mp hr
  obtain ⟨e', hre, he'⟩ := extras hP he
  set strat := (paramsOf f).A.isogenyStrategy with hstrat
  have hR0 : R ≠ 0 := by
    rintro rfl
    apply hT
    rw [show (2 : Nat) • ((4 ^ strat.length) • (0 : (W A).Point)) = 0 from (congrArg _ (nsmul0 _)).trans (nsmul0 2)]
    rfl
  have hk : Ker4 (⊥ : AddSubgroup (W A).Point) (T0 (two f) hA) ((4 ^ strat.length : Nat) • R) := by
    rw [two_smul] at hT
    exact Lemmas.SidhIso.ker4 (by rw [← h4, show (4 : Nat) = 2 + 2 from rfl, add_smul, two_smul]) (ne0 hT) (neT hA hT)
  obtain ⟨x, e, h1, _, _, u, us, h2, h3, h5, h6⟩ := traverseTreeA_both (s := ⟨A, ⊥, xc⟩) (R := R) X (stratA_ok' _ (mem3 f)) hk hc' (hr'.fin hR0) Ps
    (fun P hP' hm => hP P hP' (by
      have := run4_le 4 R (strat.length + 1) (⟨A, ⊥, xc⟩ : St (Fq f) (W A).Point) hm
      rwa [bot_sup] at this)) he'
  have hrel := traverseTreeA_rel (opsRel f) strat hrc hrr hre
  rw [h1] at hrel
  obtain ⟨⟨x0, e0⟩, h7, h8, h9⟩ := ropt_some hrel
  obtain ⟨h10, h11⟩ := plain_rel (rc := RCoef (IsElt f)) (ri := RIso4 (IsElt f)) (fun _ _ hc k _ _ hab => pow2k_rel (opsRel f) hc (2 * k) hab)
    (fun _ _ hab => gen4_rel (opsRel f) hab) (fun _ _ hf _ _ hab => eval4_rel (opsRel f) hf hab) strat.length
    (calcCurveParamsEquiv4_rel (opsRel f) hrc) hrr hre
  exact ⟨x0, e0, h7, ⟨u, hasVal_iff.mpr ⟨_, h8, h2⟩, hasVal_iff.mpr ⟨_, h10, h3⟩⟩, forall2_same h9 h11 h5 h6,
    _, hasA4_iff.mpr ⟨_, (gen4_rel (opsRel f) h8).1, gen4_rep (four_ne (two f)) h2⟩,
    hasA4_iff.mpr ⟨_, (gen4_rel (opsRel f) h10).1, gen4_rep (four_ne (two f)) h3⟩⟩

/-- C49. The traversal for B and the plain chain of 3-isogenies, for every curve and every R of order 3^(n+1). -/
theorem c49_B (f : Fld) (A : Fq f) (hA : A ^ 2 ≠ 4) (c : Coef Fp2) (hc : HasA f A c) (R : (W A).Point) (r : Pt Fp2) (hr : HasX f R r)
    (h3 : 3 • ((3 ^ (paramsOf f).B.isogenyStrategy.length) • R) = 0) (hne : (3 ^ (paramsOf f).B.isogenyStrategy.length) • R ≠ 0)
    (Ps : List (W A).Point) (hP : ∀ P ∈ Ps, P ∉ AddSubgroup.zmultiples R) (extra : List (Pt Fp2)) (he : List.Forall₂ (HasX f) Ps extra) :
    ∃ x e, traverseTreeB (limbOps (primeOf f)) (paramsOf f).B.isogenyStrategy c r extra = some (x, e) ∧
      Same f x (plain3 (limbOps (primeOf f)) (paramsOf f).B.isogenyStrategy.length c r extra).1 ∧
      List.Forall₂ (Same f) e (plain3 (limbOps (primeOf f)) (paramsOf f).B.isogenyStrategy.length c r extra).2 ∧
      ∃ A', HasA3 f A' (gen3 (limbOps (primeOf f)) x).1 ∧
        HasA3 f A' (gen3 (limbOps (primeOf f)) (plain3 (limbOps (primeOf f)) (paramsOf f).B.isogenyStrategy.length c r extra).1).1 := by
  have X := baseX (two f) hA
  obtain ⟨c', hrc, hc'⟩ := hasA_iff.mp hc
  obtain ⟨r', hrr, hr'⟩ := hasX_iff.mp hr
  obtain ⟨e', hre, he'⟩ := extras hP he
  set strat := (paramsOf f).B.isogenyStrategy with hstrat
  have hR0 : R ≠ 0 := by
    rintro rfl
    apply hne
    exact nsmul0 _
  have hk : Ker3 (⊥ : AddSubgroup (W A).Point) ((3 ^ strat.length : Nat) • R) :=
    ⟨(AddSubgroup.mem_bot).mpr (by rw [← h3, show (3 : Nat) = 2 + 1 from rfl, add_smul, two_smul, one_smul]), bot.mpr hne⟩
  obtain ⟨x, e, h1, hg, _, u, us, h2, h4, h5, h6⟩ := traverseTreeB_both (s := ⟨A, ⊥, xc⟩) (R := R) X (stratB_ok' _ (mem3 f)) hk hc' (hr'.fin hR0) Ps
    (fun P hP' hm => hP P hP' (by
      have := run3_le 3 R (strat.length + 1) (⟨A, ⊥, xc⟩ : St (Fq f) (W A).Point) hm
      rwa [bot_sup] at this)) he'
  have hrel := traverseTreeB_rel (opsRel f) strat hrc hrr hre
  rw [h1] at hrel
  obtain ⟨⟨x0, e0⟩, h7, h8, h9⟩ := ropt_some hrel
  obtain ⟨h10, h11⟩ := plain_rel (rc := RCoef (IsElt f)) (ri := RIso3 (IsElt f)) (fun _ _ hc k _ _ hab => pow3k_rel (opsRel f) hc k hab)
    (fun _ _ hab => gen3_rel (opsRel f) hab) (fun _ _ hf _ _ hab => eval3_rel (opsRel f) hf hab) strat.length
    (calcCurveParamsEquiv3_rel (opsRel f) hrc) hrr hre
  exact ⟨x0, e0, h7, ⟨u, hasVal_iff.mpr ⟨_, h8, h2⟩, hasVal_iff.mpr ⟨_, h10, h4⟩⟩, forall2_same h9 h11 h5 h6,
    _, hasA3_iff.mpr ⟨_, (gen3_rel (opsRel f) h8).1, hg⟩,
    hasA3_iff.mpr ⟨_, (gen3_rel (opsRel f) h10).1, gen3_same h2 h4 hg⟩⟩

/-- Non-vacuity of C49: R = P_A + [z]Q_A and R = P_B + [z]Q_B on the starting curve meet the hypotheses for every z,
with P_B and P_A as extra points. -/
example (f : Fld) (z : ℤ) : Lemmas.SidhBase.PB f ∉ AddSubgroup.zmultiples (Lemmas.SidhBase.PA f + z • Lemmas.SidhBase.QA f) ∧
    Lemmas.SidhBase.PA f ∉ AddSubgroup.zmultiples (Lemmas.SidhBase.PB f + z • Lemmas.SidhBase.QB f) := by
  have B := basis_ok f
  have h1 := (B.indepB ((AddSubgroup.zmultiples_le_of_mem (B.memA z)))).p
  have h2 := (B.indepA ((AddSubgroup.zmultiples_le_of_mem (B.memB z)))).p
  exact ⟨h1.1, h2.1⟩

example (f : Fld) (z : ℤ) (c : Coef Fp2) (hc : HasA f 6 c) (r p : Pt Fp2) (hr : HasX f (Lemmas.SidhBase.PA f + z • Lemmas.SidhBase.QA f) r)
    (hp : HasX f (Lemmas.SidhBase.PB f) p) : ∃ x e, traverseTreeA (limbOps (primeOf f)) (paramsOf f).A.isogenyStrategy c r [p] = some (x, e) := by
  obtain ⟨h1, _, _, ⟨h2, h3⟩, _⟩ := start f z
  have B := basis_ok f
  obtain ⟨x, e, h, _⟩ := c49_A f 6 h1 c hc _ r hr h2 h3 [Lemmas.SidhBase.PB f]
    (by
      intro P hP
      rw [List.mem_singleton.mp hP]
      exact ((B.indepB ((AddSubgroup.zmultiples_le_of_mem (B.memA z)))).p).1) [p] (.cons hp .nil)
  exact ⟨x, e, h⟩

/-! ### C50 -/

/-- C50. The coefficient recovered from x(P), x(Q), x(P − Q) is that of the curve; `one` is the constant 1. -/
theorem c50_recover (f : Fld) (A : Fq f) (hA : A ^ 2 ≠ 4) (P Q : (W A).Point) (hP : xc P ≠ 0) (hQ : xc Q ≠ 0) (hD : xc (P - Q) ≠ 0)
    (one p q d : Fp2) (h1 : IsElt f one 1) (hp : IsElt f p (xc P)) (hq : IsElt f q (xc Q)) (hd : IsElt f d (xc (P - Q))) :
    IsElt f (recoverCoordinateA (limbOps (primeOf f)) one p q d) A := by
  have := recoverCoordinateA_rel (opsRel f) h1 hp hq hd
  rwa [recover_curve (two f) hA (ne0 hP) (ne0 hQ) (ne0 hD) (neT hA hP) (neT hA hQ) (neT hA hD)] at this

/-- C50. The conversions between the forms A : 1, A + 2 : 4 and A + 2 : A − 2 of the coefficient; `half` is the
constant 1/2. -/
theorem c50_convert (f : Fld) (A : Fq f) :
    (∀ c, HasA f A c → HasA4 f A (calcCurveParamsEquiv4 (limbOps (primeOf f)) c) ∧ HasA3 f A (calcCurveParamsEquiv3 (limbOps (primeOf f)) c) ∧
      IsElt f (calcAplus2Over4 (limbOps (primeOf f)) c) ((A + 2) / 4)) ∧
    (∀ c half h, IsElt f half h → h + h = 1 → HasA4 f A c → HasA f A (recoverCurveCoefficients4 (limbOps (primeOf f)) half c)) ∧
    (∀ c, HasA3 f A c → HasA f A (recoverCurveCoefficients3 (limbOps (primeOf f)) c)) := by
  have h4 := four_ne (two f)
  refine ⟨fun c hc => ?_, fun c half h hh hs hc => ?_, fun c hc => ?_⟩
  · obtain ⟨c', hr, hc'⟩ := hasA_iff.mp hc
    refine ⟨hasA4_iff.mpr ⟨_, calcCurveParamsEquiv4_rel (opsRel f) hr, equiv4 h4 hc'⟩,
      hasA3_iff.mpr ⟨_, calcCurveParamsEquiv3_rel (opsRel f) hr, equiv3 (two f) hc'⟩, ?_⟩
    have h := calcAplus2Over4_rel (opsRel f) hr
    have e : calcAplus2Over4 (fieldOps (Fq f)) c' = (A + 2) / 4 := by
      rw [eq_div_iff h4, mul_comm]; exact aplus2 h4 hc'
    rwa [e] at h
  · obtain ⟨c', hr, hc'⟩ := hasA4_iff.mp hc
    exact hasA_iff.mpr ⟨_, recoverCurveCoefficients4_rel (opsRel f) hh hr, recover4 hs hc'⟩
  · obtain ⟨c', hr, hc'⟩ := hasA3_iff.mp hc
    exact hasA_iff.mpr ⟨_, recoverCurveCoefficients3_rel (opsRel f) hr, recover3 h4 hc'⟩

/-- C50. `Jinvariant` returns the j-invariant (Mathlib's) of the curve. -/
theorem c50_j (f : Fld) (A : Fq f) [(W A).IsElliptic] (c : Coef Fp2) (hc : HasA f A c) :
    IsElt f (jinvariant (limbOps (primeOf f)) c) (W A).j := by
  obtain ⟨c', hr, hc'⟩ := hasA_iff.mp hc
  have := jinvariant_rel (opsRel f) hr
  rwa [jinvariant_eq hc', jInv_eq (two f)] at this

/-- C50. Isomorphic curves give the same secret bytes. -/
theorem c50_isomorphic (f : Fld) (A B : Fq f) [(W A).IsElliptic] [(W B).IsElliptic] (C : WeierstrassCurve.VariableChange (Fq f)) (h : C • W A = W B)
    (c d : Coef Fp2) (hc : HasA f A c) (hd : HasA f B d) (ss : List Byte) :
    fp2ToBytes ss (fromMontgomery (primeOf f) (jinvariant (limbOps (primeOf f)) c)) (fieldBytes f) =
    fp2ToBytes ss (fromMontgomery (primeOf f) (jinvariant (limbOps (primeOf f)) d)) (fieldBytes f) := by
  have e : (W A).j = (W B).j := by
    have := (W A).variableChange_j C
    rw [← this]
    congr
  have h1 := c45_from f _ _ (c50_j f A c hc)
  have h2 := c45_from f _ _ (c50_j f B d hd)
  rw [← e] at h2
  obtain ⟨w1, w2⟩ := c32_toBytes ss (fromMontgomery (primeOf f) (jinvariant (limbOps (primeOf f)) c)) (fieldBytes f)
  obtain ⟨v1, v2⟩ := c32_toBytes ss (fromMontgomery (primeOf f) (jinvariant (limbOps (primeOf f)) d)) (fieldBytes f)
  by_cases hl : ss.length < 2 * fieldBytes f
  · rw [w1 hl, v1 hl]
  · rw [w2 (by omega), v2 (by omega), h1.1, h1.2, h2.1, h2.2]

/-- Non-vacuity of C50: the starting curve and the points of the tables. -/
example (f : Fld) : (W (6 : Fq f)).IsElliptic ∧ ∃ P Q : (W (6 : Fq f)).Point, xc P ≠ 0 ∧ xc Q ≠ 0 ∧ xc (P - Q) ≠ 0 := by
  refine ⟨W_elliptic (two f) (start f 0).1, Lemmas.SidhBase.PA f, Lemmas.SidhBase.QA f, ?_, ?_, ?_⟩
  · exact (Lemmas.SidhBase.X0 f).ne_zero ((basis_ok f).indepA (N := ⊥) bot_le).p.1 ((basis_ok f).indepA (N := ⊥) bot_le).p.2
  · obtain ⟨h1, h2⟩ := (basis_ok f).shiftA (N := ⊥) (Lemmas.SidhBase.X0 f).TN
    exact (Lemmas.SidhBase.X0 f).ne_zero h1 h2
  · have := (start f (-1)).2.1
    rwa [neg_one_smul, ← sub_eq_add_neg] at this

/-! ### C51 -/

/-- the public keys and the secret in words -/
theorem agree_limb (f : Fld) (a b : List Byte) (ha : (paramsOf f).A.secretBitLen ≤ 8 * a.length) (hb : (paramsOf f).B.secretBitLen ≤ 8 * b.length) :
    ∃ (pa pb : Tri Fp2) (ta tb : Tri (Fq f)) (j : Fq f), publicKeyGenA (limbOps (primeOf f)) (paramsOf f).curve a = some pa ∧
      publicKeyGenB (limbOps (primeOf f)) (paramsOf f).curve b = some pb ∧ RTri (IsElt f) pa ta ∧ RTri (IsElt f) pb tb ∧
      (∀ pb', RTri (IsElt f) pb' tb → ∃ x, deriveA (limbOps (primeOf f)) (paramsOf f).curve a pb' = some x ∧ IsElt f x j) ∧
      (∀ pa', RTri (IsElt f) pa' ta → ∃ x, deriveB (limbOps (primeOf f)) (paramsOf f).curve b pa' = some x ∧ IsElt f x j) := by
  obtain ⟨ta, tb, j, h1, h2, h3, h4⟩ := agree_field f a b ha hb
  have r1 := publicKeyGenA_rel (opsRel f) (rcparams f) a
  have r2 := publicKeyGenB_rel (opsRel f) (rcparams f) b
  rw [h1] at r1
  rw [h2] at r2
  obtain ⟨pa, e1, e2⟩ := ropt_some r1
  obtain ⟨pb, e3, e4⟩ := ropt_some r2
  refine ⟨pa, pb, ta, tb, j, e1, e3, e2, e4, fun pb' h => ?_, fun pa' h => ?_⟩
  · have r := deriveA_rel (opsRel f) (rcparams f) a h
    rw [h3] at r
    exact ropt_some r
  · have r := deriveB_rel (opsRel f) (rcparams f) b h
    rw [h4] at r
    exact ropt_some r

/-- the bytes of the secret -/
theorem secret_bytes (f : Fld) (x : Fp2) (j : Fq f) (hx : IsElt f x j) (ss : List Byte) (hs : ss.length = 2 * fieldBytes f) :
    fp2ToBytes ss (fromMontgomery (primeOf f) x) (fieldBytes f) = some (leBytes (fieldBytes f) j.re.val ++ leBytes (fieldBytes f) j.im.val) := by
  rw [(c32_toBytes _ _ _).2 (by omega), (c45_from f x j hx).1, (c45_from f x j hx).2, List.drop_eq_nil_of_le (as := ss) (by omega), List.append_nil]

theorem bits (f : Fld) : (paramsOf f).A.secretBitLen ≤ 8 * (paramsOf f).A.secretByteLen ∧ (paramsOf f).B.secretBitLen ≤ 8 * (paramsOf f).B.secretByteLen := by
  cases f <;> decide

/-- C51, with public keys standing for the same field elements as the generated ones (which covers keys sent as
bytes). -/
theorem c51_agree_repr (f : Fld) (v w : W64) (hv : v.getLsbD 0 = true) (hw : w.getLsbD 0 = false) (a b : PrivateKey) (ha : PrivOf f v a) (hb : PrivOf f w b)
    (pa pb : PublicKey) (hpa : pa.params = paramsOf f ∧ pa.variant = v) (hpb : pb.params = paramsOf f ∧ pb.variant = w) :
    ∃ pa' pb' P Q R P' Q' R' s, a.generatePublicKey pa = some pa' ∧ b.generatePublicKey pb = some pb' ∧ PubOf f v pa' P Q R ∧ PubOf f w pb' P' Q' R' ∧
      s.length = 2 * fieldBytes f ∧
      (∀ k ss, PubOf f w k P' Q' R' → ss.length = 2 * fieldBytes f → a.deriveSecret ss k = some s) ∧
      (∀ k ss, PubOf f v k P Q R → ss.length = 2 * fieldBytes f → b.deriveSecret ss k = some s) := by
  obtain ⟨b1, b2⟩ := bits f
  have la := ha.scalar
  rw [if_pos hv] at la
  have lb := hb.scalar
  rw [hw, if_neg (by decide)] at lb
  obtain ⟨ta, tb, ua, ub, j, e1, e2, e3, e4, e5, e6⟩ := agree_limb f a.scalar b.scalar (by rw [la]; exact b1) (by rw [lb]; exact b2)
  obtain ⟨s1, s2, s3, s4, s5, s6⟩ := sizes f
  have hne : v ≠ w := by rintro rfl; rw [hv] at hw; cases hw
  refine ⟨{pa with pts := ta}, {pb with pts := tb}, ua.p, ua.q, ua.r, ub.p, ub.q, ub.r,
    leBytes (fieldBytes f) j.re.val ++ leBytes (fieldBytes f) j.im.val, ?_, ?_, ⟨hpa.1, hpa.2, e3.hp, e3.hq, e3.hr⟩,
    ⟨hpb.1, hpb.2, e4.hp, e4.hq, e4.hr⟩, ?_, ?_, ?_⟩
  · rw [PrivateKey.generatePublicKey, if_neg (by rw [ha.variant, hpa.2, ha.params, hpa.1]; simp), ha.params, pkg_of, ha.variant, isA_eq, hv]
    simp only [Option.bind_eq_bind, Option.bind_some, if_true, s4, e1]
  · rw [PrivateKey.generatePublicKey, if_neg (by rw [hb.variant, hpb.2, hb.params, hpb.1]; simp), hb.params, pkg_of, hb.variant, isA_eq, hw]
    simp only [Option.bind_eq_bind, Option.bind_some, s4]
    rw [if_neg (by simp), e2]; rfl
  · rw [List.length_append, leBytes_length, leBytes_length]; omega
  · intro k ss hk hs
    obtain ⟨x, h1, h2⟩ := e5 k.pts ⟨hk.p, hk.q, hk.r⟩
    rw [PrivateKey.deriveSecret, if_neg (by rw [ha.variant, hk.variant, ha.params, hk.params]; simp [hne.symm]), ha.params, pkg_of, ha.variant, isA_eq, hv]
    simp only [Option.bind_eq_bind, Option.bind_some, deriveSecretPkg, if_true, s4, h1, s2]
    exact secret_bytes f x j h2 ss hs
  · intro k ss hk hs
    obtain ⟨x, h1, h2⟩ := e6 k.pts ⟨hk.p, hk.q, hk.r⟩
    rw [PrivateKey.deriveSecret, if_neg (by rw [hb.variant, hk.variant, hb.params, hk.params]; simp [hne]), hb.params, pkg_of, hb.variant, isA_eq, hw]
    simp only [Option.bind_eq_bind, deriveSecretPkg, s4, s2, Option.bind_some]
    rw [if_neg (by simp), h1]
    exact secret_bytes f x j h2 ss hs

/-- C51. Key agreement, for all private keys a of an A variant and b of a B variant (`SidhB` or `Sike`), with any
contents of the key objects and buffers the results are put into: generating the public keys and deriving the secret
on both sides gives the same bytes. -/
theorem c51_agree (f : Fld) (v w : W64) (hv : v.getLsbD 0 = true) (hw : w.getLsbD 0 = false) (a b : PrivateKey) (ha : PrivOf f v a) (hb : PrivOf f w b)
    (pa pb : PublicKey) (hpa : pa.params = paramsOf f ∧ pa.variant = v) (hpb : pb.params = paramsOf f ∧ pb.variant = w)
    (ss ss' : List Byte) (hs : ss.length = 2 * fieldBytes f) (hs' : ss'.length = 2 * fieldBytes f) :
    ∃ pa' pb' s, a.generatePublicKey pa = some pa' ∧ b.generatePublicKey pb = some pb' ∧
      a.deriveSecret ss pb' = some s ∧ b.deriveSecret ss' pa' = some s := by
  obtain ⟨pa', pb', P, Q, R, P', Q', R', s, h1, h2, h3, h4, _, h5, h6⟩ := c51_agree_repr f v w hv hw a b ha hb pa pb hpa hpb
  exact ⟨pa', pb', s, h1, h2, h5 pb' ss h4 hs, h6 pa' ss' h3 hs'⟩

/-- C51. The same when each party sends its public key as bytes and the other imports it into a new key object. -/
theorem c51_agree_sent (f : Fld) (v w : W64) (hv : v.getLsbD 0 = true) (hw : w.getLsbD 0 = false) (a b : PrivateKey) (ha : PrivOf f v a) (hb : PrivOf f w b)
    (pa pb : PublicKey) (hpa : pa.params = paramsOf f ∧ pa.variant = v) (hpb : pb.params = paramsOf f ∧ pb.variant = w)
    (ss ss' : List Byte) (hs : ss.length = 2 * fieldBytes f) (hs' : ss'.length = 2 * fieldBytes f)
    (out out' : List Byte) (ho : out.length = 6 * fieldBytes f) (ho' : out'.length = 6 * fieldBytes f) :
    ∃ pa' pb' ba bb na nb ia ib s, a.generatePublicKey pa = some pa' ∧ b.generatePublicKey pb = some pb' ∧
      pa'.exportKey out = some ba ∧ pb'.exportKey out' = some bb ∧ newPublicKey (idOf f) v = some na ∧ newPublicKey (idOf f) w = some nb ∧
      na.importKey ba = some (ia, true) ∧ nb.importKey bb = some (ib, true) ∧
      a.deriveSecret ss ib = some s ∧ b.deriveSecret ss' ia = some s := by
  obtain ⟨pa', pb', P, Q, R, P', Q', R', s, h1, h2, h3, h4, _, h5, h6⟩ := c51_agree_repr f v w hv hw a b ha hb pa pb hpa hpb
  obtain ⟨ba, na, ia, x1, x2, x3, x4⟩ := c35_roundtrip f v pa' P Q R h3 out ho
  obtain ⟨bb, nb, ib, y1, y2, y3, y4⟩ := c35_roundtrip f w pb' P' Q' R' h4 out' ho'
  exact ⟨pa', pb', ba, bb, na, nb, ia, ib, s, h1, h2, x1, y1, x2, y2, x3, y3, h5 ib ss y4 hs, h6 ia ss' x4 hs'⟩

/-- Non-vacuity of C51: key objects of both sides exist for every field, and the variants are those of the package. -/
example (f : Fld) : ∃ a b pa pb, newPrivateKey (idOf f) variantA = some a ∧ newPrivateKey (idOf f) variantB = some b ∧
    PrivOf f variantA a ∧ PrivOf f variantB b ∧ newPublicKey (idOf f) variantA = some pa ∧ newPublicKey (idOf f) variantB = some pb ∧
    variantA.getLsbD 0 = true ∧ variantB.getLsbD 0 = false ∧ variantSike.getLsbD 0 = false := by
  obtain ⟨a, h1, h2⟩ := c34_new f variantA
  obtain ⟨b, h3, h4⟩ := c34_new f variantB
  exact ⟨a, b, _, _, h1, h3, h2, h4, newPublicKey_eq f _, newPublicKey_eq f _, by decide, by decide, by decide⟩

end Props.SidhCurve
