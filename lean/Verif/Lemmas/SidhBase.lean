import Verif.Lemmas.SidhAgree
import Verif.Lemmas.SidhPoints
import Verif.Lemmas.SidhFp2
/-
The starting points of SIDH have the orders the protocol needs.  The multiples are computed by the kernel with pairs of
natural numbers modulo p.
-/
namespace Lemmas.SidhBase
open Model Model.Sidh Spec.Sidh Lemmas.SidhNat Verif.XOnly Lemmas.SidhX Lemmas.SidhWalk Lemmas.SidhAgree Lemmas.SidhFp2

/-! ### projective multiples with zero included -/
section
variable {K : Type} [Field K] {Γ : Type} [AddCommGroup Γ] {A : K} {N : AddSubgroup Γ} {T : Γ} {g : Γ → K}

theorem dblStep_Z {c : Coef K} {x : K} {p : Pt K} (hc : IsA4 c A) (hp : Rep p x) :
    (dblStep (fieldOps K) c p).Z = c.C * p.Z ^ 4 * dblDen A x := by
  obtain ⟨hC, hA⟩ := hc
  obtain ⟨hZ, hX⟩ := hp
  simp only [dblStep, fadd, fsub, fmul, fsqr, hX, dblDen]
  linear_combination 4 * x ^ 2 * p.Z ^ 4 * hA

theorem pow2k_Z0 (c : Coef K) : ∀ (k : Nat) (p : Pt K), p.Z = 0 → (pow2k (fieldOps K) c k p).Z = 0
  | 0, p, h => h
  | k + 1, p, h => by
    apply pow2k_Z0 c k
    simp only [dblStep, fadd, fsub, fmul, fsqr, h]; ring

theorem pow2k_ne (X : XRep A N T g) {c : Coef K} (hc : IsA4 c A) : ∀ (k : Nat) (P : Γ) (p : Pt K), P ∉ N → Rep p (g P) →
    (pow2k (fieldOps K) c k p).Z ≠ 0 → (2 ^ k : Nat) • P ∉ N
  | 0, P, p, hP, _, _ => by simpa using hP
  | k + 1, P, p, hP, hp, hz => by
    have e : (2 ^ (k + 1) : Nat) • P = (2 ^ k : Nat) • (P + P) := by rw [pow_succ, mul_smul, two_smul]
    rw [e]
    by_cases h2 : P + P ∈ N
    · exact absurd (pow2k_Z0 c k _ (by rw [dblStep_Z hc hp, X.dbl0 P hP h2, mul_zero])) hz
    · obtain ⟨hd, he⟩ := X.dbl P hP h2
      exact pow2k_ne X hc k (P + P) _ h2 (dblStep_rep X.two hc hp hd he) hz

theorem pow2k_zero (X : XRep A N T g) {c : Coef K} (hc : IsA4 c A) (k : Nat) (P : Γ) (p : Pt K) (hp : Rep p (g P))
    (hz : (pow2k (fieldOps K) c k p).Z = 0) : (2 ^ k : Nat) • P ∈ N := by
  by_contra h
  exact (pow2k_rep X hc k P p h hp).1 hz

theorem tplStep_Z {c : Coef K} {x : K} {p : Pt K} (h4 : (4 : K) ≠ 0) (hc : IsA3 c A) (hp : Rep p x) (h : psi3 A x = 0) :
    (tplStep (fieldOps K) c p).Z = 0 := by
  obtain ⟨hne, hA⟩ := hc
  obtain ⟨hZ, hX⟩ := hp
  obtain ⟨l, hlA, hlC⟩ : ∃ l : K, c.A = l * (A + 2) ∧ c.C = l * (A - 2) := by
    refine ⟨(c.A - c.C) / 4, ?_, ?_⟩
    · field_simp; linear_combination -hA
    · field_simp; linear_combination -hA
  have hz : (tplStep (fieldOps K) c p).Z = 32 * l ^ 2 * p.Z ^ 9 * psi3 A x ^ 2 := by
    simp only [tplStep, fadd, fsub, fmul, fsqr, hX, hlA, hlC, psi3]; ring
  rw [hz, h]; ring

theorem pow3k_Z0 (c : Coef K) : ∀ (k : Nat) (p : Pt K), p.Z = 0 → (pow3k (fieldOps K) c k p).Z = 0
  | 0, p, h => h
  | k + 1, p, h => by
    apply pow3k_Z0 c k
    simp only [tplStep, fadd, fsub, fmul, fsqr, h]; ring

theorem tpl' (X : XRep A N T g) (hA : A ^ 2 ≠ 4) {P : Γ} (h1 : P ∉ N) (h3 : P + P + P ∉ N) :
    psi3 A (g P) ≠ 0 ∧ g (P + P + P) * psi3 A (g P) ^ 2 = g P * (g P ^ 4 - 6 * g P ^ 2 - 4 * A * g P - 3) ^ 2 := by
  by_cases h2 : P + P ∈ N
  · have h0 := X.dbl0 P h1 h2
    have e : g (P + P + P) = g P := by rw [add_comm]; exact X.shift P _ h1 h2
    rw [e]
    simp only [dblDen] at h0
    rcases mul_eq_zero.mp ((mul_eq_zero.mp h0).resolve_left X.four) with h | h
    · rw [h]; simp [psi3]
    · have f1 : psi3 A (g P) = -(g P ^ 2 - 1) ^ 2 := by
        simp only [psi3]; linear_combination 4 * g P ^ 2 * h
      have f2 : g P ^ 4 - 6 * g P ^ 2 - 4 * A * g P - 3 = (g P ^ 2 - 1) ^ 2 := by linear_combination -4 * h
      have hne : g P ^ 2 - 1 ≠ 0 := by
        intro hx
        apply hA
        have e1 : A * g P = -2 := by linear_combination h - hx
        linear_combination (A * g P - 2) * e1 - A ^ 2 * hx
      rw [f1, f2]
      exact ⟨neg_ne_zero.mpr (pow_ne_zero 2 hne), by ring⟩
  · exact X.tpl h1 h2 h3

theorem pow3k_ne (X : XRep A N T g) (hA : A ^ 2 ≠ 4) {c : Coef K} (hc : IsA3 c A) : ∀ (k : Nat) (P : Γ) (p : Pt K), P ∉ N → Rep p (g P) →
    (pow3k (fieldOps K) c k p).Z ≠ 0 → (3 ^ k : Nat) • P ∉ N ∧ Rep (pow3k (fieldOps K) c k p) (g ((3 ^ k : Nat) • P))
  | 0, P, p, hP, hp, _ => by rw [pow_zero, one_smul]; exact ⟨hP, hp⟩
  | k + 1, P, p, hP, hp, hz => by
    have e : (3 ^ (k + 1) : Nat) • P = (3 ^ k : Nat) • (P + P + P) := by
      have : P + P + P = (3 : Nat) • P := by abel
      rw [pow_succ, mul_smul, this]
    rw [e]
    by_cases h3 : P + P + P ∈ N
    · exact absurd (pow3k_Z0 c k _ (tplStep_Z X.four hc hp ((⟨h3, hP⟩ : Ker3 N P).psi X))) hz
    · obtain ⟨hd, he⟩ := tpl' X hA hP h3
      exact pow3k_ne X hA hc k (P + P + P) _ h3 (tplStep_rep X.two hc hp hd he) hz

theorem pow3k_zero (X : XRep A N T g) (hA : A ^ 2 ≠ 4) {c : Coef K} (hc : IsA3 c A) : ∀ (k : Nat) (P : Γ) (p : Pt K), Rep p (g P) →
    (pow3k (fieldOps K) c k p).Z = 0 → (3 ^ k : Nat) • P ∈ N
  | 0, P, p, hp, hz => absurd hz hp.1
  | k + 1, P, p, hp, hz => by
    have e : (3 ^ (k + 1) : Nat) • P = (3 ^ k : Nat) • (P + P + P) := by
      have : P + P + P = (3 : Nat) • P := by abel
      rw [pow_succ, mul_smul, this]
    rw [e]
    by_cases h1 : P ∈ N
    · exact N.nsmul_mem (N.add_mem (N.add_mem h1 h1) h1) _
    by_cases h3 : P + P + P ∈ N
    · exact N.nsmul_mem h3 _
    · obtain ⟨hd, he⟩ := tpl' X hA h1 h3
      exact pow3k_zero X hA hc k (P + P + P) _ (tplStep_rep X.two hc hp hd he) hz

end

/-! ### evaluation -/

/-- arithmetic of pairs modulo p (`inv` and `cswap` are not used) -/
def nOps (p : Nat) : Ops (Nat × Nat) where
  add x y := ((x.1 + y.1) % p, (x.2 + y.2) % p)
  sub x y := ((x.1 + (p - y.1 % p)) % p, (x.2 + (p - y.2 % p)) % p)
  mul x y := ((x.1 * y.1 + (p - x.2 * y.2 % p)) % p, (x.1 * y.2 + x.2 * y.1) % p)
  sqr x := ((x.1 * x.1 + (p - x.2 * x.2 % p)) % p, (x.1 * x.2 + x.2 * x.1) % p)
  inv x := x
  cswap x y _ := (x, y)

variable (f : Fld)

/-- the element of the field -/
def el (x : Nat × Nat) : Fq f := ⟨(x.1 : ZMod f.p), (x.2 : ZMod f.p)⟩

def elP (x : Pt (Nat × Nat)) : Pt (Fq f) := ⟨el f x.X, el f x.Z⟩
def elC (x : Coef (Nat × Nat)) : Coef (Fq f) := ⟨el f x.A, el f x.C⟩

theorem p_pos : 0 < f.p := by have := Lemmas.SidhGood.p_gt f; omega

theorem cast_sub_mod (a b : Nat) : (((a + (f.p - b % f.p)) % f.p : Nat) : ZMod f.p) = (a : ZMod f.p) - b := by
  have h := (Nat.mod_lt b (p_pos f)).le
  rw [ZMod.natCast_mod, Nat.cast_add, Nat.cast_sub h, ZMod.natCast_self, ZMod.natCast_mod]
  ring

theorem el_add (x y : Nat × Nat) : el f ((nOps f.p).add x y) = el f x + el f y := by
  ext <;> simp [el, nOps, ZMod.natCast_mod]

theorem el_sub (x y : Nat × Nat) : el f ((nOps f.p).sub x y) = el f x - el f y := by
  ext
  · exact cast_sub_mod f _ _
  · exact cast_sub_mod f _ _

theorem el_mul (x y : Nat × Nat) : el f ((nOps f.p).mul x y) = el f x * el f y := by
  ext
  · refine (cast_sub_mod f _ _).trans ?_
    rw [QuadraticAlgebra.re_mul]
    simp only [el]; push_cast; ring
  · rw [QuadraticAlgebra.im_mul]
    simp only [el, nOps, ZMod.natCast_mod]; push_cast; ring

theorem el_sqr (x : Nat × Nat) : el f ((nOps f.p).sqr x) = el f x * el f x := el_mul f x x

theorem el_dbl (c : Coef (Nat × Nat)) (p : Pt (Nat × Nat)) :
    elP f (dblStep (nOps f.p) c p) = dblStep (fieldOps (Fq f)) (elC f c) (elP f p) := by
  simp only [dblStep, elP, elC, el_add, el_sub, el_mul, el_sqr, fadd, fsub, fmul, fsqr]

theorem el_tpl (c : Coef (Nat × Nat)) (p : Pt (Nat × Nat)) :
    elP f (tplStep (nOps f.p) c p) = tplStep (fieldOps (Fq f)) (elC f c) (elP f p) := by
  simp only [tplStep, elP, elC, el_add, el_sub, el_mul, el_sqr, fadd, fsub, fmul, fsqr]

theorem el_pow2k (c : Coef (Nat × Nat)) : ∀ (k : Nat) (p : Pt (Nat × Nat)),
    elP f (pow2k (nOps f.p) c k p) = pow2k (fieldOps (Fq f)) (elC f c) k (elP f p)
  | 0, _ => rfl
  | k + 1, p => by rw [pow2k, pow2k, el_pow2k c k, el_dbl]

theorem el_pow3k (c : Coef (Nat × Nat)) : ∀ (k : Nat) (p : Pt (Nat × Nat)),
    elP f (pow3k (nOps f.p) c k p) = pow3k (fieldOps (Fq f)) (elC f c) k (elP f p)
  | 0, _ => rfl
  | k + 1, p => by rw [pow3k, pow3k, el_pow3k c k, el_tpl]

theorem el_ne {x y : Nat × Nat} (h : x.1 % f.p ≠ y.1 % f.p ∨ x.2 % f.p ≠ y.2 % f.p) : el f x ≠ el f y := by
  intro he
  rcases h with h | h
  · exact h ((ZMod.natCast_eq_natCast_iff _ _ _).mp (congrArg QuadraticAlgebra.re he))
  · exact h ((ZMod.natCast_eq_natCast_iff _ _ _).mp (congrArg QuadraticAlgebra.im he))

theorem el_zero : el f (0, 0) = 0 := by ext <;> simp [el] <;> rfl
theorem el_one : el f (1, 0) = 1 := by ext <;> simp [el] <;> rfl
theorem el_nat (n : Nat) : el f (n, 0) = n := by
  ext
  · exact (QuadraticAlgebra.re_natCast n).symm
  · rw [QuadraticAlgebra.im_natCast]; simp [el]

theorem two_ne : (2 : Fq f) ≠ 0 := by
  have h := el_ne f (x := (2, 0)) (y := (0, 0)) (Or.inl (by
    have := Lemmas.SidhGood.p_gt f
    rw [Nat.mod_eq_of_lt (by simp; omega)]; simp))
  rw [el_nat, el_zero] at h
  exact_mod_cast h

theorem four_ne : (4 : Fq f) ≠ 0 := by
  have : (4 : Fq f) = 2 * 2 := by norm_num
  rw [this]; exact mul_ne_zero (two_ne f) (two_ne f)

theorem six_sq : (6 : Fq f) ^ 2 ≠ 4 := by
  intro h
  have : (2 : Fq f) ^ 5 = 0 := by linear_combination h
  exact pow_ne_zero 5 (two_ne f) this

/-- the starting curve y² = x³ + 6x² + x -/
abbrev E : WeierstrassCurve.Affine (Fq f) := W (6 : Fq f)

theorem hT : (E f).Nonsingular 0 0 := W_nonsingular (two_ne f) (six_sq f) (by ring)

/-- the point (0, 0) -/
noncomputable def T : (E f).Point := .some 0 0 (hT f)

/-- the x-coordinate on the starting curve -/
theorem X0 : XRep (6 : Fq f) (⊥ : AddSubgroup (E f).Point) (T f) xc := XRep.base (two_ne f) (hT f)

/-- the curve equation on pairs -/
def onCurve (p : Nat) (r : Raw) : Bool :=
  let o := nOps p
  let x2 := o.sqr r.x
  o.sqr r.y == o.add (o.add (o.mul x2 r.x) (o.mul (6, 0) x2)) r.x

theorem on {r : Raw} (h : onCurve f.p r = true) : (E f).Nonsingular (el f r.x) (el f r.y) := by
  apply W_nonsingular (two_ne f) (six_sq f)
  have := congrArg (el f) (eq_of_beq h)
  simp only [el_add, el_mul, el_sqr] at this
  rw [el_nat] at this
  rw [sq, this]; push_cast; ring

theorem on_pA : onCurve f.p (pA f) = true := by cases f <;> decide +kernel
theorem on_qA : onCurve f.p (qA f) = true := by cases f <;> decide +kernel
theorem on_pB : onCurve f.p (pB f) = true := by cases f <;> decide +kernel
theorem on_qB : onCurve f.p (qB f) = true := by cases f <;> decide +kernel

noncomputable def PA : (E f).Point := .some _ _ (on f (on_pA f))
noncomputable def QA : (E f).Point := .some _ _ (on f (on_qA f))
noncomputable def PB : (E f).Point := .some _ _ (on f (on_pB f))
noncomputable def QB : (E f).Point := .some _ _ (on f (on_qB f))

theorem PA_ne : PA f ≠ 0 := WeierstrassCurve.Affine.Point.some_ne_zero _
theorem QA_ne : QA f ≠ 0 := WeierstrassCurve.Affine.Point.some_ne_zero _
theorem PB_ne : PB f ≠ 0 := WeierstrassCurve.Affine.Point.some_ne_zero _
theorem QB_ne : QB f ≠ 0 := WeierstrassCurve.Affine.Point.some_ne_zero _

/-- `r` is the x-coordinate of the difference of `a` and `b` -/
def diffOk (p : Nat) (a b : Raw) (r : Nat × Nat) : Bool :=
  let o := nOps p
  let d := o.sqr (o.sub a.x b.x)
  o.sqr (o.add a.y b.y) == o.mul (o.add (o.add (o.add r (6, 0)) a.x) b.x) d && d != (0, 0)

theorem diff_x {a b : Raw} {r : Nat × Nat} (ha : onCurve f.p a = true) (hb : onCurve f.p b = true) (h : diffOk f.p a b r = true) :
    xc ((.some _ _ (on f ha) : (E f).Point) - .some _ _ (on f hb)) = el f r := by
  rw [diffOk, Bool.and_eq_true] at h
  obtain ⟨h1, h2⟩ := h
  have h1 := congrArg (el f) (eq_of_beq h1)
  simp only [el_add, el_mul, el_sqr, el_sub] at h1
  rw [el_nat] at h1
  have hd : el f ((nOps f.p).sqr ((nOps f.p).sub a.x b.x)) ≠ 0 := by
    rw [← el_zero]
    apply el_ne
    have h2 : (nOps f.p).sqr ((nOps f.p).sub a.x b.x) ≠ (0, 0) := by simpa using h2
    have e1 : ((nOps f.p).sqr ((nOps f.p).sub a.x b.x)).1 < f.p := Nat.mod_lt _ (p_pos f)
    have e2 : ((nOps f.p).sqr ((nOps f.p).sub a.x b.x)).2 < f.p := Nat.mod_lt _ (p_pos f)
    rw [Nat.mod_eq_of_lt e1, Nat.mod_eq_of_lt e2, Nat.zero_mod]
    by_contra hc
    push Not at hc
    exact h2 (Prod.ext hc.1 hc.2)
  rw [el_sqr, el_sub] at hd
  have hne : el f a.x ≠ el f b.x := fun h => hd (by rw [h, sub_self, mul_zero])
  set U : (E f).Point := .some _ _ (on f ha) with hU
  set V : (E f).Point := .some _ _ (on f hb) with hV
  have hU0 : U ≠ 0 := WeierstrassCurve.Affine.Point.some_ne_zero _
  have hV0 : V ≠ 0 := WeierstrassCurve.Affine.Point.some_ne_zero _
  have key := xc_add hU0 (neg_ne_zero.mpr hV0) (by rw [xc_neg]; exact hne)
  rw [xc_neg, yc_neg, ← sub_eq_add_neg] at key
  have ux : xc U = el f a.x := rfl
  have uy : yc U = el f a.y := rfl
  have vx : xc V = el f b.x := rfl
  have vy : yc V = el f b.y := rfl
  rw [ux, uy, vx, vy] at key
  apply mul_right_cancel₀ hd
  push_cast at h1
  linear_combination key + h1

theorem diffA_ok : diffOk f.p (pA f) (qA f) (rA f) = true := by cases f <;> decide +kernel
theorem diffB_ok : diffOk f.p (pB f) (qB f) (rB f) = true := by cases f <;> decide +kernel

theorem diffA : xc (PA f - QA f) = el f (rA f) := diff_x f (on_pA f) (on_qA f) (diffA_ok f)
theorem diffB : xc (PB f - QB f) = el f (rB f) := diff_x f (on_pB f) (on_qB f) (diffB_ok f)

/-- curve constants: (A+2 : 4) -/
def c4 : Coef (Nat × Nat) := ⟨(8, 0), (4, 0)⟩
/-- (A+2 : A−2) -/
def c3 : Coef (Nat × Nat) := ⟨(8, 0), (4, 0)⟩

theorem c4_ok : IsA4 (elC f c4) 6 := by
  constructor
  · change el f (4, 0) ≠ 0
    rw [el_nat]; exact_mod_cast four_ne f
  · change 4 * el f (8, 0) = (6 + 2) * el f (4, 0)
    rw [el_nat, el_nat]; push_cast; ring

theorem c3_ok : IsA3 (elC f c3) 6 := by
  constructor
  · rintro ⟨_, h⟩
    change el f (4, 0) = 0 at h
    rw [el_nat] at h
    exact four_ne f (by exact_mod_cast h)
  · change el f (8, 0) * (6 - 2) = el f (4, 0) * (6 + 2)
    rw [el_nat, el_nat]; push_cast; ring

/-- (x : 1) -/
def proj (r : Raw) : Pt (Nat × Nat) := ⟨r.x, (1, 0)⟩

theorem proj_rep {r : Raw} (h : onCurve f.p r = true) : Rep (elP f (proj r)) (xc (.some _ _ (on f h) : (E f).Point)) := by
  have : elP f (proj r) = ⟨el f r.x, 1⟩ := by rw [elP, proj, ← el_one f]
  rw [this]; exact rep_one _

/-- equality of the elements two pairs stand for -/
def same (p : Nat) (x y : Nat × Nat) : Bool := x.1 % p == y.1 % p && x.2 % p == y.2 % p

theorem same_iff (x y : Nat × Nat) : same f.p x y = true ↔ el f x = el f y := by
  rw [same, Bool.and_eq_true, beq_iff_eq, beq_iff_eq]
  constructor
  · rintro ⟨h1, h2⟩
    ext
    · exact (ZMod.natCast_eq_natCast_iff _ _ _).mpr h1
    · exact (ZMod.natCast_eq_natCast_iff _ _ _).mpr h2
  · intro h
    exact ⟨(ZMod.natCast_eq_natCast_iff _ _ _).mp (congrArg QuadraticAlgebra.re h),
      (ZMod.natCast_eq_natCast_iff _ _ _).mp (congrArg QuadraticAlgebra.im h)⟩

/-- the computed multiples of the A points -/
def okA (f : Fld) (nA : Nat) : Bool :=
  let q := pow2k (nOps f.p) c4 (2 * nA + 1) (proj (qA f))
  let p := pow2k (nOps f.p) c4 (2 * nA + 1) (proj (pA f))
  (same f.p q.X (0, 0) && !same f.p q.Z (0, 0) && !same f.p p.X (0, 0) && !same f.p p.Z (0, 0)) &&
    (same f.p (pow2k (nOps f.p) c4 (2 * nA + 2) (proj (qA f))).Z (0, 0) && same f.p (pow2k (nOps f.p) c4 (2 * nA + 2) (proj (pA f))).Z (0, 0))

/-- the computed multiples of the B points -/
def okB (f : Fld) (nB : Nat) : Bool :=
  let p := pow3k (nOps f.p) c3 nB (proj (pB f))
  let q := pow3k (nOps f.p) c3 nB (proj (qB f))
  (!same f.p p.Z (0, 0) && !same f.p q.Z (0, 0) && !same f.p ((nOps f.p).mul p.X q.Z) ((nOps f.p).mul q.X p.Z)) &&
    (same f.p (pow3k (nOps f.p) c3 (nB + 1) (proj (pB f))).Z (0, 0) && same f.p (pow3k (nOps f.p) c3 (nB + 1) (proj (qB f))).Z (0, 0))

theorem okA_all : okA f (f.e2 / 2 - 1) = true := by cases f <;> decide +kernel
theorem okB_all : okB f (f.e3 - 1) = true := by cases f <;> decide +kernel

theorem pow2k_el (k : Nat) (r : Raw) : pow2k (fieldOps (Fq f)) (elC f c4) k (elP f (proj r)) =
    elP f (pow2k (nOps f.p) c4 k (proj r)) := (el_pow2k f c4 k (proj r)).symm

theorem pow3k_el (k : Nat) (r : Raw) : pow3k (fieldOps (Fq f)) (elC f c3) k (elP f (proj r)) =
    elP f (pow3k (nOps f.p) c3 k (proj r)) := (el_pow3k f c3 k (proj r)).symm

theorem pow_half (n : Nat) : 2 ^ (2 * n + 1) = 2 * 4 ^ n := by rw [pow_succ, pow_mul]; norm_num; ring
theorem pow_full (n : Nat) : 2 ^ (2 * n + 2) = 4 ^ (n + 1) := by
  rw [show 2 * n + 2 = 2 * (n + 1) by ring, pow_mul]; norm_num

theorem ind_group {Γ : Type} [AddCommGroup Γ] (n : Nat) (P Q : Γ) (z : ℤ) (hQ : (3 ^ (n + 1) : Nat) • Q = 0)
    (h0 : (3 ^ n : Nat) • (P + z • Q) = 0) :
    (3 ^ n : Nat) • P = 0 ∨ (3 ^ n : Nat) • P = (3 ^ n : Nat) • Q ∨ (3 ^ n : Nat) • P = -((3 ^ n : Nat) • Q) := by
  rw [smul_add, smul_comm _ z] at h0
  have hV : (3 ^ n : Nat) • Q + (3 ^ n : Nat) • Q + (3 ^ n : Nat) • Q = 0 := by
    rw [← hQ, pow_succ, mul_comm, mul_smul]
    generalize (3 ^ n : Nat) • Q = V
    abel
  generalize (3 ^ n : Nat) • P = U at *
  generalize (3 ^ n : Nat) • Q = V at *
  have hU : U = -(z • V) := eq_neg_of_add_eq_zero_left h0
  have hz : z = 3 * (z / 3) + z % 3 := (Int.mul_ediv_add_emod z 3).symm
  have e : z • V = (z % 3) • V := by
    nth_rw 1 [hz]
    have : (3 * (z / 3) + z % 3) • V = (z / 3) • (V + V + V) + (z % 3) • V := by module
    rw [this, hV, smul_zero, zero_add]
  rw [e] at hU
  have h3 : z % 3 = 0 ∨ z % 3 = 1 ∨ z % 3 = 2 := by omega
  rcases h3 with h3 | h3 | h3 <;> rw [h3] at hU
  · left; rw [hU, zero_smul, neg_zero]
  · right; right; rw [hU, one_smul]
  · right; left
    rw [hU]
    have : -((2 : ℤ) • V) = V - (V + V + V) := by module
    rw [this, hV, sub_zero]

/-- The points of the parameter sets meet the conditions of the protocol. -/
theorem basis {nA nB : Nat} (hA : okA f nA = true) (hB : okB f nB = true) : Basis nA nB (T f) (PA f) (QA f) (PB f) (QB f) := by
  simp only [okA, okB, Bool.and_eq_true, Bool.not_eq_true', ← Bool.not_eq_true, same_iff, el_zero, el_mul] at hA hB
  obtain ⟨⟨⟨⟨a1, a2⟩, a3⟩, a4⟩, a5, a6⟩ := hA
  obtain ⟨⟨⟨b1, b2⟩, b3⟩, b4, b5⟩ := hB
  have X := X0 f
  have rPA := proj_rep f (on_pA f)
  have rQA := proj_rep f (on_qA f)
  have rPB := proj_rep f (on_pB f)
  have rQB := proj_rep f (on_qB f)
  -- the A points
  have qa_ne := pow2k_ne X (c4_ok f) (2 * nA + 1) (QA f) _ (by simpa using QA_ne f) rQA (by rw [pow2k_el]; exact a2)
  have pa_ne := pow2k_ne X (c4_ok f) (2 * nA + 1) (PA f) _ (by simpa using PA_ne f) rPA (by rw [pow2k_el]; exact a4)
  have qa_rep := pow2k_rep X (c4_ok f) (2 * nA + 1) (QA f) _ qa_ne rQA
  have pa_rep := pow2k_rep X (c4_ok f) (2 * nA + 1) (PA f) _ pa_ne rPA
  have qa_z := pow2k_zero X (c4_ok f) (2 * nA + 2) (QA f) _ rQA (by rw [pow2k_el]; exact a5)
  have pa_z := pow2k_zero X (c4_ok f) (2 * nA + 2) (PA f) _ rPA (by rw [pow2k_el]; exact a6)
  rw [pow2k_el] at qa_rep pa_rep
  rw [pow_half] at qa_ne pa_ne qa_rep pa_rep
  rw [pow_full] at qa_z pa_z
  have qaT : (2 * 4 ^ nA : Nat) • QA f = T f := by
    have h0 : xc ((2 * 4 ^ nA : Nat) • QA f) = 0 := by
      have h1 : el f _ = xc _ * el f _ := qa_rep.2
      rw [a1] at h1
      exact (mul_eq_zero.mp h1.symm).resolve_right a2
    have := X.of_zero qa_ne h0
    exact sub_eq_zero.mp (by simpa using this)
  -- the B points
  obtain ⟨pb_ne, pb_rep⟩ := pow3k_ne X (six_sq f) (c3_ok f) nB (PB f) _ (by simpa using PB_ne f) rPB (by rw [pow3k_el]; exact b1)
  obtain ⟨qb_ne, qb_rep⟩ := pow3k_ne X (six_sq f) (c3_ok f) nB (QB f) _ (by simpa using QB_ne f) rQB (by rw [pow3k_el]; exact b2)
  have pb_z := pow3k_zero X (six_sq f) (c3_ok f) (nB + 1) (PB f) _ rPB (by rw [pow3k_el]; exact b4)
  have qb_z := pow3k_zero X (six_sq f) (c3_ok f) (nB + 1) (QB f) _ rQB (by rw [pow3k_el]; exact b5)
  rw [pow3k_el] at pb_rep qb_rep
  have hx : xc ((3 ^ nB : Nat) • PB f) ≠ xc ((3 ^ nB : Nat) • QB f) := by
    intro h
    apply b3
    have h1 : el f _ = xc _ * el f _ := pb_rep.2
    have h2 : el f _ = xc _ * el f _ := qb_rep.2
    rw [h1, h2, h]; ring
  rw [AddSubgroup.mem_bot] at qa_z pa_z pb_z qb_z qa_ne pa_ne pb_ne qb_ne
  refine ⟨pa_z, qa_z, qaT, pa_ne, ?_, pb_z, qb_z, QB_ne f, ?_⟩
  · intro h
    apply a3
    have h1 : el f _ = xc _ * el f _ := pa_rep.2
    rw [h1, h, X.zero, zero_mul]
  · intro z h0
    rcases ind_group nB (PB f) (QB f) z qb_z h0 with h | h | h
    · exact pb_ne h
    · exact hx (by rw [h])
    · exact hx (by rw [h, xc_neg])

/-- the state at the start of the protocol -/
noncomputable def s0 : St (Fq f) (E f).Point := ⟨6, ⊥, xc⟩

theorem s0_ok : (s0 f).Ok (T f) := X0 f

end Lemmas.SidhBase
