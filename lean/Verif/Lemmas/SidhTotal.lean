import Verif.Lemmas.SidhWalk
/-
The x-only formulas of curve.go on all points of a Montgomery curve, infinity included.
-/
namespace Lemmas.SidhTotal
open Model Model.Sidh Lemmas.SidhNat Verif.XOnly Lemmas.SidhX Lemmas.SidhLadder Spec

variable {K : Type} [Field K] [DecidableEq K] {A : K}

/-- (X : Z) are projective x-coordinates of `P`; infinity is (X : 0) with X ≠ 0 -/
structure PX (P : (W A).Point) (p : Pt K) : Prop where
  inf : P = 0 → p.X ≠ 0 ∧ p.Z = 0
  fin : P ≠ 0 → Rep p (xc P)

theorem nonsing0 (h2 : (2 : K) ≠ 0) (hA : A ^ 2 ≠ 4) : (W A).Nonsingular 0 0 := W_nonsingular h2 hA (by ring)

/-- the point (0, 0) -/
def T0 (h2 : (2 : K) ≠ 0) (hA : A ^ 2 ≠ 4) : (W A).Point := .some 0 0 (nonsing0 h2 hA)

theorem baseX (h2 : (2 : K) ≠ 0) (hA : A ^ 2 ≠ 4) : XRep A (⊥ : AddSubgroup (W A).Point) (T0 h2 hA) xc := XRep.base h2 _

theorem four_ne (h2 : (2 : K) ≠ 0) : (4 : K) ≠ 0 := by
  intro h; apply h2
  have : (2 : K) * 2 = 0 := by linear_combination h
  simpa using this

theorem bot {P : (W A).Point} : P ∉ (⊥ : AddSubgroup (W A).Point) ↔ P ≠ 0 := by rw [AddSubgroup.mem_bot]

/-- a zero of the doubling denominator is not ±1 -/
theorem sq_ne {x : K} (h2 : (2 : K) ≠ 0) (hA : A ^ 2 ≠ 4) (h : dblDen A x = 0) : x ^ 2 - 1 ≠ 0 := by
  intro h1
  rw [dblDen] at h
  have h := (mul_eq_zero.mp h).resolve_left (four_ne h2)
  have h0 : x ≠ 0 := by rintro rfl; simp at h1
  have h := (mul_eq_zero.mp h).resolve_left h0
  apply hA
  have hAx : A * x = -2 := by linear_combination h - h1
  linear_combination (A * x - 2) * hAx - A ^ 2 * h1

theorem dbl_tot (h2 : (2 : K) ≠ 0) (hA : A ^ 2 ≠ 4) {c : Coef K} (hc : IsA4 c A) {P : (W A).Point} {p : Pt K} (hp : PX P p) :
    PX (P + P) (dblStep (fieldOps K) c p) := by
  have X := baseX h2 hA
  by_cases hP : P = 0
  · obtain ⟨h1, h3⟩ := hp.inf hP
    subst hP
    refine ⟨fun _ => ?_, fun h => absurd (add_zero 0) h⟩
    simp only [dblStep, fadd, fsub, fmul, fsqr, h3, sub_zero, add_zero]
    refine ⟨?_, by ring⟩
    exact mul_ne_zero (mul_ne_zero hc.C (mul_ne_zero h1 h1)) (mul_ne_zero h1 h1)
  · have hr := hp.fin hP
    refine ⟨fun h => ?_, fun h => ?_⟩
    · have hd := X.dbl0 P (bot.mpr hP) ((AddSubgroup.mem_bot).mpr h)
      obtain ⟨hZ, hX⟩ := hr
      have hs := sq_ne h2 hA hd
      constructor
      · have : (dblStep (fieldOps K) c p).X = c.C * p.Z ^ 4 * (xc P ^ 2 - 1) ^ 2 := by
          simp only [dblStep, fadd, fsub, fmul, fsqr, hX]; ring
        rw [this]
        exact mul_ne_zero (mul_ne_zero hc.C (pow_ne_zero 4 hZ)) (pow_ne_zero 2 hs)
      · have : (dblStep (fieldOps K) c p).Z = c.C * p.Z ^ 4 * dblDen A (xc P) := by
          simp only [dblStep, fadd, fsub, fmul, fsqr, hX, dblDen]
          linear_combination 4 * (xc P) ^ 2 * p.Z ^ 4 * hc.A
        rw [this, hd, mul_zero]
    · obtain ⟨h3, h4⟩ := X.dbl P (bot.mpr hP) (bot.mpr h)
      exact dblStep_rep h2 hc hr h3 h4

theorem pow2k_tot (h2 : (2 : K) ≠ 0) (hA : A ^ 2 ≠ 4) {c : Coef K} (hc : IsA4 c A) : ∀ (k : Nat) {P : (W A).Point} {p : Pt K},
    PX P p → PX ((2 ^ k : Nat) • P) (pow2k (fieldOps K) c k p)
  | 0, P, p, hp => by rw [pow_zero, one_smul]; exact hp
  | k + 1, P, p, hp => by
    rw [pow_succ, mul_smul, two_smul]
    exact pow2k_tot h2 hA hc k (dbl_tot h2 hA hc hp)

theorem scale3 {c : Coef K} (h2 : (2 : K) ≠ 0) (hc : IsA3 c A) : ∃ l : K, l ≠ 0 ∧ c.A = l * (A + 2) ∧ c.C = l * (A - 2) := by
  obtain ⟨hne, hA⟩ := hc
  have h4 := four_ne h2
  refine ⟨(c.A - c.C) / 4, ?_, ?_, ?_⟩
  · intro h0
    have h0 : c.A - c.C = 0 := by
      rcases div_eq_zero_iff.mp h0 with h | h
      · exact h
      · exact absurd h h4
    have h0 := sub_eq_zero.mp h0
    rw [h0] at hA
    have : 4 * c.C = 0 := by linear_combination -hA
    have := (mul_eq_zero.mp this).resolve_left h4
    exact hne ⟨h0.trans this, this⟩
  · field_simp; linear_combination -hA
  · field_simp; linear_combination -hA

theorem tpl_tot (h2 : (2 : K) ≠ 0) (hA : A ^ 2 ≠ 4) {c : Coef K} (hc : IsA3 c A) {P : (W A).Point} {p : Pt K} (hp : PX P p) :
    PX (P + P + P) (tplStep (fieldOps K) c p) := by
  have X := baseX h2 hA
  have h32 : (32 : K) ≠ 0 := by
    have : (32 : K) = 2 ^ 5 := by norm_num
    rw [this]; exact pow_ne_zero 5 h2
  obtain ⟨l, hl, hlA, hlC⟩ := scale3 h2 hc
  by_cases hP : P = 0
  · obtain ⟨h1, h3⟩ := hp.inf hP
    subst hP
    refine ⟨fun _ => ?_, fun h => absurd (by simp) h⟩
    constructor
    · have : (tplStep (fieldOps K) c p).X = 32 * l ^ 2 * p.X ^ 9 := by
        simp only [tplStep, fadd, fsub, fmul, fsqr, h3, hlA, hlC]; ring
      rw [this]
      exact mul_ne_zero (mul_ne_zero h32 (pow_ne_zero 2 hl)) (pow_ne_zero 9 h1)
    · simp only [tplStep, fadd, fsub, fmul, fsqr, h3, hlA, hlC]; ring
  · have hr := hp.fin hP
    by_cases h2P : P + P = 0
    · have hd := X.dbl0 P (bot.mpr hP) ((AddSubgroup.mem_bot).mpr h2P)
      have hs := sq_ne h2 hA hd
      rw [h2P, zero_add]
      refine ⟨fun h => absurd h hP, fun _ => ?_⟩
      rw [dblDen] at hd
      have hd := (mul_eq_zero.mp hd).resolve_left (four_ne h2)
      rcases mul_eq_zero.mp hd with h0 | h0
      · refine tplStep_rep h2 hc hr ?_ ?_
        · rw [psi3, h0]; simp
        · rw [psi3, h0]; ring
      · have e : psi3 A (xc P) = -(xc P ^ 2 - 1) ^ 2 := by rw [psi3]; linear_combination 4 * (xc P) ^ 2 * h0
        refine tplStep_rep h2 hc hr ?_ ?_
        · rw [e]; exact neg_ne_zero.mpr (pow_ne_zero 2 hs)
        · rw [e]
          have e2 : xc P ^ 4 - 6 * xc P ^ 2 - 4 * A * xc P - 3 = (xc P ^ 2 - 1) ^ 2 := by linear_combination -4 * h0
          rw [e2]; ring
    · by_cases h3P : P + P + P = 0
      · have hk : Ker3 (⊥ : AddSubgroup (W A).Point) P := ⟨(AddSubgroup.mem_bot).mpr h3P, bot.mpr hP⟩
        have hψ := hk.psi X
        have hk0 := hk.k_ne X
        refine ⟨fun _ => ?_, fun h => absurd h3P h⟩
        obtain ⟨hZ, hX⟩ := hr
        constructor
        · have hx : (tplStep (fieldOps K) c p).X = 32 * l ^ 2 * p.Z ^ 9 * (xc P * (xc P ^ 4 - 6 * xc P ^ 2 - 4 * A * xc P - 3) ^ 2) := by
            simp only [tplStep, fadd, fsub, fmul, fsqr, hX, hlA, hlC]; ring
          rw [hx]
          refine mul_ne_zero (mul_ne_zero (mul_ne_zero h32 (pow_ne_zero 2 hl)) (pow_ne_zero 9 hZ)) (mul_ne_zero hk0 (pow_ne_zero 2 ?_))
          intro hq
          have h6 : (xc P ^ 2 - 1) ^ 3 = 0 := by linear_combination xc P ^ 2 * hq + hψ
          have h1 := pow_eq_zero_iff (by norm_num) |>.mp h6
          apply hA
          have h8 : 4 * (A * xc P + 2) = 0 := by linear_combination hψ - (3 * xc P ^ 2 + 4 * A * xc P + 9) * h1
          have h8 := (mul_eq_zero.mp h8).resolve_left (four_ne h2)
          linear_combination (A * xc P - 2) * h8 - A ^ 2 * h1
        · have hz : (tplStep (fieldOps K) c p).Z = 32 * l ^ 2 * p.Z ^ 9 * (3 * xc P ^ 4 + 4 * A * xc P ^ 3 + 6 * xc P ^ 2 - 1) ^ 2 := by
            simp only [tplStep, fadd, fsub, fmul, fsqr, hX, hlA, hlC]; ring
          rw [hz, hψ]; ring
      · refine ⟨fun h => absurd h h3P, fun _ => ?_⟩
        obtain ⟨h4, h5⟩ := X.tpl (bot.mpr hP) (bot.mpr h2P) (bot.mpr h3P)
        exact tplStep_rep h2 hc hr h4 h5

theorem pow3k_tot (h2 : (2 : K) ≠ 0) (hA : A ^ 2 ≠ 4) {c : Coef K} (hc : IsA3 c A) : ∀ (k : Nat) {P : (W A).Point} {p : Pt K},
    PX P p → PX ((3 ^ k : Nat) • P) (pow3k (fieldOps K) c k p)
  | 0, P, p, hp => by rw [pow_zero, one_smul]; exact hp
  | k + 1, P, p, hp => by
    have e : (3 ^ (k + 1) : Nat) • P = (3 ^ k : Nat) • (P + P + P) := by
      rw [pow_succ, mul_smul]
      congr 1
      rw [show (3 : Nat) = 2 + 1 from rfl, add_smul, two_smul, one_smul]
    rw [e]
    exact pow3k_tot h2 hA hc k (tpl_tot h2 hA hc hp)

theorem xdbl_tot (h2 : (2 : K) ≠ 0) (hA : A ^ 2 ≠ 4) {a24 : K} (ha : 4 * a24 = A + 2) {P : (W A).Point} {p : Pt K} (hp : PX P p) (q d : Pt K) :
    PX (P + P) (xDbladd (fieldOps K) p q d a24).1 := by
  have X := baseX h2 hA
  by_cases hP : P = 0
  · obtain ⟨h1, h3⟩ := hp.inf hP
    subst hP
    refine ⟨fun _ => ?_, fun h => absurd (add_zero 0) h⟩
    simp only [xDbladd, fadd, fsub, fmul, fsqr, h3, sub_zero, add_zero]
    refine ⟨?_, by ring⟩
    exact mul_ne_zero (mul_ne_zero h1 h1) (mul_ne_zero h1 h1)
  · have hr := hp.fin hP
    refine ⟨fun h => ?_, fun h => ?_⟩
    · have hd := X.dbl0 P (bot.mpr hP) ((AddSubgroup.mem_bot).mpr h)
      obtain ⟨hZ, hX⟩ := hr
      have hs := sq_ne h2 hA hd
      constructor
      · have : (xDbladd (fieldOps K) p q d a24).1.X = p.Z ^ 4 * (xc P ^ 2 - 1) ^ 2 := by
          simp only [xDbladd, fadd, fsub, fmul, fsqr, hX]; ring
        rw [this]
        exact mul_ne_zero (pow_ne_zero 4 hZ) (pow_ne_zero 2 hs)
      · have : (xDbladd (fieldOps K) p q d a24).1.Z = p.Z ^ 4 * dblDen A (xc P) := by
          simp only [xDbladd, fadd, fsub, fmul, fsqr, hX, dblDen]
          linear_combination 4 * (xc P) ^ 2 * p.Z ^ 4 * ha
        rw [this, hd, mul_zero]
    · obtain ⟨h3, h4⟩ := X.dbl P (bot.mpr hP) (bot.mpr h)
      exact xDbladd_dbl h2 ha hr h3 h4

/-- differential addition, for every pair whose difference is neither infinity nor (0, 0) -/
theorem xadd_tot (h2 : (2 : K) ≠ 0) (hA : A ^ 2 ≠ 4) (a24 : K) {P Q : (W A).Point} {p q d : Pt K} (hp : PX P p) (hq : PX Q q) (hd : PX (P - Q) d)
    (hne : P - Q ≠ 0) (hT : P - Q ≠ T0 h2 hA) : PX (P + Q) (xDbladd (fieldOps K) p q d a24).2 := by
  have X := baseX h2 hA
  have h4 := four_ne h2
  have hx : (xDbladd (fieldOps K) p q d a24).2.X = 4 * d.Z * (p.X * q.X - p.Z * q.Z) ^ 2 := by
    simp only [xDbladd, fadd, fsub, fmul, fsqr]; ring
  have hz : (xDbladd (fieldOps K) p q d a24).2.Z = 4 * d.X * (p.X * q.Z - p.Z * q.X) ^ 2 := by
    simp only [xDbladd, fadd, fsub, fmul, fsqr]; ring
  obtain ⟨dZ, dX⟩ := hd.fin hne
  have d0 : xc (P - Q) ≠ 0 := X.ne_zero (bot.mpr hne) (by rw [bot, sub_ne_zero]; exact hT)
  have dX0 : d.X ≠ 0 := by rw [dX]; exact mul_ne_zero d0 dZ
  by_cases hP : P = 0
  · obtain ⟨h1, h3⟩ := hp.inf hP
    subst hP
    have hQ : Q ≠ 0 := by rintro rfl; simp at hne
    obtain ⟨qZ, qX⟩ := hq.fin hQ
    rw [zero_sub, xc_neg] at d0 dX
    rw [zero_add]
    refine ⟨fun h => absurd h hQ, fun _ => ⟨?_, ?_⟩⟩
    · rw [hz, h3]
      exact mul_ne_zero (mul_ne_zero h4 dX0) (pow_ne_zero 2 (by rw [zero_mul, sub_zero]; exact mul_ne_zero h1 qZ))
    · rw [hz, hx, h3, dX, qX]; ring
  by_cases hQ : Q = 0
  · obtain ⟨h1, h3⟩ := hq.inf hQ
    subst hQ
    obtain ⟨pZ, pX⟩ := hp.fin hP
    rw [sub_zero] at d0 dX
    rw [add_zero]
    refine ⟨fun h => absurd h hP, fun _ => ⟨?_, ?_⟩⟩
    · rw [hz, h3]
      exact mul_ne_zero (mul_ne_zero h4 dX0) (pow_ne_zero 2 (by rw [mul_zero, zero_sub]; exact neg_ne_zero.mpr (mul_ne_zero pZ h1)))
    · rw [hz, hx, h3, dX, pX]; ring
  obtain ⟨pZ, pX⟩ := hp.fin hP
  obtain ⟨qZ, qX⟩ := hq.fin hQ
  by_cases hs : P + Q = 0
  · refine ⟨fun _ => ?_, fun h => absurd hs h⟩
    have e : xc P = xc Q := by rw [← xc_neg Q, eq_neg_of_add_eq_zero_left hs]
    have e2 : P + P = P - Q := by
      have := eq_neg_of_add_eq_zero_right hs
      rw [this, sub_neg_eq_add]
    obtain ⟨b1, b2⟩ := X.dbl P (bot.mpr hP) (bot.mpr (by rw [e2]; exact hne))
    have h1 : xc P ^ 2 - 1 ≠ 0 := by
      intro h1
      rw [h1, e2] at b2
      have : xc (P - Q) * dblDen A (xc P) = 0 := by rw [b2]; ring
      rcases mul_eq_zero.mp this with h | h
      · exact d0 h
      · exact b1 h
    constructor
    · rw [hx, pX, qX, ← e]
      have : xc P * p.Z * (xc P * q.Z) - p.Z * q.Z = p.Z * q.Z * (xc P ^ 2 - 1) := by ring
      rw [this]
      exact mul_ne_zero (mul_ne_zero h4 dZ) (pow_ne_zero 2 (mul_ne_zero (mul_ne_zero pZ qZ) h1))
    · rw [hz, pX, qX, ← e]; ring
  · refine ⟨fun h => absurd h hs, fun _ => ?_⟩
    exact xDbladd_add h4 ⟨pZ, pX⟩ ⟨qZ, qX⟩ ⟨dZ, dX⟩ (X.add P Q (bot.mpr hP) (bot.mpr hQ) (bot.mpr hs) (bot.mpr hne)) d0

theorem PX.neg {P : (W A).Point} {p : Pt K} (h : PX P p) : PX (-P) p :=
  ⟨fun h0 => h.inf (neg_eq_zero.mp h0), fun h0 => by rw [xc_neg]; exact h.fin (neg_ne_zero.mp h0)⟩

section
variable {Γ : Type*} [AddCommGroup Γ]
theorem gid1 (P Q : Γ) (m i : Nat) : (2 ^ i : ℤ) • Q + (P + (m : ℤ) • Q) = P + ((m + 2 ^ i : Nat) : ℤ) • Q := by push_cast; module
theorem gid2 (P Q : Γ) (m i : Nat) : (2 ^ i : ℤ) • Q - (P + (m : ℤ) • Q) = -(P + ((m : ℤ) - 2 ^ i) • Q) := by module
theorem gid3 (P Q : Γ) (m i : Nat) : (2 ^ i : ℤ) • Q + -(P + ((m : ℤ) - 2 ^ i) • Q) = -(P + ((m : ℤ) - 2 ^ (i + 1)) • Q) := by
  rw [pow_succ]; module
theorem gid4 (P Q : Γ) (m i : Nat) : (2 ^ i : ℤ) • Q - -(P + ((m : ℤ) - 2 ^ i) • Q) = P + (m : ℤ) • Q := by module
theorem gid5 (Q : Γ) (i : Nat) : (2 ^ i : ℤ) • Q + (2 ^ i : ℤ) • Q = (2 ^ (i + 1) : ℤ) • Q := by rw [pow_succ]; module
theorem gid6 (P Q : Γ) (m i : Nat) : P + (((m + 2 ^ i : Nat) : ℤ) - 2 ^ (i + 1)) • Q = P + ((m : ℤ) - 2 ^ i) • Q := by
  rw [pow_succ]; push_cast; module
theorem gid7 (P Q : Γ) : P + (((0 : Nat) : ℤ) - 2 ^ 0) • Q = P - Q := by push_cast; module
theorem gid8 (P Q : Γ) : P + ((0 : Nat) : ℤ) • Q = P := by push_cast; module
theorem gid9 (Q : Γ) : (2 ^ 0 : ℤ) • Q = Q := by module
end

theorem ladderLoop_tot (h2 : (2 : K) ≠ 0) (hA : A ^ 2 ≠ 4) {a24 : K} (ha : 4 * a24 = A + 2) {P Q : (W A).Point} (s : List Byte) (n : Nat)
    (hne : ∀ z : ℤ, |z| < 2 ^ n → P + z • Q ≠ 0 ∧ P + z • Q ≠ T0 h2 hA) :
    ∀ (k i m : Nat) (r0 r1 r2 : Pt K) (b : Byte), i + k ≤ 8 * s.length → i + k = n →
    PX ((2 ^ i : ℤ) • Q) r0 → m = bval s % 2 ^ i → (b = 0 ∨ b = 1) →
    PX (P + (m : ℤ) • Q) (if b = 0 then r1 else r2) → PX (P + ((m : ℤ) - 2 ^ i) • Q) (if b = 0 then r2 else r1) →
    ∃ t1 t2 c, ladderLoop (fieldOps K) a24 s i k r0 r1 r2 b = some (t1, t2, c) ∧
      PX (P + ((bval s % 2 ^ (i + k) : Nat) : ℤ) • Q) (if c = 0 then t1 else t2) := by
  intro k
  induction k with
  | zero =>
    intro i m r0 r1 r2 b _ _ _ hm _ h1 _
    exact ⟨r1, r2, b, rfl, by rw [Nat.add_zero, ← hm]; exact h1⟩
  | succ k ih =>
    intro i m r0 r1 r2 b hl hin h0 hm hb h1 h3
    have hbit := scalarBit_eq s i (by omega)
    have hmi : m < 2 ^ i := by rw [hm]; exact Nat.mod_lt _ (by positivity)
    have hin' : (2 : ℤ) ^ i < 2 ^ n := pow_lt_pow_right₀ (by norm_num) (by omega)
    have hmz : (m : ℤ) < 2 ^ i := by exact_mod_cast hmi
    have hR1 := hne m (by rw [abs_of_nonneg (by positivity)]; omega)
    have hR2 := hne ((m : ℤ) - 2 ^ i) (by rw [abs_of_neg (by omega)]; omega)
    have hpow : bval s % 2 ^ (i + 1) = m + 2 ^ i * (if (bval s).testBit i then 1 else 0) := by
      rw [hm, Nat.mod_pow_succ]
      congr 2
      rw [Nat.testBit_eq_decide_div_mod_eq]
      have := Nat.mod_two_eq_zero_or_one (bval s / 2 ^ i)
      rcases this with h | h <;> simp [h]
    have hn : i + 1 + k ≤ 8 * s.length := by omega
    have hadd : i + (k + 1) = i + 1 + k := by omega
    have hd : ∀ q d : Pt K, PX ((2 ^ (i + 1) : ℤ) • Q) (xDbladd (fieldOps K) r0 q d a24).1 := by
      intro q d
      rw [← gid5]; exact xdbl_tot h2 hA ha h0 q d
    have negT : ∀ R : (W A).Point, R ≠ T0 h2 hA → -R ≠ T0 h2 hA := by
      intro R hR h
      apply hR
      rw [neg_eq_iff_eq_neg] at h
      rw [h]
      have := (baseX h2 hA).T2
      rw [AddSubgroup.mem_bot] at this
      exact (eq_neg_of_add_eq_zero_left this).symm
    by_cases ht : (bval s).testBit i = true
    · rw [if_pos ht, Nat.mul_one] at hpow
      rw [if_pos ht] at hbit
      have step : ∀ p q : Pt K, PX (P + (m : ℤ) • Q) p → PX (P + ((m : ℤ) - 2 ^ i) • Q) q →
          PX (P + ((m + 2 ^ i : Nat) : ℤ) • Q) (xDbladd (fieldOps K) r0 p q a24).2 := by
        intro p q hp hq
        rw [← gid1]
        refine xadd_tot h2 hA a24 h0 hp (by rw [gid2]; exact hq.neg) ?_ ?_
        · rw [gid2]; exact neg_ne_zero.mpr hR2.1
        · rw [gid2]; exact negT _ hR2.2
      have hsw : cswapPt (fieldOps K) r1 r2 (b ^^^ 1) = (if b = 0 then r2 else r1, if b = 0 then r1 else r2) := by
        rw [cswapPt_eq]
        rcases hb with rfl | rfl <;> rfl
      obtain ⟨t1, t2, c, h4, h5⟩ := ih (i + 1) (m + 2 ^ i)
        (xDbladd (fieldOps K) r0 (if b = 0 then r1 else r2) (if b = 0 then r2 else r1) a24).1
        (if b = 0 then r2 else r1) (xDbladd (fieldOps K) r0 (if b = 0 then r1 else r2) (if b = 0 then r2 else r1) a24).2 1 hn (by omega)
        (hd _ _) hpow.symm (Or.inr rfl) (step _ _ h1 h3) (by rw [gid6]; exact h3)
      refine ⟨t1, t2, c, ?_, by rw [hadd]; exact h5⟩
      rw [ladderLoop, hbit]
      simp only [Option.bind_eq_bind, Option.bind_some]
      rw [hsw]
      exact h4
    · rw [if_neg ht, Nat.mul_zero, Nat.add_zero] at hpow
      rw [if_neg ht] at hbit
      have step : ∀ p q : Pt K, PX (P + ((m : ℤ) - 2 ^ i) • Q) p → PX (P + (m : ℤ) • Q) q →
          PX (P + ((m : ℤ) - 2 ^ (i + 1)) • Q) (xDbladd (fieldOps K) r0 p q a24).2 := by
        intro p q hp hq
        have := xadd_tot h2 hA a24 (P := (2 ^ i : ℤ) • Q) (Q := -(P + ((m : ℤ) - 2 ^ i) • Q)) h0 hp.neg (by rw [gid4]; exact hq)
          (by rw [gid4]; exact hR1.1) (by rw [gid4]; exact hR1.2)
        rw [gid3] at this
        have := this.neg
        rwa [neg_neg] at this
      have hsw : cswapPt (fieldOps K) r1 r2 (b ^^^ 0) = (if b = 0 then r1 else r2, if b = 0 then r2 else r1) := by
        rw [cswapPt_eq]
        rcases hb with rfl | rfl <;> rfl
      obtain ⟨t1, t2, c, h4, h5⟩ := ih (i + 1) m
        (xDbladd (fieldOps K) r0 (if b = 0 then r2 else r1) (if b = 0 then r1 else r2) a24).1
        (if b = 0 then r1 else r2) (xDbladd (fieldOps K) r0 (if b = 0 then r2 else r1) (if b = 0 then r1 else r2) a24).2 0 hn (by omega)
        (hd _ _) hpow.symm (Or.inl rfl) h1 (step _ _ h3 h1)
      refine ⟨t1, t2, c, ?_, by rw [hadd]; exact h5⟩
      rw [ladderLoop, hbit]
      simp only [Option.bind_eq_bind, Option.bind_some]
      rw [hsw]
      exact h4

theorem scalarMul3Pt_tot (h2 : (2 : K) ≠ 0) (hA : A ^ 2 ≠ 4) {c : Coef K} (hc : IsA c A) {P Q : (W A).Point} (s : List Byte) (n : Nat)
    (hn : n ≤ 8 * s.length) (hne : ∀ z : ℤ, |z| < 2 ^ n → P + z • Q ≠ 0 ∧ P + z • Q ≠ T0 h2 hA) {p q r : Pt K}
    (hp : PX P p) (hq : PX Q q) (hr : PX (P - Q) r) :
    ∃ x, scalarMul3Pt (fieldOps K) c p q r n s = some x ∧ PX (P + ((bval s % 2 ^ n : Nat) : ℤ) • Q) x := by
  obtain ⟨t1, t2, b, h1, h3⟩ := ladderLoop_tot h2 hA (aplus2 (four_ne h2) hc) s n hne n 0 0 q p r 0 (by omega) (by omega)
    (by rw [gid9]; exact hq) (by simp [Nat.mod_one]) (Or.inl rfl) (by rw [gid8]; exact hp) (by rw [gid7]; exact hr)
  refine ⟨if b = 0 then t1 else t2, ?_, by rw [Nat.zero_add] at h3; exact h3⟩
  rw [scalarMul3Pt]
  simp only [Option.bind_eq_bind]
  rw [h1]
  simp only [Option.bind_some]
  rw [cswapPt_eq]
  split <;> rfl

end Lemmas.SidhTotal
