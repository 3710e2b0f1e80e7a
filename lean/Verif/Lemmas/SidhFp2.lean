import Verif.Spec.SidhFp2
import Verif.Lemmas.SidhPrime
import Mathlib.FieldTheory.Finite.Basic
/-! The quadratic-field routines compute the operations of F_{p²}. -/
namespace Lemmas.SidhFp2
open Model Model.Limb Model.Sidh Spec Spec.Sidh Lemmas.Limb Lemmas.SidhArith Lemmas.SidhGood

instance (f : Fld) : Fact f.p.Prime := ⟨Lemmas.SidhPrime.prime f⟩

theorem neg_one_nonsquare (f : Fld) : ¬ IsSquare (-1 : ZMod f.p) := by
  rw [ZMod.exists_sq_eq_neg_one_iff]
  have := p_odd f
  omega

instance (f : Fld) : Fact (∀ r : ZMod f.p, r ^ 2 ≠ -1 + 0 * r) := ⟨fun r h => neg_one_nonsquare f ⟨r, by rw [← sq, h]; ring⟩⟩

theorem R_ne (f : Fld) : (f.R : ZMod f.p) ≠ 0 := by
  rw [Ne, ZMod.natCast_eq_zero_iff]
  intro h
  have := Nat.Coprime.eq_one_of_dvd (coprime f).symm h
  have := p_gt f
  omega

variable {f : Fld}

/-- A word array that represents an element of F_p: right length, value below 2p. -/
structure V (f : Fld) (x : List W64) : Prop where
  len : x.length = f.words
  lt : val x < 2 * f.p

/-- The element of F_p an array denotes, in Montgomery form. -/
noncomputable def dn (f : Fld) (x : List W64) : ZMod f.p := (val x : ZMod f.p) * (f.R : ZMod f.p)⁻¹

theorem dn_inj (x y : List W64) : dn f x = dn f y ↔ (val x : ZMod f.p) = (val y : ZMod f.p) :=
  mul_left_inj' (inv_ne_zero (R_ne f))

theorem addP_V {x y : List W64} (hx : V f x) (hy : V f y) : V f (addP (primeOf f) x y) ∧ dn f (addP (primeOf f) x y) = dn f x + dn f y := by
  obtain ⟨a, b⟩ := addP_spec (good f) x y (by rw [hx.len, n_eq]) (by rw [hy.len, n_eq]) (by rw [p_eq]; exact hx.lt) (by rw [p_eq]; exact hy.lt)
  have hp := p_gt f
  rw [p_eq] at a
  refine ⟨⟨by rw [b, n_eq], by rw [a]; exact Nat.mod_lt _ (by omega)⟩, ?_⟩
  rw [dn, a, dn, dn, Lemmas.NPlusOne.cast_mod f.p _ (Dvd.intro_left 2 rfl), Nat.cast_add, add_mul]

theorem subP_V {x y : List W64} (hx : V f x) (hy : V f y) : V f (subP (primeOf f) x y) ∧ dn f (subP (primeOf f) x y) = dn f x - dn f y := by
  obtain ⟨a, b⟩ := subP_spec (good f) x y (by rw [hx.len, n_eq]) (by rw [hy.len, n_eq]) (by rw [p_eq]; exact hx.lt) (by rw [p_eq]; exact hy.lt)
  have hp := p_gt f
  rw [p_eq] at a
  refine ⟨⟨by rw [b, n_eq], by rw [a]; exact Nat.mod_lt _ (by omega)⟩, ?_⟩
  have hy' := hy.lt
  rw [dn, a, dn, dn, Lemmas.NPlusOne.cast_mod f.p _ (Dvd.intro_left 2 rfl), Nat.cast_sub (by omega)]
  push_cast
  rw [ZMod.natCast_self]
  ring

/-- Reduction of anything below pR. -/
theorem rdcP_V {x : List W64} (lx : x.length = 2 * f.words) (hx : val x < f.p * f.R) :
    V f (rdcP (primeOf f) x) ∧ (val (rdcP (primeOf f) x) : ZMod f.p) = (val x : ZMod f.p) * (f.R : ZMod f.p)⁻¹ := by
  obtain ⟨q, _, h2, h3, h4⟩ := rdcP_spec (good f) x (by rw [lx, n_eq]) (by rw [p_eq, R_eq]; exact hx)
  rw [p_eq, R_eq] at h2
  rw [p_eq] at h3
  refine ⟨⟨by rw [h4, n_eq], h3⟩, ?_⟩
  rw [eq_mul_inv_iff_mul_eq₀ (R_ne f), ← Nat.cast_mul, Nat.mul_comm, h2]
  push_cast
  rw [ZMod.natCast_self]
  ring

theorem mulW_V {x y : List W64} (hx : V f x) (hy : V f y) :
    val (mulW (primeOf f) x y) = val x * val y ∧ (mulW (primeOf f) x y).length = 2 * f.words ∧ val x * val y < 4 * f.p * f.p := by
  obtain ⟨a, b⟩ := mulW_spec (good f) x y (by rw [hx.len, n_eq]) (by rw [hy.len, n_eq])
  refine ⟨a, by rw [b, n_eq], ?_⟩
  have := Nat.mul_lt_mul'' hx.lt hy.lt
  linarith

theorem rdc_mul {x y : List W64} (hx : V f x) (hy : V f y) :
    V f (rdcP (primeOf f) (mulW (primeOf f) x y)) ∧ dn f (rdcP (primeOf f) (mulW (primeOf f) x y)) = dn f x * dn f y := by
  obtain ⟨a, b, c⟩ := mulW_V hx hy
  have hr := room f
  obtain ⟨d, e⟩ := rdcP_V (f := f) b (by rw [a]; nlinarith)
  refine ⟨d, ?_⟩
  rw [dn, e, a, dn, dn]
  push_cast
  ring

theorem mulP_V {x y : List W64} (hx : V f x) (hy : V f y) :
    V f (mulP (primeOf f) x y) ∧ dn f (mulP (primeOf f) x y) = dn f x * dn f y := rdc_mul hx hy

theorem zero_V (f : Fld) : V f (List.replicate (primeOf f).n 0) ∧ dn f (List.replicate (primeOf f).n 0) = 0 := by
  have := p_gt f
  refine ⟨⟨by rw [List.length_replicate, n_eq], by rw [val_replicate_zero]; omega⟩, ?_⟩
  rw [dn, val_replicate_zero, Nat.cast_zero, zero_mul]

/-! ### The power (p-3)/4 -/

/-- Exponent after the main loop of `p34` starting from exponent `e`. -/
def expLoop : Nat → List Nat → List Nat → Nat
  | e, pw :: pows, m :: muls => expLoop (e * 2 ^ (pw - 1 + 1) + (2 * m + 1)) pows muls
  | e, _, _ => e

theorem p34Table_V {xx last : List W64} (hxx : V f xx) (k : Nat) : ∀ (last : List W64), V f last → ∀ i, i < k →
    V f ((p34Table (primeOf f) xx last k).getD i []) ∧ dn f ((p34Table (primeOf f) xx last k).getD i []) = dn f last * dn f xx ^ (i + 1) := by
  induction k with
  | zero => intro _ _ i hi; omega
  | succ k ih =>
    intro last hl i hi
    obtain ⟨a, b⟩ := mulP_V hl hxx
    cases i with
    | zero =>
      simp only [p34Table, List.getD_cons_zero]
      exact ⟨a, by rw [b]; ring⟩
    | succ i =>
      simp only [p34Table, List.getD_cons_succ]
      obtain ⟨c, d⟩ := ih _ a i (by omega)
      exact ⟨c, by rw [d, b]; ring⟩

theorem sqrTimes_V (k : Nat) : ∀ {d : List W64}, V f d → V f (sqrTimes (primeOf f) d k) ∧ dn f (sqrTimes (primeOf f) d k) = dn f d ^ 2 ^ k := by
  induction k with
  | zero => intro d hd; exact ⟨hd, by simp [sqrTimes]⟩
  | succ k ih =>
    intro d hd
    obtain ⟨a, b⟩ := mulP_V hd hd
    obtain ⟨c, e⟩ := ih a
    refine ⟨c, ?_⟩
    simp only [sqrTimes]
    rw [e, b, ← sq, ← pow_mul, pow_succ, Nat.mul_comm]

theorem p34Loop_V (lookup : List (List W64)) (x : ZMod f.p) (hl : ∀ i, i < 16 → V f (lookup.getD i []) ∧ dn f (lookup.getD i []) = x ^ (2 * i + 1))
    (pows : List Nat) : ∀ (muls : List Nat) (d : List W64) (e : Nat), (∀ m ∈ muls, m < 16) → V f d → dn f d = x ^ e →
    V f (p34Loop (primeOf f) lookup d pows muls) ∧ dn f (p34Loop (primeOf f) lookup d pows muls) = x ^ expLoop e pows muls := by
  induction pows with
  | nil => intro muls d e _ hd he; exact ⟨hd, he⟩
  | cons pw pows ih =>
    intro muls d e hm hd he
    cases muls with
    | nil => exact ⟨hd, he⟩
    | cons m muls =>
      simp only [p34Loop, expLoop]
      obtain ⟨a, b⟩ := mulP_V hd hd
      obtain ⟨c, c'⟩ := sqrTimes_V (pw - 1) a
      obtain ⟨l, l'⟩ := hl m (hm m (by simp))
      obtain ⟨g, g'⟩ := mulP_V c l
      apply ih muls _ _ (fun k hk => hm k (by simp [hk])) g
      rw [g', c', b, l', he, ← pow_add, ← pow_mul, ← pow_add]
      congr 1
      rw [pow_succ]; ring

/-- The tables of `p34` spell out (p-3)/4. -/
theorem tables (f : Fld) : expLoop (2 * (primeOf f).initialMul + 1) (primeOf f).powStrategy (primeOf f).mulStrategy = (f.p - 3) / 4 ∧
    (∀ m ∈ (primeOf f).mulStrategy, m < 16) ∧ (primeOf f).initialMul < 16 := by
  cases f <;> decide +kernel

theorem p34_V {x : List W64} (hx : V f x) : V f (p34 (primeOf f) x) ∧ dn f (p34 (primeOf f) x) = dn f x ^ ((f.p - 3) / 4) := by
  obtain ⟨t1, t2, t3⟩ := tables f
  obtain ⟨a, b⟩ := mulP_V hx hx
  have hl : ∀ i, i < 16 → V f ((x :: p34Table (primeOf f) (mulP (primeOf f) x x) x 15).getD i []) ∧
      dn f ((x :: p34Table (primeOf f) (mulP (primeOf f) x x) x 15).getD i []) = dn f x ^ (2 * i + 1) := by
    intro i hi
    cases i with
    | zero => exact ⟨hx, by rw [List.getD_cons_zero]; ring⟩
    | succ i =>
      rw [List.getD_cons_succ]
      obtain ⟨c, d⟩ := p34Table_V (last := x) a 15 x hx i (by omega)
      refine ⟨c, ?_⟩
      rw [d, b]; ring
  obtain ⟨i1, i2⟩ := hl _ t3
  obtain ⟨r1, r2⟩ := p34Loop_V _ (dn f x) hl (primeOf f).powStrategy (primeOf f).mulStrategy _ _ t2 i1 i2
  exact ⟨r1, by rw [← t1]; exact r2⟩

/-! ### The quadratic field -/

/-- A valid representation of an element of F_{p²}. -/
structure V2 (f : Fld) (x : Fp2) : Prop where
  A : V f x.A
  B : V f x.B

/-- The element of F_{p²} denoted, in Montgomery form. -/
noncomputable def den (f : Fld) (x : Fp2) : Fq f := ⟨dn f x.A, dn f x.B⟩

theorem add_V {x y : Fp2} (hx : V2 f x) (hy : V2 f y) : V2 f (add (primeOf f) x y) ∧ den f (add (primeOf f) x y) = den f x + den f y := by
  obtain ⟨a, a'⟩ := addP_V hx.A hy.A
  obtain ⟨b, b'⟩ := addP_V hx.B hy.B
  refine ⟨⟨a, b⟩, ?_⟩
  ext
  · exact a'
  · exact b'

theorem sub_V {x y : Fp2} (hx : V2 f x) (hy : V2 f y) : V2 f (sub (primeOf f) x y) ∧ den f (sub (primeOf f) x y) = den f x - den f y := by
  obtain ⟨a, a'⟩ := subP_V hx.A hy.A
  obtain ⟨b, b'⟩ := subP_V hx.B hy.B
  refine ⟨⟨a, b⟩, ?_⟩
  ext
  · exact a'
  · exact b'

theorem mul_V {x y : Fp2} (hx : V2 f x) (hy : V2 f y) : V2 f (mul (primeOf f) x y) ∧ den f (mul (primeOf f) x y) = den f x * den f y := by
  have hr := room f
  have hp := p_gt f
  obtain ⟨ac, acl, acb⟩ := mulW_V hx.A hy.A
  obtain ⟨bd, bdl, bdb⟩ := mulW_V hx.B hy.B
  obtain ⟨s1, s1'⟩ := subP_V hx.B hx.A
  obtain ⟨s2, s2'⟩ := subP_V hy.A hy.B
  obtain ⟨m, ml, mb⟩ := mulW_V s1 s2
  have hR : (2 : Nat) ^ (64 * (2 * f.words)) = f.R * f.R := by rw [Fld.R, ← Nat.pow_add]; congr 1; omega
  have hpp : 4 * f.p * f.p + 4 * f.p * f.p + 4 * f.p * f.p ≤ f.p * f.R := by nlinarith
  have hRR : f.p * f.R ≤ f.R * f.R := Nat.mul_le_mul_right _ (by omega)
  obtain ⟨d1, d1l⟩ := adlP_spec (mulW (primeOf f) (subP (primeOf f) x.B x.A) (subP (primeOf f) y.A y.B)) (mulW (primeOf f) x.A y.A) (by omega)
    (by rw [ml, hR, m, ac]; omega)
  obtain ⟨d2, d2l⟩ := adlP_spec (adlP (mulW (primeOf f) (subP (primeOf f) x.B x.A) (subP (primeOf f) y.A y.B)) (mulW (primeOf f) x.A y.A))
    (mulW (primeOf f) x.B y.B) (by omega) (by rw [d1l, ml, hR, d1, m, ac, bd]; omega)
  obtain ⟨su, sul⟩ := sulP_spec (good f) (mulW (primeOf f) x.A y.A) (mulW (primeOf f) x.B y.B) (by rw [acl, n_eq]) (by rw [bdl, n_eq])
    (by rw [bd, p_eq, R_eq]; omega)
  rw [p_eq, R_eq, ac, bd] at su
  rw [n_eq] at sul
  have hsu : val (sulP (primeOf f) (mulW (primeOf f) x.A y.A) (mulW (primeOf f) x.B y.B)) < f.p * f.R := by
    rw [su]; split <;> omega
  obtain ⟨r1, r1'⟩ := rdcP_V (f := f) sul hsu
  obtain ⟨r2, r2'⟩ := rdcP_V (f := f) (x := adlP (adlP (mulW (primeOf f) (subP (primeOf f) x.B x.A) (subP (primeOf f) y.A y.B)) (mulW (primeOf f) x.A y.A))
    (mulW (primeOf f) x.B y.B)) (by omega) (by rw [d2, d1, m, ac, bd]; omega)
  refine ⟨⟨r1, r2⟩, ?_⟩
  have hcast : (val (sulP (primeOf f) (mulW (primeOf f) x.A y.A) (mulW (primeOf f) x.B y.B)) : ZMod f.p) =
      (val x.A : ZMod f.p) * val y.A - val x.B * val y.B := by
    rw [su]
    split
    · rw [Nat.cast_sub (by omega)]
      push_cast
      rw [ZMod.natCast_self]; ring
    · rw [Nat.cast_sub (by omega)]
      push_cast
      ring
  have c1 : (val (subP (primeOf f) x.B x.A) : ZMod f.p) = val x.B - val x.A := by
    have := s1'
    simp only [dn, ← sub_mul] at this
    exact mul_right_cancel₀ (inv_ne_zero (R_ne f)) this
  have c2 : (val (subP (primeOf f) y.A y.B) : ZMod f.p) = val y.A - val y.B := by
    have := s2'
    simp only [dn, ← sub_mul] at this
    exact mul_right_cancel₀ (inv_ne_zero (R_ne f)) this
  ext
  · simp only [den, QuadraticAlgebra.re_mul, mul]
    rw [dn, r1', hcast, dn, dn, dn, dn]
    ring
  · simp only [den, QuadraticAlgebra.im_mul, mul]
    rw [dn, r2', d2, d1, m, ac, bd, dn, dn, dn, dn]
    push_cast
    rw [c1, c2]
    ring

theorem sqr_V {x : Fp2} (hx : V2 f x) : V2 f (sqr (primeOf f) x) ∧ den f (sqr (primeOf f) x) = den f x * den f x := by
  obtain ⟨a1, a1'⟩ := addP_V hx.A hx.A
  obtain ⟨a2, a2'⟩ := addP_V hx.A hx.B
  obtain ⟨a3, a3'⟩ := subP_V hx.A hx.B
  obtain ⟨r1, r1'⟩ := rdc_mul a2 a3
  obtain ⟨r2, r2'⟩ := rdc_mul a1 hx.B
  refine ⟨⟨r1, r2⟩, ?_⟩
  ext
  · simp only [den, QuadraticAlgebra.re_mul, sqr]
    rw [r1', a2', a3']; ring
  · simp only [den, QuadraticAlgebra.im_mul, sqr]
    rw [r2', a1']; ring

theorem inv_V {x : Fp2} (hx : V2 f x) : V2 f (inv (primeOf f) x) ∧ den f (inv (primeOf f) x) = (den f x)⁻¹ := by
  have hr := room f
  have hp := p_gt f
  have hp4 := p_odd f
  obtain ⟨aa, aal, aab⟩ := mulW_V hx.A hx.A
  obtain ⟨bb, bbl, bbb⟩ := mulW_V hx.B hx.B
  have hR : (2 : Nat) ^ (64 * (2 * f.words)) = f.R * f.R := by rw [Fld.R, ← Nat.pow_add]; congr 1; omega
  have hpp : 4 * f.p * f.p + 4 * f.p * f.p + 4 * f.p * f.p ≤ f.p * f.R := by nlinarith
  have hRR : f.p * f.R ≤ f.R * f.R := Nat.mul_le_mul_right _ (by omega)
  obtain ⟨d1, d1l⟩ := adlP_spec (mulW (primeOf f) x.A x.A) (mulW (primeOf f) x.B x.B) (by omega) (by rw [aal, hR, aa, bb]; omega)
  obtain ⟨v1, v1'⟩ := rdcP_V (f := f) (x := adlP (mulW (primeOf f) x.A x.A) (mulW (primeOf f) x.B x.B)) (by omega) (by rw [d1, aa, bb]; omega)
  have hf1 : dn f (rdcP (primeOf f) (adlP (mulW (primeOf f) x.A x.A) (mulW (primeOf f) x.B x.B))) = dn f x.A ^ 2 + dn f x.B ^ 2 := by
    rw [dn, v1', d1, aa, bb, dn, dn]
    push_cast
    ring
  generalize hf1d : rdcP (primeOf f) (adlP (mulW (primeOf f) x.A x.A) (mulW (primeOf f) x.B x.B)) = f1 at *
  obtain ⟨g1, g1'⟩ := mulP_V v1 v1
  obtain ⟨g2, g2'⟩ := p34_V g1
  obtain ⟨g3, g3'⟩ := mulP_V g2 g2
  obtain ⟨g4, g4'⟩ := mulP_V g3 v1
  have hn : dn f (mulP (primeOf f) (mulP (primeOf f) (p34 (primeOf f) (mulP (primeOf f) f1 f1)) (p34 (primeOf f) (mulP (primeOf f) f1 f1))) f1) = (dn f f1)⁻¹ := by
    rw [g4', g3', g2', g1']
    by_cases h0 : dn f f1 = 0
    · rw [h0]; simp
    · apply eq_inv_of_mul_eq_one_left
      rw [show ∀ (a : ZMod f.p) (m : Nat), (a * a) ^ m * (a * a) ^ m * a * a = a ^ (4 * m + 2) by intro a m; ring,
        show 4 * ((f.p - 3) / 4) + 2 = f.p - 1 by omega]
      exact ZMod.pow_card_sub_one_eq_one h0
  obtain ⟨z, z'⟩ := zero_V f
  obtain ⟨n1, n1'⟩ := subP_V z hx.B
  obtain ⟨o1, o1'⟩ := rdc_mul hx.A g4
  obtain ⟨o2, o2'⟩ := rdc_mul n1 g4
  have hd : inv (primeOf f) x = ⟨rdcP (primeOf f) (mulW (primeOf f) x.A (mulP (primeOf f) (mulP (primeOf f) (p34 (primeOf f) (mulP (primeOf f) f1 f1)) (p34 (primeOf f) (mulP (primeOf f) f1 f1))) f1)),
      rdcP (primeOf f) (mulW (primeOf f) (subP (primeOf f) (List.replicate (primeOf f).n 0) x.B) (mulP (primeOf f) (mulP (primeOf f) (p34 (primeOf f) (mulP (primeOf f) f1 f1)) (p34 (primeOf f) (mulP (primeOf f) f1 f1))) f1))⟩ := by
    rw [← hf1d]; rfl
  rw [hd]
  refine ⟨⟨o1, o2⟩, ?_⟩
  ext
  · simp only [den]
    rw [o1', hn, hf1]
    simp [QuadraticAlgebra.inv_def, QuadraticAlgebra.norm]
    ring_nf
  · simp only [den]
    rw [o2', n1', z', hn, hf1]
    simp [QuadraticAlgebra.inv_def, QuadraticAlgebra.norm]
    ring_nf

/-! ### Montgomery conversions -/

theorem toMont1 {x : List W64} (lx : x.length = f.words) :
    V f (rdcP (primeOf f) (mulW (primeOf f) x (primeOf f).r2)) ∧ dn f (rdcP (primeOf f) (mulW (primeOf f) x (primeOf f).r2)) = (val x : ZMod f.p) := by
  obtain ⟨r, rl⟩ := r2_val f
  have hp := p_gt f
  obtain ⟨a, b⟩ := mulW_spec (good f) x (primeOf f).r2 (by rw [lx, n_eq]) (by rw [rl, n_eq])
  have hx := val_lt x
  rw [lx] at hx
  have hlt : f.R * f.R % f.p < f.p := Nat.mod_lt _ (by omega)
  obtain ⟨d, e⟩ := rdcP_V (f := f) (x := mulW (primeOf f) x (primeOf f).r2) (by rw [b, n_eq]) (by
    rw [a, r, Nat.mul_comm]
    exact Nat.mul_lt_mul'' hlt hx)
  refine ⟨d, ?_⟩
  rw [dn, e, a, r]
  push_cast
  rw [Lemmas.NPlusOne.cast_mod f.p _ (dvd_refl _)]
  push_cast
  have := R_ne f
  field_simp

theorem fromMont1 {x : List W64} (lx : x.length = f.words) :
    (modP (primeOf f) (rdcP (primeOf f) (x ++ List.replicate (primeOf f).n 0))).length = f.words ∧
    val (modP (primeOf f) (rdcP (primeOf f) (x ++ List.replicate (primeOf f).n 0))) < f.p ∧
    (val (modP (primeOf f) (rdcP (primeOf f) (x ++ List.replicate (primeOf f).n 0))) : ZMod f.p) = dn f x := by
  have hp := p_gt f
  have hv : val (x ++ List.replicate (primeOf f).n 0) = val x := by rw [val_append, val_replicate_zero, Nat.mul_zero, Nat.add_zero]
  have hx := val_lt x
  rw [lx] at hx
  obtain ⟨a, b⟩ := rdcP_V (f := f) (x := x ++ List.replicate (primeOf f).n 0) (by rw [List.length_append, lx, List.length_replicate, n_eq]; omega) (by
    rw [hv]
    have : f.R ≤ f.p * f.R := Nat.le_mul_of_pos_left _ (by omega)
    exact lt_of_lt_of_le hx this)
  obtain ⟨c, d⟩ := modP_spec (good f) _ (by rw [a.len, n_eq]) (by rw [p_eq]; exact a.lt)
  rw [p_eq] at c
  refine ⟨by rw [d, n_eq], by rw [c]; exact Nat.mod_lt _ (by omega), ?_⟩
  rw [c, Lemmas.NPlusOne.cast_mod f.p _ (dvd_refl _), b, hv, dn]

end Lemmas.SidhFp2
