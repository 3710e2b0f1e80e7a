import Verif.Lemmas.SidhFp2
/-!
C43–C45: the quadratic field of SIDH.  `Fq f` is F_p[i]/(i² + 1) with p = 2^e2·3^e3 − 1.

An `Fp2` is a pair of word arrays.  `IsElt f x a` says: the arrays have the right length, hold values below 2p, and
represent `a` in Montgomery form, that is they are congruent to R·re a and R·im a modulo p.
-/
namespace Props.SidhFp2
open Model Model.Sidh Spec Spec.Sidh Lemmas.SidhArith Lemmas.SidhGood Lemmas.SidhFp2

/-- `x` represents the field element `a`. -/
structure IsElt (f : Fld) (x : Fp2) (a : Fq f) : Prop where
  lenA : x.A.length = f.words
  lenB : x.B.length = f.words
  ltA : val x.A < 2 * f.p
  ltB : val x.B < 2 * f.p
  re : (val x.A : ZMod f.p) = f.R * a.re
  im : (val x.B : ZMod f.p) = f.R * a.im

theorem isElt_iff {f : Fld} {x : Fp2} {a : Fq f} : IsElt f x a ↔ V2 f x ∧ den f x = a := by
  have hR := R_ne f
  constructor
  · intro h
    refine ⟨⟨⟨h.lenA, h.ltA⟩, ⟨h.lenB, h.ltB⟩⟩, ?_⟩
    ext
    · simp only [den, dn, h.re]; field_simp
    · simp only [den, dn, h.im]; field_simp
  · rintro ⟨h, rfl⟩
    refine ⟨h.A.len, h.B.len, h.A.lt, h.B.lt, ?_, ?_⟩
    · simp only [den, dn]; field_simp
    · simp only [den, dn]; field_simp

/-- C44. The moduli are prime and −1 is not a square modulo them; the limb constants hold these numbers. -/
theorem c44_sidh (f : Fld) : f.p.Prime ∧ ¬ IsSquare (-1 : ZMod f.p) ∧ val (primeOf f).p = f.p :=
  ⟨Lemmas.SidhPrime.prime f, neg_one_nonsquare f, p_eq f⟩

/-- C43. Addition, subtraction, multiplication, squaring and inversion are those of F_{p²}; `a⁻¹` is the inverse of
`a` when `a ≠ 0` and 0 when `a = 0`. -/
theorem c43_field (f : Fld) (x y : Fp2) (a b : Fq f) (hx : IsElt f x a) (hy : IsElt f y b) :
    IsElt f (add (primeOf f) x y) (a + b) ∧ IsElt f (sub (primeOf f) x y) (a - b) ∧
    IsElt f (mul (primeOf f) x y) (a * b) ∧ IsElt f (sqr (primeOf f) x) (a ^ 2) ∧ IsElt f (inv (primeOf f) x) a⁻¹ := by
  obtain ⟨vx, rfl⟩ := isElt_iff.mp hx
  obtain ⟨vy, rfl⟩ := isElt_iff.mp hy
  refine ⟨isElt_iff.mpr (add_V vx vy), isElt_iff.mpr (sub_V vx vy), isElt_iff.mpr (mul_V vx vy), ?_, isElt_iff.mpr (inv_V vx)⟩
  rw [sq]
  exact isElt_iff.mpr (sqr_V vx)

/-- C43. Inversion spelled out. -/
theorem c43_inv (f : Fld) (x : Fp2) (a : Fq f) (hx : IsElt f x a) :
    ∃ b, IsElt f (inv (primeOf f) x) b ∧ (a ≠ 0 → a * b = 1) ∧ (a = 0 → b = 0) := by
  refine ⟨a⁻¹, (c43_field f x x a a hx hx).2.2.2.2, fun h => mul_inv_cancel₀ h, fun h => by rw [h, inv_zero]⟩

/-- Every element of the field has a representation, so the hypotheses of C43 are met for all a and b. -/
theorem c43_total (f : Fld) (a : Fq f) : ∃ x, IsElt f x a := by
  let lift (c : ZMod f.p) : ∃ l : List W64, V f l ∧ dn f l = c := by
    have hp := p_gt f
    have hw : ∀ (n v : Nat), v < 2 ^ (64 * n) → ∃ l : List W64, l.length = n ∧ val l = v := by
      intro n
      induction n with
      | zero => intro v hv; exact ⟨[], rfl, by simp at hv; simp [val, hv]⟩
      | succ n ih =>
        intro v hv
        obtain ⟨l, h1, h2⟩ := ih (v / 2 ^ 64) (by
          rw [Nat.div_lt_iff_lt_mul (by positivity), ← Nat.pow_add]
          exact lt_of_lt_of_eq hv (by congr 1))
        refine ⟨BitVec.ofNat 64 v :: l, by simp [h1], ?_⟩
        rw [val, h2, BitVec.toNat_ofNat]
        omega
    obtain ⟨l, h1, h2⟩ := hw f.words (ZMod.val (c * (f.R : ZMod f.p))) (by
      have := ZMod.val_lt (c * (f.R : ZMod f.p))
      have h12 := room f
      rw [Fld.R] at h12
      omega)
    refine ⟨l, ⟨h1, ?_⟩, ?_⟩
    · have := ZMod.val_lt (c * (f.R : ZMod f.p))
      omega
    · have := R_ne f
      rw [dn, h2, ZMod.natCast_zmod_val]
      field_simp
  obtain ⟨l, h1, h2⟩ := lift a.re
  obtain ⟨m, g1, g2⟩ := lift a.im
  exact ⟨⟨l, m⟩, isElt_iff.mpr ⟨⟨h1, g1⟩, by ext; exacts [h2, g2]⟩⟩

/-- The constants `one`, `half` and `six` of the packages represent 1, 1/2 and 6. -/
theorem c43_constants : IsElt .p434 one434 1 ∧ IsElt .p503 one503 1 ∧ IsElt .p751 one751 1 ∧
    IsElt .p434 six434 6 ∧ IsElt .p503 six503 6 ∧ IsElt .p751 six751 6 ∧
    (∃ h, IsElt .p434 half434 h ∧ h + h = 1) ∧ (∃ h, IsElt .p503 half503 h ∧ h + h = 1) ∧ (∃ h, IsElt .p751 half751 h ∧ h + h = 1) := by
  have key : ∀ (f : Fld) (k : Nat) (x : Fp2), x.A.length = f.words → x.B.length = f.words → val x.A < 2 * f.p → val x.B = 0 →
      val x.A % f.p = f.R * k % f.p → IsElt f x (k : Fq f) := by
    intro f k x h1 h2 h3 h4 h5
    refine ⟨h1, h2, by omega, by omega, ?_, ?_⟩
    · rw [show ((k : Fq f)).re = (k : ZMod f.p) from QuadraticAlgebra.re_natCast k, ← Nat.cast_mul, ZMod.natCast_eq_natCast_iff]
      exact h5
    · rw [h4, show ((k : Fq f)).im = 0 from QuadraticAlgebra.im_natCast k]; simp
  have half : ∀ (f : Fld) (x : Fp2), x.A.length = f.words → x.B.length = f.words → val x.A < f.p → val x.B = 0 →
      (val x.A + val x.A) % f.p = f.R % f.p → ∃ h, IsElt f x h ∧ h + h = 1 := by
    intro f x h1 h2 h3 h4 h5
    have hR := R_ne f
    refine ⟨den f x, isElt_iff.mpr ⟨⟨⟨h1, by omega⟩, ⟨h2, by omega⟩⟩, rfl⟩, ?_⟩
    ext
    · change dn f x.A + dn f x.A = 1
      rw [dn, ← add_mul, ← Nat.cast_add, (ZMod.natCast_eq_natCast_iff _ _ f.p).mpr h5]
      field_simp
    · change dn f x.B + dn f x.B = 0
      rw [dn, h4]; simp
  refine ⟨?_, ?_, ?_, ?_, ?_, ?_, half _ _ rfl rfl ?_ ?_ ?_, half _ _ rfl rfl ?_ ?_ ?_, half _ _ rfl rfl ?_ ?_ ?_⟩
  · exact_mod_cast key .p434 1 one434 rfl rfl (by decide +kernel) (by decide +kernel) (by decide +kernel)
  · exact_mod_cast key .p503 1 one503 rfl rfl (by decide +kernel) (by decide +kernel) (by decide +kernel)
  · exact_mod_cast key .p751 1 one751 rfl rfl (by decide +kernel) (by decide +kernel) (by decide +kernel)
  · exact_mod_cast key .p434 6 six434 rfl rfl (by decide +kernel) (by decide +kernel) (by decide +kernel)
  · exact_mod_cast key .p503 6 six503 rfl rfl (by decide +kernel) (by decide +kernel) (by decide +kernel)
  · exact_mod_cast key .p751 6 six751 rfl rfl (by decide +kernel) (by decide +kernel) (by decide +kernel)
  all_goals decide +kernel

/-- C45. Conversion into Montgomery form of any words (also above p) represents their values; conversion out gives
the canonical representatives of the denoted element; converting in and out reduces modulo p. -/
theorem c45_montgomery (f : Fld) (x : Fp2) (ha : x.A.length = f.words) (hb : x.B.length = f.words) :
    IsElt f (toMontgomery (primeOf f) x) ⟨(val x.A : ZMod f.p), (val x.B : ZMod f.p)⟩ ∧
    val (fromMontgomery (primeOf f) (toMontgomery (primeOf f) x)).A = val x.A % f.p ∧
    val (fromMontgomery (primeOf f) (toMontgomery (primeOf f) x)).B = val x.B % f.p := by
  obtain ⟨a, a'⟩ := toMont1 (f := f) ha
  obtain ⟨b, b'⟩ := toMont1 (f := f) hb
  obtain ⟨_, c, c'⟩ := fromMont1 (f := f) a.len
  obtain ⟨_, d, d'⟩ := fromMont1 (f := f) b.len
  refine ⟨isElt_iff.mpr ⟨⟨a, b⟩, by ext; exacts [a', b']⟩, ?_, ?_⟩
  · rw [a', ZMod.natCast_eq_natCast_iff] at c'
    exact (Nat.mod_eq_of_lt c).symm.trans c'
  · rw [b', ZMod.natCast_eq_natCast_iff] at d'
    exact (Nat.mod_eq_of_lt d).symm.trans d'

/-- C45. Conversion out of Montgomery form yields the canonical representatives of the denoted element. -/
theorem c45_from (f : Fld) (x : Fp2) (a : Fq f) (hx : IsElt f x a) :
    val (fromMontgomery (primeOf f) x).A = a.re.val ∧ val (fromMontgomery (primeOf f) x).B = a.im.val := by
  obtain ⟨v, rfl⟩ := isElt_iff.mp hx
  obtain ⟨_, c, c'⟩ := fromMont1 (f := f) v.A.len
  obtain ⟨_, d, d'⟩ := fromMont1 (f := f) v.B.len
  constructor
  · change _ = (dn f x.A).val
    rw [← c', ZMod.val_natCast]
    exact (Nat.mod_eq_of_lt c).symm
  · change _ = (dn f x.B).val
    rw [← d', ZMod.val_natCast]
    exact (Nat.mod_eq_of_lt d).symm

end Props.SidhFp2
