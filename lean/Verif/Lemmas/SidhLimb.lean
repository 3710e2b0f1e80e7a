import Verif.Lemmas.SidhBase
import Verif.Props.SidhKeys
import Verif.Props.SidhArith
/-
From field elements back to word arrays.
-/
namespace Lemmas.SidhLimb
open Model Model.Sidh Spec Spec.Sidh Lemmas.SidhNat Verif.XOnly Lemmas.SidhX Lemmas.SidhWalk Lemmas.SidhAgree Lemmas.SidhFp2 Lemmas.SidhBase
open Props.SidhFp2 Props.SidhKeys Lemmas.SidhGood

theorem opsRel (f : Fld) : OpsRel (limbOps (primeOf f)) (fieldOps (Fq f)) (IsElt f) where
  add hx hy := (c43_field f _ _ _ _ hx hy).1
  sub hx hy := (c43_field f _ _ _ _ hx hy).2.1
  mul hx hy := (c43_field f _ _ _ _ hx hy).2.2.1
  sqr hx := by
    have := (c43_field f _ _ _ _ hx hx).2.2.2.1
    rw [sq] at this; exact this
  inv hx := (c43_field f _ _ _ _ hx hx).2.2.2.2
  cswap := by
    intro x y x' y' c hc hx hy
    obtain ⟨h0, h1⟩ := Props.SidhArith.c42_cswap2 x y (by rw [hx.lenA, hy.lenA]) (by rw [hx.lenB, hy.lenB])
    rcases hc with rfl | rfl
    · simp only [limbOps, h0]; exact ⟨hx, hy⟩
    · simp only [limbOps, h1]; exact ⟨hy, hx⟩

/-- a constant of params.go holds a field element -/
def constOk (f : Fld) (x : Fp2) (a : Nat × Nat) : Bool :=
  x.A.length == f.words && x.B.length == f.words && decide (val x.A < 2 * f.p) && decide (val x.B < 2 * f.p) &&
    val x.A % f.p == f.R * a.1 % f.p && val x.B % f.p == f.R * a.2 % f.p

theorem isElt_const {f : Fld} {x : Fp2} {a : Nat × Nat} (h : constOk f x a = true) : IsElt f x (el f a) := by
  simp only [constOk, Bool.and_eq_true, beq_iff_eq, decide_eq_true_eq] at h
  obtain ⟨⟨⟨⟨⟨h1, h2⟩, h3⟩, h4⟩, h5⟩, h6⟩ := h
  refine ⟨h1, h2, h3, h4, ?_, ?_⟩
  · have := (ZMod.natCast_eq_natCast_iff _ _ f.p).mpr h5
    rw [this]; push_cast; rfl
  · have := (ZMod.natCast_eq_natCast_iff _ _ f.p).mpr h6
    rw [this]; push_cast; rfl

/-- 1/2 -/
def hlf (f : Fld) : Nat × Nat := ((f.p + 1) / 2, 0)

/-- the constants as field elements -/
def fparams (f : Fld) : CParams (Fq f) where
  one := el f (1, 0)
  half := el f (hlf f)
  initA := el f (6, 0)
  initC := el f (1, 0)
  pA := el f (pA f).x
  qA := el f (qA f).x
  rA := el f (rA f)
  pB := el f (pB f).x
  qB := el f (qB f).x
  rB := el f (rB f)
  stratA := (paramsOf f).A.isogenyStrategy
  stratB := (paramsOf f).B.isogenyStrategy
  bitsA := (paramsOf f).A.secretBitLen
  bitsB := (paramsOf f).B.secretBitLen

theorem rcparams (f : Fld) : RCParams (IsElt f) (paramsOf f).curve (fparams f) where
  one := isElt_const (by cases f <;> decide +kernel)
  half := isElt_const (by cases f <;> decide +kernel)
  initA := isElt_const (by cases f <;> decide +kernel)
  initC := isElt_const (by cases f <;> decide +kernel)
  pA := isElt_const (by cases f <;> decide +kernel)
  qA := isElt_const (by cases f <;> decide +kernel)
  rA := isElt_const (by cases f <;> decide +kernel)
  pB := isElt_const (by cases f <;> decide +kernel)
  qB := isElt_const (by cases f <;> decide +kernel)
  rB := isElt_const (by cases f <;> decide +kernel)
  stratA := rfl
  stratB := rfl
  bitsA := rfl
  bitsB := rfl

theorem mem3 (f : Fld) : paramsOf f = params434 ∨ paramsOf f = params503 ∨ paramsOf f = params751 := by
  cases f
  · exact Or.inl rfl
  · exact Or.inr (Or.inl rfl)
  · exact Or.inr (Or.inr rfl)

theorem half_ok (f : Fld) : el f (hlf f) + el f (hlf f) = 1 := by
  rw [← el_one, ← el_add]
  rw [← same_iff]
  cases f <;> decide +kernel

theorem consts (f : Fld) : Consts (fparams f) (s0 f) (T f) (PA f) (QA f) (PB f) (QB f) where
  one := el_one f
  half := half_ok f
  initA := by
    change el f (6, 0) = 6
    rw [el_nat]; rfl
  initC := el_one f
  pA := rfl
  qA := rfl
  rA := (diffA f).symm
  pB := rfl
  qB := rfl
  rB := (diffB f).symm
  stratA := stratA_ok' _ (mem3 f)
  stratB := stratB_ok' _ (mem3 f)
  bitsA := by cases f <;> decide +kernel

theorem lenA (f : Fld) : (fparams f).stratA.length = f.e2 / 2 - 1 := by cases f <;> decide +kernel
theorem lenB (f : Fld) : (fparams f).stratB.length = f.e3 - 1 := by cases f <;> decide +kernel

theorem basis_ok (f : Fld) : Basis (fparams f).stratA.length (fparams f).stratB.length (T f) (PA f) (QA f) (PB f) (QB f) := by
  rw [lenA, lenB]
  exact basis f (okA_all f) (okB_all f)

/-- agreement over the field -/
theorem agree_field (f : Fld) (a b : List Byte) (ha : (paramsOf f).A.secretBitLen ≤ 8 * a.length) (hb : (paramsOf f).B.secretBitLen ≤ 8 * b.length) :
    ∃ pa pb j, publicKeyGenA (fieldOps (Fq f)) (fparams f) a = some pa ∧ publicKeyGenB (fieldOps (Fq f)) (fparams f) b = some pb ∧
      deriveA (fieldOps (Fq f)) (fparams f) a pb = some j ∧ deriveB (fieldOps (Fq f)) (fparams f) b pa = some j :=
  agree (consts f) (basis_ok f) (s0_ok f) rfl a b ha hb

theorem ropt_some {α β : Type} {r : α → β → Prop} {x : Option α} {b : β} (h : ROpt r x (some b)) : ∃ a, x = some a ∧ r a b := by
  cases h with
  | some h => exact ⟨_, rfl, h⟩

end Lemmas.SidhLimb
