import Verif.Lemmas.CsidhMem
/-
C111, CSIDH: destinations that are also operands.  `Model.Csidh.Mem` has the curve code on a memory that maps locations
to points; `m l` is what location `l` holds.  The statements are for every memory and every choice of locations, equal or
not, except where a hypothesis keeps two apart.
-/
namespace Props.CsidhMem
open Model Model.Limb Model.Csidh Model.Csidh.Mem Lemmas.CsidhMem

variable {F : Type} (o : Ops F) {L : Type} [DecidableEq L]

/-- C111. `xAdd`: the sum may overwrite either summand, not the difference.  Nothing else changes. -/
theorem c111_xAdd (PaQ P Q PdQ : L) (m : L → Pt F) (h : PaQ ≠ PdQ) (l : L) :
    xAddM o PaQ P Q PdQ m l = if l = PaQ then xAdd o (m P) (m Q) (m PdQ) else m l := xAddM_spec o PaQ P Q PdQ m h l

/-- C111. `xDbl` may work in place. -/
theorem c111_xDbl (Q P A : L) (m : L → Pt F) (h : Q ≠ A) (l : L) :
    xDblM o Q P A m l = if l = Q then xDbl o (m P) (m A) else m l := xDblM_spec o Q P A m h l

/-- C111. `xDblAdd` may overwrite its first point by the double and its second one by the sum. -/
theorem c111_xDblAdd (PaP PaQ P Q PdQ : L) (A24 : Coef F) (m : L → Pt F) (h1 : PaP ≠ PaQ) (h2 : PaP ≠ Q) (h3 : PaP ≠ PdQ) (h4 : PaQ ≠ PdQ) (l : L) :
    xDblAddM o PaP PaQ P Q PdQ A24 m l =
      if l = PaP then (xDblAdd o (m P) (m Q) (m PdQ) A24).1
      else if l = PaQ then (xDblAdd o (m P) (m Q) (m PdQ) A24).2 else m l := xDblAddM_spec o PaP PaQ P Q PdQ A24 m h1 h2 h3 h4 l

/-- C111. The multiple may overwrite the point, for all scalars. -/
theorem c111_xMul (kP P : L) (co : Coef F) (k : Fp) (m : L → Pt F) (l : L) :
    xMulM o kP P co k m l = if l = kP then xMul o (m P) co k else m l := xMulM_spec o kP P co k m l

/-- C111. The isogeny overwrites the point by its image and the coefficients; the kernel may be that point. -/
theorem c111_xIso (img : L) (co : Coef F) (kern : L) (kernOrder : W64) (m : L → Pt F) :
    (∀ l, (xIsoM o img co kern kernOrder m).1 l = if l = img then (xIso o (m img) co (m kern) kernOrder).1 else m l) ∧
    (xIsoM o img co kern kernOrder m).2 = (xIso o (m img) co (m kern) kernOrder).2 := xIsoM_spec o img co kern kernOrder m

/-- C111. The right side of the curve equation. -/
theorem c111_montEval (res A x : L) (m : L → F) (hA : res ≠ A) (hx : res ≠ x) (l : L) :
    montEvalM o res A x m l = if l = res then montEval o (m A) (m x) else m l := montEvalM_spec o res A x m hA hx l

/-- C111. The recursion of `Validate` overwrites the point it is given and no other, and finds what the function of the
point finds. -/
theorem c111_cofactorMul (a : Coef Fp) (n : Nat) (p : L) (halfL : Nat) (order : Fp) (m : L → Pt Fp) :
    (cofactorMulM p a halfL n order m).2 = cofactorMul (m p) a halfL n order ∧
    ∀ l, l ≠ p → (cofactorMulM p a halfL n order m).1 l = m l := cofactorMulM_spec a n p halfL order m

/-- C111. `Validate`, `GeneratePublicKey` and `DeriveSecret` with all their in-place updates are the functions of the keys
and the random stream of the other properties. -/
theorem c111_api (pub : PublicKey) (prv : PrivateKey) (out rng : List Byte) :
    validateM pub rng = validate pub rng ∧
    generatePublicKeyM prv rng = generatePublicKey prv rng ∧
    deriveSecretM out pub prv rng = deriveSecret out pub prv rng := by
  refine ⟨validateM_spec pub rng, ?_, deriveSecretM_spec out pub prv rng⟩
  unfold generatePublicKeyM generatePublicKey
  rw [groupActionM_spec]

/-! ### The calls of the code, and calls that would go wrong -/

/-- csidh.go:306-307 `xDbl(&P, &P, &A)` -/
example (P A : Pt F) : xDblM o false false true (fun b => if b then A else P) false = xDbl o P A := by
  rw [c111_xDbl o _ _ _ _ (by decide)]
  rfl

/-- curve.go:114 `xDblAdd(&Q, &R, &Q, &R, P, &A24)` -/
example (P Q R : Pt F) (A24 : Coef F) :
    xDblAddM o (0 : Fin 3) 1 0 1 2 A24 (fun l => if l = 0 then Q else if l = 1 then R else P) 1 = (xDblAdd o Q R P A24).2 := by
  rw [c111_xDblAdd o _ _ _ _ _ _ _ (by decide) (by decide) (by decide) (by decide)]
  rfl

/-- The numbers with their operations. -/
def intOps : Ops Int where
  zero := 0
  one := 1
  four := 4
  add := (· + ·)
  sub := (· - ·)
  mul := (· * ·)
  exp64 := fun a e => a ^ e.toNat
  cswap := fun a b c => if c = 0 then (a, b) else (b, a)

/-- C111. The hypotheses are needed: if the destination is the difference, `xAdd` is wrong; if it is the coefficients, `xDbl` is;
if the double goes where the second point is, `xDblAdd` is. -/
theorem c111_needed :
    (∃ m : Fin 3 → Pt Int, xAddM intOps 2 0 1 2 m 2 ≠ xAdd intOps (m 0) (m 1) (m 2)) ∧
    (∃ m : Fin 2 → Pt Int, xDblM intOps 1 0 1 m 1 ≠ xDbl intOps (m 0) (m 1)) ∧
    (∃ m : Fin 4 → Pt Int, xDblAddM intOps 1 3 0 1 2 ⟨1, 1⟩ m 3 ≠ (xDblAdd intOps (m 0) (m 1) (m 2) ⟨1, 1⟩).2) ∧
    (∃ m : Fin 2 → Int, montEvalM intOps 1 0 1 m 1 ≠ montEval intOps (m 0) (m 1)) := by
  refine ⟨⟨fun l => ⟨l.val + 2, 1⟩, ?_⟩, ⟨fun l => ⟨l.val + 2, 1⟩, ?_⟩, ⟨fun l => ⟨l.val + 2, 1⟩, ?_⟩, ⟨fun l => l.val + 2, ?_⟩⟩
  · intro h
    exact absurd (congrArg Pt.z h) (by decide)
  · intro h
    exact absurd (congrArg Pt.z h) (by decide)
  · intro h
    exact absurd (congrArg Pt.x h) (by decide)
  · decide

/-- In place on numbers: the double of (3 : 1) with A = 0 and C = 1; its x is (x² − z²)²·4. -/
example : (xDblM intOps (0 : Fin 2) 0 1 (fun l => if l = 0 then ⟨3, 1⟩ else ⟨0, 1⟩) 0).x = 256 := by decide

end Props.CsidhMem
