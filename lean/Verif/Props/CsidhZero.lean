import Verif.Lemmas.CsidhZero
import Verif.Props.CsidhValidate
/-
C74: a CSIDH private key whose exponents are all zero.
-/
namespace Props.CsidhZero
open Model Model.Limb Model.Csidh Spec Spec.Csidh Lemmas.CsidhField Lemmas.CsidhNat Lemmas.CsidhKeys Lemmas.CsidhAction Lemmas.CsidhZero Lemmas.CsidhRun

local notation "𝕡" => Spec.Csidh.p

/-- C74. With the private key whose 37 bytes are zero, `DeriveSecret` outputs the other party's public key itself. -/
theorem c74_derive (out : List Byte) (ho : out.length = 64) (pub : PublicKey) (hl : pub.a.length = 8) (prv : PrivateKey) (hk : prv.e = List.replicate 37 0)
    (rng out' rest : List Byte) (h : deriveSecret out pub prv rng = some (out', true, rest)) : out' = leBytes 64 (val pub.a) := by
  obtain ⟨-, -, r, a, hv, hg, e⟩ := (Props.CsidhKeys.c72_derive out ho pub hl prv rng).2 out' rest h
  obtain ⟨α, x, ha, -⟩ := Props.CsidhValidate.c69_accept_partial hl hv
  obtain rfl : prv = PrivateKey.zero := by cases prv; cases hk; rfl
  rw [e, zero_action ha hg]

/-- C74. Its public key is the coefficient 0. -/
theorem c74_public (prv : PrivateKey) (hk : prv.e = List.replicate 37 0) (rng rest : List Byte) (pub : PublicKey)
    (h : generatePublicKey prv rng = some (pub, rest)) : pub.a = List.replicate 8 0 := by
  obtain rfl : prv = PrivateKey.zero := by cases prv; cases hk; rfl
  rw [generatePublicKey, Option.map_eq_some_iff] at h
  obtain ⟨⟨a, r⟩, h1, h2⟩ := h
  cases h2
  exact zero_action (a := fp0) zero_elt h1

/-- C74. Two random numbers are enough for it, if x³ + a·x² + x is a non-zero square for one of them and not for the other. -/
theorem c74_ends (prv : PrivateKey) (hk : prv.e = List.replicate 37 0) (pub : PublicKey) (α x y : ZMod 𝕡) (ha : IsElt pub.a α) (rng r1 r2 : List Byte)
    (lx ly : Fp) (h1 : randFp rng = some (lx, r1)) (h2 : randFp r1 = some (ly, r2)) (hx : IsElt lx x) (hy : IsElt ly y)
    (hs : (x ^ 3 + α * x ^ 2 + x ≠ 0 ∧ IsSquare (x ^ 3 + α * x ^ 2 + x)) ↔ ¬ (y ^ 3 + α * y ^ 2 + y ≠ 0 ∧ IsSquare (y ^ 3 + α * y ^ 2 + y))) :
    groupAction pub.a prv rng = some (pub.a, r2) := by
  obtain rfl : prv = PrivateKey.zero := by cases prv; cases hk; rfl
  have q : ∀ {l : Fp} {z : ZMod 𝕡}, IsElt l z → (decide (isNonQuadRes (montEval limbOps pub.a l) ≠ 0) = true ↔ ¬ (z ^ 3 + α * z ^ 2 + z ≠ 0 ∧ IsSquare (z ^ 3 + α * z ^ 2 + z))) := by
    intro l z hl
    have := montEval_rel limb_rel ha hl
    rw [isNonQuadRes_elt this]
    have e : montEval (fieldOps (ZMod 𝕡)) α z = z ^ 3 + α * z ^ 2 + z := by
      show (z * z + α * z + 1) * z = _
      ring
    rw [e]
    split
    · simp_all
    · simp_all
  refine zero_ends ha h1 h2 (decide (isNonQuadRes (montEval limbOps pub.a lx) ≠ 0)) rfl ?_
  have q1 := q hx
  have q2 := q hy
  rw [Bool.eq_iff_iff, q2, ← hs, Bool.not_eq_true', ← Bool.not_eq_true, q1, not_not]

/-- Numbers 1 and 4 -/
theorem action_zero (rest : List Byte) : groupAction (PublicKey.mk (List.replicate 8 0)).a ⟨List.replicate 37 0⟩ (fpBytes one ++ (fpBytes four ++ rest)) =
    some ((PublicKey.mk (List.replicate 8 0)).a, rest) := by
  exact c74_ends ⟨List.replicate 37 0⟩ rfl ⟨List.replicate 8 0⟩ 0 1 4 zero_elt _ _ _ one four (rand_elt one_elt _) (rand_elt four_elt rest) one_elt four_elt
    (by
      have hs : IsSquare ((4 : ZMod 𝕡) ^ 3 + 0 * 4 ^ 2 + 4) := by
        have : (4 : ZMod 𝕡) ^ 3 + 0 * 4 ^ 2 + 4 = 68 := by ring
        rw [this]; exact square68
      have hn : ¬ IsSquare ((1 : ZMod 𝕡) ^ 3 + 0 * 1 ^ 2 + 1) := by
        have : (1 : ZMod 𝕡) ^ 3 + 0 * 1 ^ 2 + 1 = 2 := by ring
        rw [this]
        rintro ⟨r, hr⟩
        obtain ⟨s, hs⟩ := square_neg2
        have h2 : r ≠ 0 := by rintro rfl; exact Lemmas.CsidhField.two_ne (by linear_combination hr)
        have : IsSquare (-1 : ZMod 𝕡) := ⟨s / r, by field_simp; linear_combination hs + hr⟩
        exact absurd this (by
          rw [ZMod.exists_sq_eq_neg_one_iff]
          decide +kernel)
      have h0 : (4 : ZMod 𝕡) ^ 3 + 0 * 4 ^ 2 + 4 ≠ 0 := by
        intro h
        have h : ((68 : Nat) : ZMod 𝕡) = 0 := by push_cast; linear_combination h
        have := (ZMod.natCast_eq_zero_iff 68 𝕡).mp h
        exact absurd (Nat.le_of_dvd (by decide) this) (by decide +kernel)
      exact ⟨fun h => absurd h.2 hn, fun h => absurd ⟨h0, hs⟩ h⟩)

/-- Numbers 4 (for the validation), 1 and 4: the shared secret of the key 0 and the zero private key is 0. -/
theorem derive_zero (rest out : List Byte) (ho : out.length = 64) : deriveSecret out ⟨List.replicate 8 0⟩ ⟨List.replicate 37 0⟩
    (fpBytes four ++ (fpBytes one ++ (fpBytes four ++ rest))) = some (List.replicate 64 0, true, rest) := by
  have h := action_zero rest
  rw [deriveSecret, Props.CsidhValidate.accepted]
  simp only
  rw [h]
  simp only
  rw [PublicKey.exportKey, if_neg (by omega)]
  rfl

end Props.CsidhZero
