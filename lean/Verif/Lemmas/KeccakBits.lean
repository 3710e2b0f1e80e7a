import Verif.Lemmas.KeccakLane
/-! From lanes to the bit-level state array of FIPS 202. -/
namespace Lemmas.Keccak
open Model Model.Sha3

def bitsOf (L : Lanes) : Spec.Keccak.StateArray := fun x y z => (L x y).getLsbD z.val

theorem rotl_eq (w : W64) (n : Nat) : rotl w n = w.rotateLeft n := by
  cases n with
  | zero => simp only [rotl]; apply BitVec.eq_of_getLsbD_eq; intro i hi; simp [hi]
  | succ n => rfl

theorem getLsbD_rotl (w : W64) (n : Nat) (z : Fin 64) :
    (rotl w (n % 64)).getLsbD z.val = w.getLsbD (z - Fin.ofNat 64 n).val := by
  rw [rotl_eq, BitVec.getLsbD_rotateLeft]
  have hz := z.isLt
  have h1 : (z - Fin.ofNat 64 n).val = (64 - n % 64 + z.val) % 64 := by
    simp [Fin.sub_def]
  rw [h1]
  have hn : n % 64 < 64 := Nat.mod_lt _ (by decide)
  generalize n % 64 = m at *
  rw [Nat.mod_eq_of_lt hn]
  by_cases h : z.val < m
  · simp only [h, decide_true, cond_true]; congr 1; rw [Nat.mod_eq_of_lt (by omega)]
  · simp only [h, hz, decide_true, decide_false, cond_false, Bool.true_and]
    congr 1; omega

theorem bits_laneRnd (L : Lanes) (rc : W64) (ir : Nat)
    (hrc : ∀ z : Fin 64, rc.getLsbD z.val = Spec.Keccak.RC ir z) :
    bitsOf (laneRnd L rc) = Spec.Keccak.Rnd (bitsOf L) ir := by
  have hr1 : ∀ (w : W64) (z : Fin 64), (w.rotateLeft 1).getLsbD z.val = w.getLsbD (z - 1).val := by
    intro w z
    have := getLsbD_rotl w 1 z
    rw [rotl_eq] at this
    exact this
  have hB : ∀ x y : Fin 5, ∀ z : Fin 64,
      (rotl (L (x + 3 * y) x ^^^ (par L (x + 3 * y - 1) ^^^ (par L (x + 3 * y + 1)).rotateLeft 1))
        (off (x + 3 * y) x)).getLsbD z.val =
      Spec.Keccak.pi (Spec.Keccak.rho (Spec.Keccak.theta (bitsOf L))) x y z := by
    intro x y z
    rw [off, getLsbD_rotl]
    simp only [Spec.Keccak.pi, Spec.Keccak.rho, Spec.Keccak.theta, bitsOf, BitVec.getLsbD_xor, hr1, par]
  funext x y z
  simp only [Spec.Keccak.Rnd, Spec.Keccak.iota, Spec.Keccak.chi, ← hB]
  simp only [bitsOf, laneRnd, step]
  have hz := z.isLt
  split
  · simp only [BitVec.getLsbD_xor, BitVec.getLsbD_and, BitVec.getLsbD_not, hz, decide_true,
      Bool.true_and, hrc, Bool.xor_true]
    rw [Bool.and_comm]
  · simp only [BitVec.getLsbD_xor, BitVec.getLsbD_and, BitVec.getLsbD_not, hz, decide_true,
      Bool.true_and, Bool.xor_true]
    rw [Bool.and_comm]

theorem rc_bits : ∀ ir : Fin 24, ∀ z : Fin 64,
    (rcTable.getD ir.val 0).getLsbD z.val = Spec.Keccak.RC ir.val z := by
  decide +kernel

theorem view_rounds4 (a : Vector W64 25) (i : Nat) :
    view sig0 (rounds4 a i) =
      laneRnd (laneRnd (laneRnd (laneRnd (view sig0 a) (rcTable.getD i 0)) (rcTable.getD (i+1) 0))
        (rcTable.getD (i+2) 0)) (rcTable.getD (i+3) 0) := by
  have h := round4_lane (round3 (round2 (round1 a (rcTable.getD i 0)) (rcTable.getD (i + 1) 0))
    (rcTable.getD (i + 2) 0)) (rcTable.getD (i + 3) 0)
  rw [round3_lane, round2_lane, round1_lane] at h
  exact h

theorem bits_rounds4 (a : Vector W64 25) (i : Nat) (hi : i + 3 < 24) :
    bitsOf (view sig0 (rounds4 a i)) =
      Spec.Keccak.Rnd (Spec.Keccak.Rnd (Spec.Keccak.Rnd (Spec.Keccak.Rnd (bitsOf (view sig0 a)) i) (i+1))
        (i+2)) (i+3) := by
  rw [view_rounds4]
  rw [bits_laneRnd _ _ (i+3) (rc_bits ⟨i+3, hi⟩), bits_laneRnd _ _ (i+2) (rc_bits ⟨i+2, by omega⟩),
    bits_laneRnd _ _ (i+1) (rc_bits ⟨i+1, by omega⟩), bits_laneRnd _ _ i (rc_bits ⟨i, by omega⟩)]

theorem bits_keccakF1600 (a : Vector W64 25) :
    bitsOf (view sig0 (keccakF1600 a)) = Spec.Keccak.keccakArray (bitsOf (view sig0 a)) := by
  have hr : List.range 24 = [0,1,2,3,4,5,6,7,8,9,10,11,12,13,14,15,16,17,18,19,20,21,22,23] := by decide
  simp only [keccakF1600, Spec.Keccak.keccakArray, hr, List.foldl]
  rw [bits_rounds4 _ _ (by decide), bits_rounds4 _ _ (by decide), bits_rounds4 _ _ (by decide),
    bits_rounds4 _ _ (by decide), bits_rounds4 _ _ (by decide), bits_rounds4 _ _ (by decide)]

end Lemmas.Keccak
