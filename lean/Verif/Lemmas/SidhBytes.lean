import Verif.Model.SidhKeys
import Verif.Spec.LeBytes
import Mathlib.Tactic.Ring
import Mathlib.Tactic.Linarith
/-
Byte conversions of common/utils.go.
-/
namespace Lemmas.SidhBytes
open Model Model.Sidh Spec

theorem add_mul_or (a c : Nat) (k : Nat) (h : a < 2 ^ k) : a + 2 ^ k * c = 2 ^ k * c ||| a := by
  rw [Nat.add_comm, Nat.two_pow_add_eq_or_of_lt h]

theorem bval_cons_or (b : Byte) (bs : List Byte) : bval (b :: bs) = b.toNat ||| (bval bs <<< 8) := by
  rw [bval, add_mul_or _ _ 8 b.isLt, Nat.or_comm, Nat.shiftLeft_eq, Nat.mul_comm]

theorem orByte_length (w : List W64) (i : Nat) (b : Byte) : (orByte w i b).length = w.length := by simp [orByte]

theorem orByte_cons_lo (h : W64) (t : List W64) (i : Nat) (b : Byte) (hi : i < 8) :
    orByte (h :: t) i b = (h ||| (b.zeroExtend 64 <<< (8 * i))) :: t := by
  simp [orByte, Nat.div_eq_of_lt hi, Nat.mod_eq_of_lt hi]

theorem orByte_cons_hi (h : W64) (t : List W64) (i : Nat) (b : Byte) :
    orByte (h :: t) (i + 8) b = h :: orByte t i b := by
  simp [orByte, show (i + 8) / 8 = i / 8 + 1 by omega]

theorem byte_shift (b : Byte) (i : Nat) (hi : i < 8) : (b.zeroExtend 64 <<< (8 * i)).toNat = b.toNat <<< (8 * i) := by
  rw [BitVec.toNat_shiftLeft]
  have hb := b.isLt
  have : (b.zeroExtend 64).toNat = b.toNat := by
    simp [BitVec.truncate_eq_setWidth]; omega
  rw [this]
  apply Nat.mod_eq_of_lt
  rw [Nat.shiftLeft_eq]
  calc b.toNat * 2 ^ (8 * i) < 2 ^ 8 * 2 ^ (8 * i) := Nat.mul_lt_mul_of_pos_right hb (by positivity)
    _ = 2 ^ (8 + 8 * i) := by rw [← Nat.pow_add]
    _ ≤ 2 ^ 64 := Nat.pow_le_pow_right (by norm_num) (by omega)

theorem val_orByte : ∀ (w : List W64) (i : Nat) (b : Byte), i < 8 * w.length → val (orByte w i b) = val w ||| (b.toNat <<< (8 * i))
  | [], i, b, h => by simp at h
  | h :: t, i, b, hi => by
    by_cases h8 : i < 8
    · rw [orByte_cons_lo h t i b h8, val, val, BitVec.toNat_or, byte_shift b i h8]
      have h1 : (b.toNat <<< (8 * i)) < 2 ^ 64 := by rw [← byte_shift b i h8]; exact BitVec.isLt _
      rw [add_mul_or _ _ 64 (Nat.or_lt_two_pow h.isLt h1), add_mul_or _ _ 64 h.isLt, Nat.or_assoc]
    · obtain ⟨j, rfl⟩ : ∃ j, i = j + 8 := ⟨i - 8, by omega⟩
      rw [orByte_cons_hi, val, val, val_orByte t j b (by simp at hi; omega), add_mul_or _ _ 64 h.isLt, add_mul_or _ _ 64 h.isLt]
      rw [Nat.or_assoc, Nat.or_comm h.toNat, ← Nat.or_assoc]
      congr 1
      rw [show 2 ^ 64 * val t = val t <<< 64 from by rw [Nat.shiftLeft_eq, Nat.mul_comm],
        show 2 ^ 64 * (val t ||| b.toNat <<< (8 * j)) = (val t ||| b.toNat <<< (8 * j)) <<< 64 from by rw [Nat.shiftLeft_eq _ 64, Nat.mul_comm],
        Nat.shiftLeft_or_distrib, ← Nat.shiftLeft_add, show 8 * j + 64 = 8 * (j + 8) by ring]

theorem orBytes_length : ∀ (bs : List Byte) (w : List W64) (i : Nat), (orBytes w i bs).length = w.length
  | [], w, i => rfl
  | b :: bs, w, i => by rw [orBytes, orBytes_length, orByte_length]

theorem val_orBytes : ∀ (bs : List Byte) (w : List W64) (i : Nat), i + bs.length ≤ 8 * w.length →
    val (orBytes w i bs) = val w ||| (bval bs <<< (8 * i))
  | [], w, i, _ => by simp [orBytes, bval]
  | b :: bs, w, i, h => by
    simp at h
    rw [orBytes, val_orBytes bs _ _ (by rw [orByte_length]; omega), val_orByte w i b (by omega), bval_cons_or, Nat.or_assoc,
      Nat.shiftLeft_or_distrib, ← Nat.shiftLeft_add]
    congr 3
    ring_nf

theorem val_zeros : ∀ n : Nat, val (List.replicate n (0 : W64)) = 0
  | 0 => rfl
  | n + 1 => by rw [List.replicate_succ, val, val_zeros n]; rfl

theorem leBytes_length : ∀ (n x : Nat), (leBytes n x).length = n
  | 0, _ => rfl
  | n + 1, x => by rw [leBytes, List.length_cons, leBytes_length]

theorem bval_leBytes : ∀ (n x : Nat), bval (leBytes n x) = x % 256 ^ n
  | 0, x => by simp [leBytes, bval, Nat.mod_one]
  | n + 1, x => by
    rw [leBytes, bval, bval_leBytes, BitVec.toNat_ofNat, Nat.pow_succ 256 n, Nat.mul_comm (256 ^ n), Nat.mod_mul]

theorem leBytes_bval : ∀ (bs : List Byte), leBytes bs.length (bval bs) = bs
  | [] => rfl
  | b :: bs => by
    rw [List.length_cons, leBytes, bval]
    have hb := b.isLt
    congr 1
    · apply BitVec.eq_of_toNat_eq; simp; omega
    · rw [show (b.toNat + 2 ^ 8 * bval bs) / 256 = bval bs by omega, leBytes_bval]

theorem bval_lt : ∀ (bs : List Byte), bval bs < 256 ^ bs.length
  | [] => by simp [bval]
  | b :: bs => by
    have := bval_lt bs
    have hb := b.isLt
    rw [bval, List.length_cons, Nat.pow_succ]
    omega

theorem leBytes_mod (n x : Nat) : leBytes n (x % 256 ^ n) = leBytes n x := by
  induction n generalizing x with
  | zero => rfl
  | succ n ih =>
    rw [leBytes, leBytes]
    have h : 256 ^ (n + 1) = 256 * 256 ^ n := by rw [Nat.pow_succ, Nat.mul_comm]
    congr 1
    · apply BitVec.eq_of_toNat_eq
      rw [BitVec.toNat_ofNat, BitVec.toNat_ofNat, h, Nat.mod_mul_right_mod]
    · rw [h, Nat.mod_mul_right_div_self, ih]

/-- byte `i` of the words -/
theorem word_byte : ∀ (w : List W64) (i : Nat), ((w.getD (i / 8) 0 >>> (8 * (i % 8))).truncate 8 : Byte) = BitVec.ofNat 8 (val w / 256 ^ i)
  | [], i => by simp [val]
  | h :: t, i => by
    by_cases h8 : i < 8
    · rw [Nat.div_eq_of_lt h8, Nat.mod_eq_of_lt h8, val]
      apply BitVec.eq_of_toNat_eq
      simp only [List.getD_cons_zero, BitVec.truncate_eq_setWidth, BitVec.toNat_setWidth, BitVec.toNat_ushiftRight, BitVec.toNat_ofNat,
        Nat.shiftRight_eq_div_pow]
      rw [show 256 ^ i = 2 ^ (8 * i) by rw [Nat.pow_mul]]
      have e : 2 ^ 64 * val t = 2 ^ (8 * i) * (2 ^ 8 * (2 ^ (8 * (7 - i)) * val t)) := by
        rw [← Nat.mul_assoc, ← Nat.mul_assoc, ← Nat.pow_add, ← Nat.pow_add]
        congr 2
        omega
      rw [e, Nat.add_mul_div_left _ _ (by positivity), Nat.add_mul_mod_self_left]
    · obtain ⟨j, rfl⟩ : ∃ j, i = j + 8 := ⟨i - 8, by omega⟩
      have := word_byte t j
      rw [show (j + 8) / 8 = j / 8 + 1 by omega, List.getD_cons_succ, show (j + 8) % 8 = j % 8 by omega, this, val]
      have h64 := h.isLt
      rw [Nat.pow_add, Nat.mul_comm (256 ^ j), ← Nat.div_div_eq_div_mul, show (h.toNat + 2 ^ 64 * val t) / 256 ^ 8 = val t by
        rw [show (256 ^ 8 : Nat) = 2 ^ 64 by norm_num]; omega]

theorem leBytes_range (n x : Nat) : leBytes n x = (List.range n).map fun i => BitVec.ofNat 8 (x / 256 ^ i) := by
  induction n generalizing x with
  | zero => rfl
  | succ n ih =>
    rw [leBytes, ih, List.range_succ_eq_map, List.map_cons, List.map_map]
    congr 1
    · simp
    · apply List.map_congr_left
      intro i _
      simp [Nat.pow_succ, Nat.div_div_eq_div_mul, Nat.mul_comm]

theorem wordsToBytes_eq (w : List W64) (n : Nat) : wordsToBytes w n = leBytes n (val w) := by
  rw [leBytes_range, wordsToBytes]
  exact List.map_congr_left fun i _ => word_byte w i

end Lemmas.SidhBytes
