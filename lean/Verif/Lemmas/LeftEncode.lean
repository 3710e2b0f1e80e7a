import Verif.Model.Sha3
import Verif.Spec.CShake
/-! leftEncode and bytepad. -/
namespace Lemmas.Sha3
open Model Model.Sha3

theorem extract_byte (v : W64) (k : Nat) :
    v.extractLsb' (8 * k) 8 = BitVec.ofNat 8 (v.toNat / 256 ^ k) := by
  apply BitVec.eq_of_toNat_eq
  rw [BitVec.extractLsb'_toNat, BitVec.toNat_ofNat, Nat.shiftRight_eq_div_pow]
  have : (2 : Nat) ^ (8 * k) = 256 ^ k := by rw [Nat.pow_mul]
  rw [this]

theorem beBytes64_eq (v : W64) : beBytes64 v = Spec.CShake.bigEndian 8 v.toNat := by
  have h := extract_byte v
  show [v.extractLsb' (8*7) 8, v.extractLsb' (8*6) 8, v.extractLsb' (8*5) 8, v.extractLsb' (8*4) 8,
   v.extractLsb' (8*3) 8, v.extractLsb' (8*2) 8, v.extractLsb' (8*1) 8, v.extractLsb' (8*0) 8] = _
  simp only [h, Spec.CShake.bigEndian]

theorem byteLen_eq (n : Nat) : ∀ x, x < 256 ^ (n + 1) → (n = 0 ∨ 256 ^ n ≤ x) → Spec.CShake.byteLen x = n + 1 := by
  induction n with
  | zero => intro x hx _; rw [Spec.CShake.byteLen, dif_pos (by simpa using hx)]
  | succ n ih =>
    intro x hx h
    have h1 : 256 ^ (n + 1) ≤ x := by omega
    have h2 : 256 ≤ x := Nat.le_trans (by rw [Nat.pow_succ]; exact Nat.le_mul_of_pos_left _ (Nat.pow_pos (by decide))) h1
    rw [Spec.CShake.byteLen, dif_neg (by omega), ih (x / 256)]
    · rw [Nat.div_lt_iff_lt_mul (by decide)]; rw [Nat.pow_succ] at hx; exact hx
    · right
      rw [Nat.le_div_iff_mul_le (by decide)]; rw [Nat.pow_succ] at h1; exact h1

theorem skip_spec (b : List Byte) (fuel : Nat) : ∀ i, i ≤ 8 → 8 ≤ i + fuel →
    i ≤ leftEncodeSkip b i fuel ∧ leftEncodeSkip b i fuel ≤ 8 ∧
    (∀ k, i ≤ k → k < leftEncodeSkip b i fuel → b.getD k 0 = 0) ∧
    (leftEncodeSkip b i fuel = 8 ∨ b.getD (leftEncodeSkip b i fuel) 0 ≠ 0) := by
  induction fuel with
  | zero => intro i h1 h2; simp only [leftEncodeSkip]; exact ⟨by omega, h1, by intro k; omega, by left; omega⟩
  | succ fuel ih =>
    intro i h1 h2
    rw [leftEncodeSkip]
    by_cases h : i < 8 ∧ b.getD i 0 = 0
    · rw [if_pos h]
      obtain ⟨a1, a2, a3, a4⟩ := ih (i + 1) (by omega) (by omega)
      refine ⟨by omega, a2, ?_, a4⟩
      intro k hk1 hk2
      by_cases hk : k = i
      · rw [hk]; exact h.2
      · exact a3 k (by omega) hk2
    · rw [if_neg h]
      refine ⟨by omega, h1, by intro k; omega, ?_⟩
      by_cases hi : i < 8
      · right; intro hz; exact h ⟨hi, hz⟩
      · left; omega

theorem ofNat8_eq_zero (x : Nat) : BitVec.ofNat 8 x = 0 ↔ x % 256 = 0 := by
  constructor
  · intro h
    have := congrArg BitVec.toNat h
    simpa using this
  · intro h
    apply BitVec.eq_of_toNat_eq
    simpa using h

theorem leftEncode_eq (v : W64) : leftEncode v = Spec.CShake.leftEncode v.toNat := by
  have hv := v.isLt
  rw [leftEncode, beBytes64_eq]
  obtain ⟨a1, a2, a3, a4⟩ := skip_spec (0 :: Spec.CShake.bigEndian 8 v.toNat) 8 1 (by decide) (by decide)
  generalize v.toNat = x at *
  generalize leftEncodeSkip (0 :: Spec.CShake.bigEndian 8 x) 1 8 = j at *
  simp only [Spec.CShake.bigEndian] at *
  rw [Spec.CShake.leftEncode]
  match j, a1, a2 with
  | 1, _, _ =>
    have h1 : x / 256 ^ 7 % 256 ≠ 0 := by
      rcases a4 with h | h
      · omega
      · intro hz; exact h ((ofNat8_eq_zero _).mpr hz)
    rw [byteLen_eq 7 x (by omega) (by omega)]; rfl
  | 2, _, _ =>
    have z1 : x / 256 ^ 7 % 256 = 0 := (ofNat8_eq_zero _).mp (a3 1 (by decide) (by decide))
    have h1 : x / 256 ^ 6 % 256 ≠ 0 := by
      rcases a4 with h | h
      · omega
      · intro hz; exact h ((ofNat8_eq_zero _).mpr hz)
    rw [byteLen_eq 6 x (by omega) (by omega)]; rfl
  | 3, _, _ =>
    have z1 : x / 256 ^ 7 % 256 = 0 := (ofNat8_eq_zero _).mp (a3 1 (by decide) (by decide))
    have z2 : x / 256 ^ 6 % 256 = 0 := (ofNat8_eq_zero _).mp (a3 2 (by decide) (by decide))
    have h1 : x / 256 ^ 5 % 256 ≠ 0 := by
      rcases a4 with h | h
      · omega
      · intro hz; exact h ((ofNat8_eq_zero _).mpr hz)
    rw [byteLen_eq 5 x (by omega) (by omega)]; rfl
  | 4, _, _ =>
    have z1 : x / 256 ^ 7 % 256 = 0 := (ofNat8_eq_zero _).mp (a3 1 (by decide) (by decide))
    have z2 : x / 256 ^ 6 % 256 = 0 := (ofNat8_eq_zero _).mp (a3 2 (by decide) (by decide))
    have z3 : x / 256 ^ 5 % 256 = 0 := (ofNat8_eq_zero _).mp (a3 3 (by decide) (by decide))
    have h1 : x / 256 ^ 4 % 256 ≠ 0 := by
      rcases a4 with h | h
      · omega
      · intro hz; exact h ((ofNat8_eq_zero _).mpr hz)
    rw [byteLen_eq 4 x (by omega) (by omega)]; rfl
  | 5, _, _ =>
    have z1 : x / 256 ^ 7 % 256 = 0 := (ofNat8_eq_zero _).mp (a3 1 (by decide) (by decide))
    have z2 : x / 256 ^ 6 % 256 = 0 := (ofNat8_eq_zero _).mp (a3 2 (by decide) (by decide))
    have z3 : x / 256 ^ 5 % 256 = 0 := (ofNat8_eq_zero _).mp (a3 3 (by decide) (by decide))
    have z4 : x / 256 ^ 4 % 256 = 0 := (ofNat8_eq_zero _).mp (a3 4 (by decide) (by decide))
    have h1 : x / 256 ^ 3 % 256 ≠ 0 := by
      rcases a4 with h | h
      · omega
      · intro hz; exact h ((ofNat8_eq_zero _).mpr hz)
    rw [byteLen_eq 3 x (by omega) (by omega)]; rfl
  | 6, _, _ =>
    have z1 : x / 256 ^ 7 % 256 = 0 := (ofNat8_eq_zero _).mp (a3 1 (by decide) (by decide))
    have z2 : x / 256 ^ 6 % 256 = 0 := (ofNat8_eq_zero _).mp (a3 2 (by decide) (by decide))
    have z3 : x / 256 ^ 5 % 256 = 0 := (ofNat8_eq_zero _).mp (a3 3 (by decide) (by decide))
    have z4 : x / 256 ^ 4 % 256 = 0 := (ofNat8_eq_zero _).mp (a3 4 (by decide) (by decide))
    have z5 : x / 256 ^ 3 % 256 = 0 := (ofNat8_eq_zero _).mp (a3 5 (by decide) (by decide))
    have h1 : x / 256 ^ 2 % 256 ≠ 0 := by
      rcases a4 with h | h
      · omega
      · intro hz; exact h ((ofNat8_eq_zero _).mpr hz)
    rw [byteLen_eq 2 x (by omega) (by omega)]; rfl
  | 7, _, _ =>
    have z1 : x / 256 ^ 7 % 256 = 0 := (ofNat8_eq_zero _).mp (a3 1 (by decide) (by decide))
    have z2 : x / 256 ^ 6 % 256 = 0 := (ofNat8_eq_zero _).mp (a3 2 (by decide) (by decide))
    have z3 : x / 256 ^ 5 % 256 = 0 := (ofNat8_eq_zero _).mp (a3 3 (by decide) (by decide))
    have z4 : x / 256 ^ 4 % 256 = 0 := (ofNat8_eq_zero _).mp (a3 4 (by decide) (by decide))
    have z5 : x / 256 ^ 3 % 256 = 0 := (ofNat8_eq_zero _).mp (a3 5 (by decide) (by decide))
    have z6 : x / 256 ^ 2 % 256 = 0 := (ofNat8_eq_zero _).mp (a3 6 (by decide) (by decide))
    have h1 : x / 256 ^ 1 % 256 ≠ 0 := by
      rcases a4 with h | h
      · omega
      · intro hz; exact h ((ofNat8_eq_zero _).mpr hz)
    rw [byteLen_eq 1 x (by omega) (by omega)]; rfl
  | 8, _, _ =>
    have z1 : x / 256 ^ 7 % 256 = 0 := (ofNat8_eq_zero _).mp (a3 1 (by decide) (by decide))
    have z2 : x / 256 ^ 6 % 256 = 0 := (ofNat8_eq_zero _).mp (a3 2 (by decide) (by decide))
    have z3 : x / 256 ^ 5 % 256 = 0 := (ofNat8_eq_zero _).mp (a3 3 (by decide) (by decide))
    have z4 : x / 256 ^ 4 % 256 = 0 := (ofNat8_eq_zero _).mp (a3 4 (by decide) (by decide))
    have z5 : x / 256 ^ 3 % 256 = 0 := (ofNat8_eq_zero _).mp (a3 5 (by decide) (by decide))
    have z6 : x / 256 ^ 2 % 256 = 0 := (ofNat8_eq_zero _).mp (a3 6 (by decide) (by decide))
    have z7 : x / 256 ^ 1 % 256 = 0 := (ofNat8_eq_zero _).mp (a3 7 (by decide) (by decide))
    rw [byteLen_eq 0 x (by omega) (by omega)]; rfl

/-! ### decoding: leftEncode is a prefix code -/

theorem bigEndian_length (n x : Nat) : (Spec.CShake.bigEndian n x).length = n := by
  induction n with
  | zero => rfl
  | succ n ih => rw [Spec.CShake.bigEndian, List.length_cons, ih]

theorem bigEndian_inj (n : Nat) : ∀ x y, x < 256 ^ n → y < 256 ^ n →
    Spec.CShake.bigEndian n x = Spec.CShake.bigEndian n y → x = y := by
  have key : ∀ n x y, Spec.CShake.bigEndian n x = Spec.CShake.bigEndian n y → x % 256 ^ n = y % 256 ^ n := by
    intro n
    induction n with
    | zero => intro x y _; simp [Nat.mod_one]
    | succ n ih =>
      intro x y h
      rw [Spec.CShake.bigEndian, Spec.CShake.bigEndian] at h
      injection h with h1 h2
      have h3 := ih x y h2
      have h4 : x / 256 ^ n % 256 = y / 256 ^ n % 256 := by
        have := congrArg BitVec.toNat h1
        simpa using this
      rw [Nat.pow_succ, Nat.mod_mul, Nat.mod_mul, h3, h4]
  intro x y hx hy h
  have := key n x y h
  rwa [Nat.mod_eq_of_lt hx, Nat.mod_eq_of_lt hy] at this

theorem byteLen_bounds (x : Nat) : 1 ≤ Spec.CShake.byteLen x ∧ x < 256 ^ Spec.CShake.byteLen x := by
  induction x using Nat.strongRecOn with
  | ind x ih =>
    rw [Spec.CShake.byteLen]
    by_cases h : x < 256
    · rw [dif_pos h]; exact ⟨Nat.le_refl _, by simpa using h⟩
    · rw [dif_neg h]
      obtain ⟨h1, h2⟩ := ih (x / 256) (by omega)
      refine ⟨by omega, ?_⟩
      rw [Nat.pow_succ]
      rw [Nat.div_lt_iff_lt_mul (by decide)] at h2
      exact h2

theorem byteLen_le8 (x : Nat) (h : x < 2 ^ 64) : Spec.CShake.byteLen x ≤ 8 := by
  have key : ∀ n x, x < 256 ^ (n + 1) → Spec.CShake.byteLen x ≤ n + 1 := by
    intro n
    induction n with
    | zero => intro x hx; rw [Spec.CShake.byteLen, dif_pos (by simpa using hx)]; omega
    | succ n ih =>
      intro x hx
      rw [Spec.CShake.byteLen]
      split
      · omega
      · have := ih (x / 256) (by rw [Nat.div_lt_iff_lt_mul (by decide)]; rw [Nat.pow_succ] at hx; exact hx)
        omega
  exact key 7 x (by simpa using h)

theorem leftEncode_length (x : Nat) : (Spec.CShake.leftEncode x).length = Spec.CShake.byteLen x + 1 := by
  rw [Spec.CShake.leftEncode, List.length_cons, bigEndian_length]

/-- left_encode is uniquely decodable from the front. -/
theorem leftEncode_prefix {x y : Nat} (hx : x < 2 ^ 64) (hy : y < 2 ^ 64) {s t : List Byte}
    (h : Spec.CShake.leftEncode x ++ s = Spec.CShake.leftEncode y ++ t) : x = y ∧ s = t := by
  rw [Spec.CShake.leftEncode, Spec.CShake.leftEncode, List.cons_append, List.cons_append] at h
  injection h with h1 h2
  have b1 := byteLen_le8 x hx
  have b2 := byteLen_le8 y hy
  have hn : Spec.CShake.byteLen x = Spec.CShake.byteLen y := by
    have := congrArg BitVec.toNat h1
    simp only [BitVec.toNat_ofNat] at this
    omega
  rw [hn] at h2
  have h3 := List.append_inj h2 (by rw [bigEndian_length, bigEndian_length])
  refine ⟨?_, h3.2⟩
  have hx2 := (byteLen_bounds x).2
  rw [hn] at hx2
  exact bigEndian_inj _ x y hx2 (byteLen_bounds y).2 h3.1

end Lemmas.Sha3
