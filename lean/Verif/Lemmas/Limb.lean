import Verif.Model.Limb
import Verif.Spec.Num
import Mathlib.Algebra.BigOperators.Intervals
import Mathlib.Algebra.Polynomial.Eval.Degree
import Mathlib.Algebra.Polynomial.BigOperators
import Mathlib.Tactic.Ring
import Mathlib.Tactic.Linarith
/-! Word arrays as numbers. -/
namespace Lemmas.Limb
open Model Model.Limb Spec

abbrev B : Nat := 2 ^ 64

theorem tz : BitVec.toNat (0 : W64) = 0 := rfl

theorem val_nil : val [] = 0 := rfl
theorem val_cons (w : W64) (ws : List W64) : val (w :: ws) = w.toNat + 2 ^ 64 * val ws := rfl

theorem val_lt (x : List W64) : val x < 2 ^ (64 * x.length) := by
  induction x with
  | nil => simp [val]
  | cons w ws ih =>
    rw [val, List.length_cons, show 64 * (ws.length + 1) = 64 * ws.length + 64 by omega, Nat.pow_add]
    have := w.isLt
    nlinarith

theorem val_append (x y : List W64) : val (x ++ y) = val x + 2 ^ (64 * x.length) * val y := by
  induction x with
  | nil => simp [val]
  | cons w ws ih =>
    rw [List.cons_append, val, val, ih, List.length_cons, show 64 * (ws.length + 1) = 64 * ws.length + 64 by omega, Nat.pow_add]
    ring

theorem val_inj {x y : List W64} (hl : x.length = y.length) (h : val x = val y) : x = y := by
  induction x generalizing y with
  | nil => exact (List.length_eq_zero_iff.mp hl.symm).symm
  | cons w ws ih =>
    cases y with
    | nil => simp at hl
    | cons v vs =>
      rw [val, val] at h
      have h1 := w.isLt
      have h2 := v.isLt
      have hw : w.toNat = v.toNat := by omega
      rw [BitVec.eq_of_toNat_eq hw, ih (by simpa using hl) (by omega)]

theorem val_replicate_zero (n : Nat) : val (List.replicate n 0) = 0 := by
  induction n with
  | zero => rfl
  | succ n ih => rw [List.replicate_succ, val, ih]; rfl

theorem add64_spec (x y c : W64) (hc : c.toNat ≤ 1) :
    (add64 x y c).1.toNat + 2 ^ 64 * (add64 x y c).2.toNat = x.toNat + y.toNat + c.toNat ∧ (add64 x y c).2.toNat ≤ 1 := by
  have := x.isLt
  have := y.isLt
  simp only [add64, BitVec.toNat_ofNat]
  omega

theorem sub64_spec (x y b : W64) (hb : b.toNat ≤ 1) :
    (sub64 x y b).1.toNat + y.toNat + b.toNat = x.toNat + 2 ^ 64 * (sub64 x y b).2.toNat ∧ (sub64 x y b).2.toNat ≤ 1 := by
  have := x.isLt
  have := y.isLt
  simp only [sub64, BitVec.toNat_sub]
  split <;> simp <;> omega

theorem mul64_spec (x y : W64) : (mul64 x y).2.toNat + 2 ^ 64 * (mul64 x y).1.toNat = x.toNat * y.toNat := by
  have hx := x.isLt
  have hy := y.isLt
  have : x.toNat * y.toNat < 2 ^ 64 * 2 ^ 64 := Nat.mul_lt_mul'' hx hy
  simp only [mul64, BitVec.toNat_ofNat]
  generalize x.toNat * y.toNat = m at *
  omega

theorem addLoop_spec (x y : List W64) (c : W64) (hl : x.length = y.length) (hc : c.toNat ≤ 1) :
    val (addLoop x y c).1 + 2 ^ (64 * x.length) * (addLoop x y c).2.toNat = val x + val y + c.toNat ∧
    (addLoop x y c).2.toNat ≤ 1 ∧ (addLoop x y c).1.length = x.length := by
  induction x generalizing y c with
  | nil =>
    have : y = [] := List.length_eq_zero_iff.mp hl.symm
    subst this
    simp [addLoop, val, hc]
  | cons w ws ih =>
    cases y with
    | nil => simp at hl
    | cons v vs =>
      obtain ⟨h1, h2⟩ := add64_spec w v c hc
      obtain ⟨i1, i2, i3⟩ := ih vs (add64 w v c).2 (by simpa using hl) h2
      simp only [addLoop, val, List.length_cons, i3, and_true]
      refine ⟨?_, i2⟩
      rw [show 64 * (ws.length + 1) = 64 + 64 * ws.length by omega, Nat.pow_add]
      generalize 2 ^ (64 * ws.length) = M at *
      linarith

theorem subLoop_spec (x y : List W64) (b : W64) (hl : x.length = y.length) (hb : b.toNat ≤ 1) :
    val (subLoop x y b).1 + val y + b.toNat = val x + 2 ^ (64 * x.length) * (subLoop x y b).2.toNat ∧
    (subLoop x y b).2.toNat ≤ 1 ∧ (subLoop x y b).1.length = x.length := by
  induction x generalizing y b with
  | nil =>
    have : y = [] := List.length_eq_zero_iff.mp hl.symm
    subst this
    simp [subLoop, val, hb]
  | cons w ws ih =>
    cases y with
    | nil => simp at hl
    | cons v vs =>
      obtain ⟨h1, h2⟩ := sub64_spec w v b hb
      obtain ⟨i1, i2, i3⟩ := ih vs (sub64 w v b).2 (by simpa using hl) h2
      simp only [subLoop, val, List.length_cons, i3, and_true]
      refine ⟨?_, i2⟩
      rw [show 64 * (ws.length + 1) = 64 + 64 * ws.length by omega, Nat.pow_add]
      generalize 2 ^ (64 * ws.length) = M at *
      linarith

/-- The borrow of a subtraction says which argument is smaller. -/
theorem subLoop_borrow (x y : List W64) (hl : x.length = y.length) :
    (val x < val y → (subLoop x y 0).2 = 1 ∧ val (subLoop x y 0).1 + val y = val x + 2 ^ (64 * x.length)) ∧
    (val y ≤ val x → (subLoop x y 0).2 = 0 ∧ val (subLoop x y 0).1 + val y = val x) ∧ (subLoop x y 0).1.length = x.length := by
  obtain ⟨h1, h2, h3⟩ := subLoop_spec x y 0 hl (by decide)
  have hz := val_lt (subLoop x y 0).1
  rw [h3] at hz
  have hx := val_lt x
  have hy := val_lt y
  rw [← hl] at hy
  rw [tz, Nat.add_zero] at h1
  refine ⟨fun h => ?_, fun h => ?_, h3⟩
  · have hb : (subLoop x y 0).2.toNat = 1 := by
      rcases Nat.lt_or_ge 0 (subLoop x y 0).2.toNat with h | h'
      · omega
      · rw [Nat.le_zero.mp h', Nat.mul_zero] at h1; omega
    rw [hb, Nat.mul_one] at h1
    exact ⟨BitVec.eq_of_toNat_eq hb, h1⟩
  · have hb : (subLoop x y 0).2.toNat = 0 := by
      rcases Nat.lt_or_ge 0 (subLoop x y 0).2.toNat with h' | h'
      · have : (subLoop x y 0).2.toNat = 1 := by omega
        rw [this, Nat.mul_one] at h1; omega
      · omega
    rw [hb, Nat.mul_zero] at h1
    exact ⟨BitVec.eq_of_toNat_eq hb, h1⟩

theorem maskWords_zero (y : List W64) : maskWords y 0 = List.replicate y.length 0 := by
  induction y with
  | nil => rfl
  | cons w ws ih => simp only [maskWords, List.map_cons, List.length_cons, List.replicate_succ] at *; rw [ih]; simp

theorem maskWords_ones (y : List W64) : maskWords y (0 - 1) = y := by
  induction y with
  | nil => rfl
  | cons w ws ih =>
    simp only [maskWords, List.map_cons] at *
    rw [ih, show (0 - 1 : W64) = BitVec.allOnes 64 by decide, BitVec.and_allOnes]

theorem maskWords_length (y : List W64) (m : W64) : (maskWords y m).length = y.length := List.length_map _

/-- Adding a modulus back modulo 2^(64 n). -/
theorem addLoop_mod (x y : List W64) (hl : x.length = y.length) :
    val (addLoop x y 0).1 = (val x + val y) % 2 ^ (64 * x.length) ∧ (addLoop x y 0).1.length = x.length := by
  obtain ⟨h1, h2, h3⟩ := addLoop_spec x y 0 hl (by decide)
  refine ⟨?_, h3⟩
  have hz := val_lt (addLoop x y 0).1
  rw [h3] at hz
  rw [tz, Nat.add_zero] at h1
  rw [← h1, Nat.add_mul_mod_self_left, Nat.mod_eq_of_lt hz]

theorem cswapWords_zero (x y : List W64) : cswapWords 0 x y = (x, y) := by
  induction x generalizing y with
  | nil => simp [cswapWords]
  | cons w ws ih =>
    cases y with
    | nil => simp [cswapWords]
    | cons v vs =>
      simp only [cswapWords, ih vs]
      simp

theorem cswapWords_ones (x y : List W64) (hl : x.length = y.length) : cswapWords (0 - 1) x y = (y, x) := by
  induction x generalizing y with
  | nil => rw [List.length_eq_zero_iff.mp hl.symm]; rfl
  | cons w ws ih =>
    cases y with
    | nil => simp at hl
    | cons v vs =>
      have hw : ∀ a b : W64, (0 - 1 &&& (a ^^^ b)) = a ^^^ b := by
        intro a b
        rw [show (0 - 1 : W64) = BitVec.allOnes 64 by decide, BitVec.allOnes_and]
      simp only [cswapWords, ih vs (by simpa using hl), hw]
      congr 2
      · rw [BitVec.xor_comm w v, BitVec.xor_assoc, BitVec.xor_self, BitVec.xor_zero]
      · rw [BitVec.xor_assoc, BitVec.xor_self, BitVec.xor_zero]

/-! ### Column sums -/

/-- The value of the accumulator. -/
def aval (s : Acc) : Nat := s.v.toNat + 2 ^ 64 * s.u.toNat + 2 ^ 128 * s.t.toNat

theorem aval_lt (s : Acc) : aval s < 2 ^ 192 := by
  have := s.v.isLt
  have := s.u.isLt
  have := s.t.isLt
  rw [aval]; omega

theorem mac_spec (s : Acc) (a b : W64) (h : aval s + a.toNat * b.toNat < 2 ^ 192) : aval (s.mac a b) = aval s + a.toNat * b.toNat := by
  have h1 := mul64_spec a b
  obtain ⟨h2, h3⟩ := add64_spec (mul64 a b).2 s.v 0 (by decide)
  obtain ⟨h4, h5⟩ := add64_spec (mul64 a b).1 s.u (add64 (mul64 a b).2 s.v 0).2 h3
  rw [aval] at h
  simp only [Acc.mac, aval, BitVec.toNat_add]
  rw [tz] at h2
  have ht := s.t.isLt
  generalize a.toNat * b.toNat = m at *
  omega

theorem addw_spec (s : Acc) (x : W64) (h : aval s + x.toNat < 2 ^ 192) : aval (s.addw x) = aval s + x.toNat := by
  obtain ⟨h2, h3⟩ := add64_spec s.v x 0 (by decide)
  obtain ⟨h4, h5⟩ := add64_spec s.u 0 (add64 s.v x 0).2 h3
  rw [aval] at h
  simp only [Acc.addw, aval, BitVec.toNat_add]
  rw [tz] at h2 h4
  have ht := s.t.isLt
  omega

theorem shift_spec (s : Acc) : aval s = s.v.toNat + 2 ^ 64 * aval s.shift ∧ aval s.shift < 2 ^ 128 := by
  have := s.u.isLt
  have := s.t.isLt
  simp only [aval, Acc.shift, tz]
  omega

theorem word_lt (x : List W64) (i : Nat) : (word x i).toNat < 2 ^ 64 := (word x i).isLt

theorem macCol_spec (x y : List W64) (i : Nat) (js : List Nat) (s : Acc) (h : aval s + js.length * 2 ^ 128 < 2 ^ 192) :
    aval (macCol x y i js s) = aval s + (js.map fun j => (word x j).toNat * (word y (i - j)).toNat).sum := by
  induction js generalizing s with
  | nil => simp [macCol]
  | cons j js ih =>
    have hm : (word x j).toNat * (word y (i - j)).toNat < 2 ^ 64 * 2 ^ 64 := Nat.mul_lt_mul'' (word_lt x j) (word_lt y _)
    rw [List.length_cons] at h
    have hs : aval (s.mac (word x j) (word y (i - j))) = _ := mac_spec s _ _ (by
      generalize (word x j).toNat * (word y (i - j)).toNat = m at *; omega)
    have := ih (s.mac (word x j) (word y (i - j))) (by
      rw [hs]
      generalize (word x j).toNat * (word y (i - j)).toNat = m at *; omega)
    simp only [macCol, List.foldl_cons, List.map_cons, List.sum_cons] at this ⊢
    rw [this, hs]; omega

/-- The column sum is bounded. -/
theorem col_le (f : Nat → Nat) (js : List Nat) (M : Nat) (h : ∀ j, f j ≤ M) : (js.map f).sum ≤ js.length * M := by
  induction js with
  | nil => simp
  | cons j js ih =>
    have := h j
    rw [List.map_cons, List.sum_cons, List.length_cons, Nat.succ_mul]; omega

theorem val_eq_sum (x : List W64) (n : Nat) (h : x.length ≤ n) : val x = ∑ j ∈ Finset.range n, (word x j).toNat * B ^ j := by
  induction x generalizing n with
  | nil =>
    rw [val]
    symm
    apply Finset.sum_eq_zero
    intro j _
    simp [word]
  | cons w ws ih =>
    obtain ⟨n, rfl⟩ : ∃ m, n = m + 1 := ⟨n - 1, by rw [List.length_cons] at h; omega⟩
    rw [val, ih n (by simpa using h), Finset.sum_range_succ', Finset.mul_sum]
    rw [Nat.add_comm]
    congr 1
    · apply Finset.sum_congr rfl
      intro j _
      rw [show word (w :: ws) (j + 1) = word ws j from rfl, pow_succ]; ring
    · simp [word]

/-- Regrouping a product of digit sums by columns. -/
theorem prod_cols (a b : Nat → Nat) (n : Nat) (X : Nat) (ha : ∀ j, n ≤ j → a j = 0) (hb : ∀ j, n ≤ j → b j = 0) :
    (∑ j ∈ Finset.range n, a j * X ^ j) * (∑ j ∈ Finset.range n, b j * X ^ j) =
      ∑ i ∈ Finset.range (2 * n), (∑ j ∈ Finset.range (i + 1), a j * b (i - j)) * X ^ i := by
  rcases Nat.eq_zero_or_pos n with rfl | hn
  · simp
  have key : ∀ c : Nat → Nat, (∀ j, n ≤ j → c j = 0) →
      ∃ P : Polynomial Nat, P.eval X = ∑ j ∈ Finset.range n, c j * X ^ j ∧ (∀ j, P.coeff j = c j) ∧ P.natDegree ≤ n - 1 := by
    intro c hc
    refine ⟨∑ j ∈ Finset.range n, Polynomial.C (c j) * Polynomial.X ^ j, ?_, ?_, ?_⟩
    · simp [Polynomial.eval_finsetSum]
    · intro j
      simp only [Polynomial.finsetSum_coeff, Polynomial.coeff_C_mul_X_pow]
      rw [Finset.sum_ite_eq]
      split
      · rfl
      · rename_i h
        exact (hc j (by simpa using h)).symm
    · apply Polynomial.natDegree_sum_le_of_forall_le
      intro j hj
      have : j < n := by simpa using hj
      exact (Polynomial.natDegree_C_mul_X_pow_le _ _).trans (by omega)
  obtain ⟨P, p1, p2, p3⟩ := key a ha
  obtain ⟨Q, q1, q2, q3⟩ := key b hb
  rw [← p1, ← q1, ← Polynomial.eval_mul]
  rw [Polynomial.eval_eq_sum_range' (n := 2 * n) (lt_of_le_of_lt (Polynomial.natDegree_mul_le) (by omega))]
  apply Finset.sum_congr rfl
  intro i _
  rw [Polynomial.coeff_mul, Finset.Nat.sum_antidiagonal_eq_sum_range_succ (fun j k => P.coeff j * Q.coeff k)]
  simp only [p2, q2]

/-- The sum of column `i` of the product. -/
def col (x y : List W64) (i : Nat) : Nat := ∑ j ∈ Finset.range (i + 1), (word x j).toNat * (word y (i - j)).toNat

theorem word_ge {x : List W64} {i : Nat} (h : x.length ≤ i) : word x i = 0 := by
  rw [word, List.getD_eq_getElem?_getD, List.getElem?_eq_none h]; rfl

theorem val_mul_cols (x y : List W64) (n : Nat) (hx : x.length = n) (hy : y.length = n) :
    val x * val y = ∑ i ∈ Finset.range (2 * n), col x y i * B ^ i := by
  rw [val_eq_sum x n (by omega), val_eq_sum y n (by omega)]
  exact prod_cols _ _ n B (fun j h => by rw [word_ge (by omega)]; rfl) (fun j h => by rw [word_ge (by omega)]; rfl)

theorem list_sum_range (js : List Nat) (f : Nat → Nat) (N : Nat) (hn : js.Nodup) (h1 : ∀ j ∈ js, j < N)
    (h2 : ∀ j, j < N → j ∉ js → f j = 0) : (js.map f).sum = ∑ j ∈ Finset.range N, f j := by
  rw [← List.sum_toFinset f hn]
  apply Finset.sum_subset
  · intro j hj
    simpa using h1 j (by simpa using hj)
  · intro j hj hj'
    exact h2 j (by simpa using hj) (by simpa using hj')

theorem mem_forJ (lo hi j : Nat) : j ∈ forJ lo hi ↔ lo ≤ j ∧ j < hi := by
  rw [forJ, List.mem_range'_1]; omega

theorem nodup_forJ (lo hi : Nat) : (forJ lo hi).Nodup := List.nodup_range'

/-- A column sum through any selection of indices that leaves out only zero products. -/
theorem macCol_col (x y : List W64) (i : Nat) (js : List Nat) (s : Acc) (h : aval s + js.length * 2 ^ 128 < 2 ^ 192) (hn : js.Nodup)
    (h1 : ∀ j ∈ js, j ≤ i) (h2 : ∀ j, j ≤ i → j ∉ js → word x j = 0 ∨ word y (i - j) = 0) :
    aval (macCol x y i js s) = aval s + col x y i := by
  rw [macCol_spec x y i js s h, list_sum_range js _ (i + 1) hn (fun j hj => by have := h1 j hj; omega)]
  · rfl
  · intro j hj hj'
    rcases h2 j (by omega) hj' with h | h
    · rw [h, tz, Nat.zero_mul]
    · rw [h, tz, Nat.mul_zero]

theorem col_lt (x y : List W64) (i n : Nat) (hx : x.length ≤ n) : col x y i ≤ n * 2 ^ 128 := by
  have h : ∀ j, (word x j).toNat * (word y (i - j)).toNat ≤ 2 ^ 128 := by
    intro j
    have : (word x j).toNat * (word y (i - j)).toNat < 2 ^ 64 * 2 ^ 64 := Nat.mul_lt_mul'' (word_lt x j) (word_lt y _)
    omega
  rw [col]
  calc ∑ j ∈ Finset.range (i + 1), (word x j).toNat * (word y (i - j)).toNat
      = ∑ j ∈ (Finset.range (i + 1)).filter (· < n), (word x j).toNat * (word y (i - j)).toNat := by
        symm
        apply Finset.sum_subset (Finset.filter_subset _ _)
        intro j hj hj'
        rw [word_ge (x := x) (by
          by_contra hc
          apply hj'
          rw [Finset.mem_filter]
          exact ⟨hj, by omega⟩), tz, Nat.zero_mul]
    _ ≤ ((Finset.range (i + 1)).filter (· < n)).card * 2 ^ 128 := Finset.sum_le_card_nsmul _ _ _ (fun j _ => h j)
    _ ≤ n * 2 ^ 128 := by
        apply Nat.mul_le_mul_right
        have : ((Finset.range (i + 1)).filter (· < n)) ⊆ Finset.range n := by
          intro j hj
          rw [Finset.mem_filter] at hj
          simpa using hj.2
        simpa using Finset.card_le_card this

end Lemmas.Limb
