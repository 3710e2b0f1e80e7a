import Verif.Spec.Uniform
import Verif.Spec.CsidhKeys
import Verif.Lemmas.SidhLadder
import Mathlib.Logic.Equiv.Basic

/-!
Transformations of random sources that exchange two outcomes.
-/

namespace Lemmas.Uniform
open Spec Spec.Csidh

abbrev Byte := BitVec 8

theorem of_involution {A B : List Byte → Prop} (φ : List Byte → List Byte) (h1 : ∀ l, (φ l).length = l.length) (h2 : ∀ l, φ (φ l) = l)
    (h3 : ∀ l, A l → B (φ l)) (h4 : ∀ l, B l → A (φ l)) : AsLikely A B := fun n =>
  Nat.card_congr ⟨fun x => ⟨φ x.1, by rw [h1]; exact x.2.1, h3 _ x.2.2⟩, fun x => ⟨φ x.1, by rw [h1]; exact x.2.1, h4 _ x.2.2⟩,
    fun x => Subtype.ext (h2 _), fun x => Subtype.ext (h2 _)⟩

/-! ### Changing the accepted bytes -/

def tr (σ : ℕ → Byte → Byte) : ℕ → List Byte → List Byte
  | _, [] => []
  | i, b :: l => if small b then σ i b :: tr σ (i + 1) l else b :: tr σ i l

variable {σ : ℕ → Byte → Byte}

theorem tr_length : ∀ (i : ℕ) (l : List Byte), (tr σ i l).length = l.length
  | _, [] => rfl
  | i, b :: l => by
    rw [tr]
    split
    · rw [List.length_cons, List.length_cons, tr_length]
    · rw [List.length_cons, List.length_cons, tr_length]

theorem tr_tr (hs : ∀ i b, small (σ i b) = small b) (h2 : ∀ i b, σ i (σ i b) = b) : ∀ (i : ℕ) (l : List Byte), tr σ i (tr σ i l) = l
  | _, [] => rfl
  | i, b :: l => by
    rw [tr]
    split
    · rename_i h
      rw [tr, hs, if_pos h, h2, tr_tr hs h2]
    · rename_i h
      rw [tr, if_neg h, tr_tr hs h2]

theorem tr_append : ∀ (i : ℕ) (l l' : List Byte), tr σ i (l ++ l') = tr σ i l ++ tr σ (i + (l.filter small).length) l'
  | _, [], _ => rfl
  | i, b :: l, l' => by
    rw [List.cons_append, tr, tr]
    split
    · rename_i h
      rw [List.filter_cons_of_pos h, tr_append, List.length_cons, List.cons_append]
      congr 3
      omega
    · rename_i h
      rw [List.filter_cons_of_neg h, tr_append, List.cons_append]

theorem tr_id {n : ℕ} (hσ : ∀ i b, n ≤ i → σ i b = b) : ∀ (i : ℕ) (l : List Byte), n ≤ i → tr σ i l = l
  | _, [], _ => rfl
  | i, b :: l, h => by
    rw [tr]
    split
    · rw [hσ _ _ h, tr_id hσ _ _ (by omega)]
    · rw [tr_id hσ _ _ h]

theorem tr_filter (hs : ∀ i b, small (σ i b) = small b) : ∀ (i : ℕ) (l : List Byte), (tr σ i l).filter small = (l.filter small).mapIdx fun j b => σ (i + j) b
  | _, [] => rfl
  | i, b :: l => by
    rw [tr]
    split
    · rename_i h
      rw [List.filter_cons_of_pos (by rw [hs]; exact h), List.filter_cons_of_pos h, tr_filter hs, List.mapIdx_cons]
      congr 2
      funext j b
      congr 1
      omega
    · rename_i h
      rw [List.filter_cons_of_neg h, List.filter_cons_of_neg h, tr_filter hs]

theorem tr_take (i n : ℕ) (l : List Byte) : (tr σ i l).take n = tr σ i (l.take n) := by
  by_cases h : n ≤ l.length
  · conv_lhs => rw [← List.take_append_drop n l, tr_append]
    rw [List.take_left' (by rw [tr_length, List.length_take]; omega)]
  · rw [List.take_of_length_le (by rw [tr_length]; omega), List.take_of_length_le (by omega)]

theorem tr_drop (i n : ℕ) (l : List Byte) (h : n ≤ l.length) : (tr σ i l).drop n = tr σ (i + ((l.take n).filter small).length) (l.drop n) := by
  conv_lhs => rw [← List.take_append_drop n l, tr_append]
  rw [List.drop_left' (by rw [tr_length, List.length_take]; omega)]

/-- exchange the values of two keys -/
def exch (v w : ℕ → Byte) (i : ℕ) (b : Byte) : Byte := if i < 74 then Equiv.swap (v i) (w i) b else b

theorem exch_exch (v w : ℕ → Byte) (i : ℕ) (b : Byte) : exch v w i (exch v w i b) = b := by
  by_cases h : i < 74
  · simp only [exch, if_pos h, Equiv.swap_apply_self]
  · simp only [exch, if_neg h]

theorem exch_small {v w : ℕ → Byte} (hv : ∀ i < 74, small (v i) = true) (hw : ∀ i < 74, small (w i) = true) (i : ℕ) (b : Byte) : small (exch v w i b) = small b := by
  by_cases h : i < 74
  · simp only [exch, if_pos h, Equiv.swap_apply_def]
    split
    · rename_i h1; rw [h1, hv i h, hw i h]
    · split
      · rename_i h1; rw [h1, hv i h, hw i h]
      · rfl
  · simp only [exch, if_neg h]

/-! ### Adding a mask -/

/-- add a mask byte by byte -/
def msk (m : ℕ → Byte) (l : List Byte) : List Byte := l.mapIdx fun i b => b ^^^ m i

theorem msk_length (m : ℕ → Byte) (l : List Byte) : (msk m l).length = l.length := by rw [msk, List.length_mapIdx]

theorem msk_msk (m : ℕ → Byte) (l : List Byte) : msk m (msk m l) = l := by
  apply List.ext_getElem?
  intro i
  rw [msk, msk, List.getElem?_mapIdx, List.getElem?_mapIdx]
  cases l[i]? with
  | none => rfl
  | some b => simp [BitVec.xor_assoc]

theorem msk_take (m : ℕ → Byte) (l : List Byte) (n : ℕ) : (msk m l).take n = msk m (l.take n) := by
  apply List.ext_getElem?
  intro i
  rw [msk, msk, List.getElem?_mapIdx, List.getElem?_take, List.getElem?_take, List.getElem?_mapIdx]
  split <;> rfl

theorem msk_drop (m : ℕ → Byte) (l : List Byte) (n : ℕ) : (msk m l).drop n = msk (fun i => m (n + i)) (l.drop n) := by
  apply List.ext_getElem?
  intro i
  rw [msk, msk, List.getElem?_mapIdx, List.getElem?_drop, List.getElem?_drop, List.getElem?_mapIdx]

theorem msk_zero (l : List Byte) : msk (fun _ => 0) l = l := by
  apply List.ext_getElem?
  intro i
  rw [msk, List.getElem?_mapIdx]
  cases l[i]? with
  | none => rfl
  | some b => simp

theorem msk_congr {m m' : ℕ → Byte} (l : List Byte) (h : ∀ i < l.length, m i = m' i) : msk m l = msk m' l := by
  apply List.ext_getElem?
  intro i
  rw [msk, msk, List.getElem?_mapIdx, List.getElem?_mapIdx]
  by_cases hi : i < l.length
  · rw [h i hi]
  · rw [List.getElem?_eq_none (by omega)]; rfl

/-- the bytes of a number -/
def byteOf (t : ℕ) (i : ℕ) : Byte := BitVec.ofNat 8 (t >>> (8 * i))

theorem bval_msk (t : ℕ) (l : List Byte) (h : t < 256 ^ l.length) : bval (msk (byteOf t) l) = bval l ^^^ t := by
  apply Nat.eq_of_testBit_eq
  intro i
  rw [Nat.testBit_xor, Lemmas.SidhLadder.bval_testBit, Lemmas.SidhLadder.bval_testBit, msk, List.getElem?_mapIdx]
  by_cases hi : i / 8 < l.length
  · rw [List.getElem?_eq_getElem hi]
    simp only [Option.map_some, Option.getD_some, BitVec.getLsbD_xor]
    congr 1
    rw [byteOf, BitVec.getLsbD_ofNat, Nat.testBit_shiftRight, show 8 * (i / 8) + i % 8 = i by omega]
    simp [show i % 8 < 8 by omega]
  · rw [List.getElem?_eq_none (by omega)]
    have : t.testBit i = false := by
      apply Nat.testBit_lt_two_pow
      refine lt_of_lt_of_le h ?_
      rw [show (256 : ℕ) = 2 ^ 8 by norm_num, ← pow_mul]
      exact Nat.pow_le_pow_right (by decide) (by omega)
    simp [this]

theorem bval_low {n x y t : ℕ} (ht : x < 2 ^ n) (h : t % 2 ^ n = x) (hy : y < 2 ^ n) : (t ^^^ (x ^^^ y)) % 2 ^ n = y := by
  rw [Nat.xor_mod_two_pow, h, Nat.xor_mod_two_pow, Nat.mod_eq_of_lt ht, Nat.mod_eq_of_lt hy, ← Nat.xor_assoc, Nat.xor_self, Nat.zero_xor]

/-- the mask that exchanges two pairs of a seed and a number -/
def pairMask (σ σ' : List Byte) (t : ℕ) (n : ℕ) (i : ℕ) : Byte :=
  if i < σ.length then σ.getD i 0 ^^^ σ'.getD i 0 else if i < σ.length + n then byteOf t (i - σ.length) else 0

theorem pairMask_take {σ σ' : List Byte} {t n : ℕ} (h : σ'.length = σ.length) {l : List Byte} (hl : l.take σ.length = σ) : (msk (pairMask σ σ' t n) l).take σ.length = σ' := by
  rw [msk_take, hl]
  apply List.ext_getElem?
  intro i
  rw [msk, List.getElem?_mapIdx]
  by_cases hi : i < σ.length
  · rw [List.getElem?_eq_getElem hi, List.getElem?_eq_getElem (by omega)]
    simp only [Option.map_some, pairMask, if_pos hi]
    rw [List.getD_eq_getElem?_getD, List.getD_eq_getElem?_getD, List.getElem?_eq_getElem hi, List.getElem?_eq_getElem (by omega : i < σ'.length)]
    simp [← BitVec.xor_assoc]
  · rw [List.getElem?_eq_none (by omega), List.getElem?_eq_none (by omega)]; rfl

theorem pairMask_mid {σ σ' : List Byte} {t n : ℕ} {l : List Byte} (ht : t < 256 ^ n) (hl : σ.length + n ≤ l.length) :
    bval (((msk (pairMask σ σ' t n) l).drop σ.length).take n) = bval ((l.drop σ.length).take n) ^^^ t := by
  have len : ((l.drop σ.length).take n).length = n := by rw [List.length_take, List.length_drop]; omega
  rw [msk_drop, msk_take, ← bval_msk t _ (by rw [len]; exact ht)]
  congr 1
  apply msk_congr
  intro i hi
  rw [len] at hi
  rw [pairMask, if_neg (by omega), if_pos (by omega), Nat.add_sub_cancel_left]

theorem pairMask_drop (σ σ' : List Byte) (t n : ℕ) (l : List Byte) : (msk (pairMask σ σ' t n) l).drop (σ.length + n) = l.drop (σ.length + n) := by
  rw [msk_drop]
  conv_rhs => rw [← msk_zero (l.drop (σ.length + n))]
  apply msk_congr
  intro i _
  rw [pairMask, if_neg (by omega), if_neg (by omega)]

theorem pairMask_symm {σ σ' : List Byte} {t n : ℕ} (h : σ'.length = σ.length) : pairMask σ' σ t n = pairMask σ σ' t n := by
  funext i
  rw [pairMask, pairMask, h]
  split
  · exact BitVec.xor_comm _ _
  · rfl

end Lemmas.Uniform
