import Verif.Lemmas.CsidhNat
import Verif.Lemmas.SidhBytes
import Verif.Spec.CsidhKeys
import Verif.Spec.LeBytes
/-
Byte conversions, random field elements and private keys of the CSIDH code.
-/
namespace Lemmas.CsidhKeys
open Model Model.Limb Model.Csidh Spec Spec.Csidh Lemmas.CsidhField Lemmas.CsidhArith Lemmas.CsidhNat Lemmas.Limb

theorem orBytes_eq : ∀ (bs : List Byte) (i : Nat) (v : Fp), orBytes bs i v = Model.Sidh.orBytes v i bs
  | [], _, _ => rfl
  | b :: bs, i, v => by rw [orBytes, Model.Sidh.orBytes, orBytes_eq bs]; rfl

theorem fpBytes_eq (a : Fp) : fpBytes a = leBytes 64 (val a) := Lemmas.SidhBytes.wordsToBytes_eq a 64

theorem fp0_len : fp0.length = 8 := rfl

theorem import_val (key : List Byte) (h : key.length = 64) : (orBytes key 0 fp0).length = 8 ∧ val (orBytes key 0 fp0) = bval key := by
  rw [orBytes_eq]
  refine ⟨Lemmas.SidhBytes.orBytes_length _ _ _, ?_⟩
  rw [Lemmas.SidhBytes.val_orBytes _ _ _ (by rw [h, fp0_len]), show val fp0 = 0 from val_replicate_zero 8, Nat.zero_or, Nat.mul_zero, Nat.shiftLeft_zero]

/-- Clearing bits of the last word -/
theorem mask_val (v : Fp) (h : v.length = 8) : (v.set 7 (word v 7 &&& ((1 : W64) <<< (511 % 64) - 1))).length = 8 ∧
    val (v.set 7 (word v 7 &&& ((1 : W64) <<< (511 % 64) - 1))) = val v % 2 ^ 511 := by
  refine ⟨by rw [List.length_set, h], ?_⟩
  match v, h with
  | [a, b, c, d, e, f, g, i], _ =>
    have hi : ((i &&& ((1 : W64) <<< (511 % 64) - 1)).toNat) = i.toNat % 2 ^ 63 := by
      rw [show ((1 : W64) <<< (511 % 64) - 1) = 0x7FFFFFFFFFFFFFFF#64 from rfl, BitVec.toNat_and]
      exact Nat.and_two_pow_sub_one_eq_mod _ 63
    show val [a, b, c, d, e, f, g, i &&& ((1 : W64) <<< (511 % 64) - 1)] = _
    simp only [val, hi]
    have := a.isLt; have := b.isLt; have := c.isLt; have := d.isLt; have := e.isLt; have := f.isLt; have := g.isLt
    omega

theorem candidate_val (buf : List Byte) (h : buf.length = 64) : (Model.Csidh.candidate buf).length = 8 ∧
    val (Model.Csidh.candidate buf) = bval buf % 2 ^ 511 := by
  obtain ⟨h1, h2⟩ := import_val buf h
  obtain ⟨h3, h4⟩ := mask_val _ h1
  rw [h2] at h4
  exact ⟨h3, h4⟩

theorem candidate_succ (rng : List Byte) (k : Nat) : Spec.Csidh.candidate (rng.drop 64) k = Spec.Csidh.candidate rng (k + 1) := by
  rw [Spec.Csidh.candidate, Spec.Csidh.candidate, List.drop_drop]
  congr 4
  omega

theorem randFp_some (rng : List Byte) : ∀ v rest, randFp rng = some (v, rest) ↔ ∃ k, 64 * (k + 1) ≤ rng.length ∧ Spec.Csidh.candidate rng k < Spec.Csidh.p ∧
    (∀ j < k, Spec.Csidh.p ≤ Spec.Csidh.candidate rng j) ∧ v.length = 8 ∧ val v = Spec.Csidh.candidate rng k ∧ rest = rng.drop (64 * (k + 1)) := by
  induction rng using randFp.induct with
  | case1 rng h =>
    intro v rest
    rw [randFp, dif_pos h]
    constructor
    · intro e; cases e
    · rintro ⟨k, hk, _⟩; omega
  | case2 rng h w hw =>
    intro v rest
    obtain ⟨l1, l2⟩ := candidate_val (rng.take 64) (by rw [List.length_take]; omega)
    have hw' : isLess (Model.Csidh.candidate (rng.take 64)) Model.Csidh.p = true := hw
    have hlt := (isLess_spec _ _ (by rw [l1]; rfl)).mp hw'
    rw [l2, p_val] at hlt
    rw [randFp, dif_neg h]
    simp only
    rw [if_pos hw']
    constructor
    · intro e
      cases e
      exact ⟨0, by omega, by simpa [Spec.Csidh.candidate] using hlt, by simp, l1, by simpa [Spec.Csidh.candidate] using l2, by simp⟩
    · rintro ⟨k, k1, k2, k3, k4, k5, k6⟩
      cases k with
      | zero =>
        have : v = Model.Csidh.candidate (rng.take 64) := by
          apply val_inj (k4.trans l1.symm)
          rw [k5, l2]; simp [Spec.Csidh.candidate]
        rw [this, k6]
      | succ k =>
        have := k3 0 (by omega)
        simp only [Spec.Csidh.candidate, Nat.mul_zero, List.drop_zero] at this
        omega
  | case3 rng h w hw ih =>
    intro v rest
    obtain ⟨l1, l2⟩ := candidate_val (rng.take 64) (by rw [List.length_take]; omega)
    have hw' : ¬ isLess (Model.Csidh.candidate (rng.take 64)) Model.Csidh.p = true := hw
    have hlt := mt (isLess_spec _ _ (by rw [l1]; rfl)).mpr hw'
    rw [l2, p_val] at hlt
    rw [randFp, dif_neg h]
    simp only
    rw [if_neg hw', ih]
    have h0 : Spec.Csidh.candidate rng 0 = bval (rng.take 64) % 2 ^ 511 := by simp [Spec.Csidh.candidate]
    constructor
    · rintro ⟨k, k1, k2, k3, k4, k5, k6⟩
      rw [List.length_drop] at k1
      rw [candidate_succ] at k2 k5
      refine ⟨k + 1, by omega, k2, ?_, k4, k5, by rw [k6, List.drop_drop]; congr 1; omega⟩
      intro j hj
      cases j with
      | zero => rw [h0]; omega
      | succ j => rw [← candidate_succ]; exact k3 j (by omega)
    · rintro ⟨k, k1, k2, k3, k4, k5, k6⟩
      cases k with
      | zero => rw [h0] at k2; omega
      | succ k =>
        refine ⟨k, by rw [List.length_drop]; omega, by rw [candidate_succ]; exact k2, ?_, k4, by rw [candidate_succ]; exact k5,
          by rw [k6, List.drop_drop]; congr 1; omega⟩
        intro j hj
        rw [candidate_succ]
        exact k3 _ (by omega)

theorem elt_of {x : Fp} (h1 : x.length = 8) (h2 : val x < Spec.Csidh.p) : ∃ a, IsElt x a :=
  ⟨(val x : ZMod Spec.Csidh.p) * (2 ^ 512)⁻¹, h1, h2, by rw [mul_assoc, inv_mul_cancel₀ R_ne, mul_one]⟩

theorem randFp_elt {rng : List Byte} {v : Fp} {rest : List Byte} (h : randFp rng = some (v, rest)) : ∃ a, IsElt v a := by
  obtain ⟨k, _, k2, _, k4, k5, _⟩ := (randFp_some rng v rest).mp h
  exact elt_of k4 (by rw [k5]; exact k2)

/-! ### Private keys -/

/-- The private key made of a list of accepted bytes -/
def pack (acc : List Byte) : List Byte :=
  (List.range 37).map fun j => (acc.getD (2 * j) 0 &&& (0xF : Byte)) ||| ((acc.getD (2 * j + 1) 0 &&& (0xF : Byte)) <<< 4)

theorem pack_len (acc : List Byte) : (pack acc).length = 37 := by simp [pack]

theorem pack_nil : pack [] = List.replicate 37 0 := by decide

theorem pack_get (acc : List Byte) (j : Nat) (h : j < 37) :
    (pack acc).getD j 0 = (acc.getD (2 * j) 0 &&& (0xF : Byte)) ||| ((acc.getD (2 * j + 1) 0 &&& (0xF : Byte)) <<< 4) := by
  rw [pack, List.getD_eq_getElem?_getD, List.getElem?_map, List.getElem?_range h]
  rfl

theorem getD_append_one (acc : List Byte) (b : Byte) (n : Nat) : (acc ++ [b]).getD n 0 = if n = acc.length then b else acc.getD n 0 := by
  rw [List.getD_eq_getElem?_getD, List.getD_eq_getElem?_getD]
  split
  · rename_i h; subst h; simp
  · rename_i h
    by_cases h' : n < acc.length
    · rw [List.getElem?_append_left h']
    · rw [List.getElem?_eq_none (by simp; omega), List.getElem?_eq_none (by omega)]

theorem getD_ge (acc : List Byte) {n : Nat} (h : acc.length ≤ n) : acc.getD n 0 = 0 := by
  rw [List.getD_eq_getElem?_getD, List.getElem?_eq_none h]; rfl

theorem pack_append (acc : List Byte) (b : Byte) (h : acc.length < 74) :
    (pack acc).set (acc.length / 2) ((pack acc).getD (acc.length / 2) 0 ||| ((b &&& (0xF : Byte)) <<< (acc.length % 2 * 4))) = pack (acc ++ [b]) := by
  apply List.ext_getElem?
  intro j
  by_cases hj : j < 37
  · have e : ∀ l : List Byte, l.length = 37 → l[j]? = some (l.getD j 0) := by
      intro l hl
      rw [List.getD_eq_getElem?_getD, List.getElem?_eq_getElem (by omega)]; rfl
    rw [e _ (pack_len _), e _ (by rw [List.length_set, pack_len]), pack_get _ _ hj, getD_append_one, getD_append_one]
    congr 1
    rw [List.getD_eq_getElem?_getD, List.getElem?_set]
    by_cases he : acc.length / 2 = j
    · rw [if_pos he, if_pos (by rw [pack_len]; omega)]
      subst he
      rw [pack_get _ _ hj]
      simp only [Option.getD_some]
      rcases Nat.mod_two_eq_zero_or_one acc.length with hm | hm
      · rw [hm, if_pos (by omega), if_neg (by omega), getD_ge acc (n := 2 * (acc.length / 2)) (by omega),
          getD_ge acc (n := 2 * (acc.length / 2) + 1) (by omega)]
        simp
      · rw [hm, if_neg (by omega), if_pos (by omega), getD_ge acc (n := 2 * (acc.length / 2) + 1) (by omega)]
        simp
    · rw [if_neg he, if_neg (by omega), if_neg (by omega), ← List.getD_eq_getElem?_getD, pack_get _ _ hj]
  · rw [List.getElem?_eq_none (by rw [List.length_set, pack_len]; omega), List.getElem?_eq_none (by rw [pack_len]; omega)]

theorem fillKey_spec : ∀ (bs acc : List Byte), acc.length < 74 →
    fillKey bs acc.length (pack acc) = (((acc ++ bs.filter small).take 74).length, pack ((acc ++ bs.filter small).take 74))
  | [], acc, h => by
    rw [fillKey, List.filter_nil, List.append_nil, List.take_of_length_le (by omega)]
  | b :: bs, acc, h => by
    rw [fillKey]
    by_cases hb : b.toInt ≤ 5 ∧ -5 ≤ b.toInt
    · have hs : small b = true := by rw [small, decide_eq_true_iff]; exact ⟨hb.2, hb.1⟩
      rw [if_pos hb, List.filter_cons_of_pos hs, pack_append acc b h]
      simp only
      have e : acc ++ b :: bs.filter small = (acc ++ [b]) ++ bs.filter small := by simp
      have l : acc.length + 1 = (acc ++ [b]).length := by simp
      by_cases h1 : acc.length + 1 = 74
      · rw [if_pos h1, e, List.take_append_of_le_length (by omega), List.take_of_length_le (by omega), ← l]
      · rw [if_neg h1, e, l, fillKey_spec bs _ (by omega)]
    · have hs : ¬ small b = true := by rw [small, decide_eq_true_iff]; exact fun x => hb ⟨x.2, x.1⟩
      rw [if_neg hb, List.filter_cons_of_neg hs, fillKey_spec bs acc h]

theorem take_add_filter (l : List Byte) (n : Nat) : (l.take 64).filter small ++ ((l.drop 64).take (64 * n)).filter small = (l.take (64 * (n + 1))).filter small := by
  rw [← List.filter_append, show 64 * (n + 1) = 64 + 64 * n by ring, List.take_add]

theorem genLoop_spec (acc0 : List Byte) (i : Nat) (e rng : List Byte) : ∀ acc : List Byte, i = acc.length → e = pack acc → acc.length ≤ 74 →
    (∀ k rest, genLoop i e rng = (k, rest, true) ↔ ∃ b, 64 * b ≤ rng.length ∧ 74 ≤ (acc ++ (rng.take (64 * b)).filter small).length ∧
      (∀ c < b, (acc ++ (rng.take (64 * c)).filter small).length < 74) ∧
      k = ⟨pack ((acc ++ (rng.take (64 * b)).filter small).take 74)⟩ ∧ rest = rng.drop (64 * b)) := by
  induction i, e, rng using genLoop.induct with
  | case1 i e rng h1 h2 =>
    rintro acc rfl rfl h74 k rest
    rw [genLoop, if_pos h1, if_pos h2]
    constructor
    · intro x; simp at x
    · rintro ⟨b, b1, b2, b3, _⟩
      have : b = 0 := by omega
      subst this
      simp at b2; omega
  | case2 i e rng h1 h2 i' e' hf ih =>
    rintro acc rfl rfl h74 k rest
    rw [genLoop, if_pos h1, if_neg h2, hf]
    simp only
    rw [fillKey_spec _ _ h1] at hf
    obtain ⟨hf1, hf2⟩ := Prod.mk.inj hf
    rw [ih ((acc ++ (rng.take 64).filter small).take 74) hf1.symm hf2.symm (by simp)]
    obtain ⟨m, hm⟩ : ∃ m, (rng.take 64).filter small = m := ⟨_, rfl⟩
    have key : ∀ n, (acc ++ (rng.take (64 * (n + 1))).filter small) = (acc ++ m) ++ ((rng.drop 64).take (64 * n)).filter small := by
      intro n
      rw [← take_add_filter, ← hm, List.append_assoc]
    rw [hm]
    have tk : ∀ x : List Byte, ((acc ++ m).take 74 ++ x).take 74 = (acc ++ m ++ x).take 74 := by
      intro x
      generalize acc ++ m = y
      rw [List.take_append, List.take_append, List.take_take, Nat.min_self, List.length_take]
      congr 2
      omega
    have ln : ∀ x : List Byte, 74 ≤ ((acc ++ m).take 74 ++ x).length ↔ 74 ≤ (acc ++ m ++ x).length := by
      intro x
      rw [List.length_append, List.length_append (as := acc ++ m), List.length_take]
      omega
    constructor
    · rintro ⟨b, b1, b2, b3, b4, b5⟩
      rw [List.length_drop] at b1
      refine ⟨b + 1, by omega, ?_, ?_, ?_, ?_⟩
      · rw [key]; exact (ln _).mp b2
      · intro c hc
        cases c with
        | zero => simpa using h1
        | succ c =>
          rw [key]
          have := b3 c (by omega)
          by_contra hcon
          have := (ln (((rng.drop 64).take (64 * c)).filter small)).mpr (by omega)
          omega
      · rw [b4, key, tk]
      · rw [b5, List.drop_drop]; congr 1; omega
    · rintro ⟨b, b1, b2, b3, b4, b5⟩
      cases b with
      | zero => simp at b2; omega
      | succ b =>
        refine ⟨b, by rw [List.length_drop]; omega, (ln _).mpr (by rw [← key]; exact b2), ?_, by rw [b4, key, tk], by rw [b5, List.drop_drop]; congr 1; omega⟩
        intro c hc
        have := b3 (c + 1) (by omega)
        rw [key] at this
        by_contra hcon
        have := (ln (((rng.drop 64).take (64 * c)).filter small)).mp (by omega)
        omega
  | case3 i e rng h1 =>
    rintro acc rfl rfl h74 k rest
    rw [genLoop, if_neg h1]
    have : acc.length = 74 := by omega
    constructor
    · intro x
      simp only [Prod.mk.injEq, and_true] at x
      refine ⟨0, by omega, by simp; omega, by simp, ?_, by simp [x.2]⟩
      rw [← x.1]; simp [List.take_of_length_le (by omega : acc.length ≤ 74)]
    · rintro ⟨b, b1, b2, b3, b4, b5⟩
      have : b = 0 := by
        by_contra hb
        have := b3 0 (by omega)
        simp at this; omega
      subst this
      rw [b4, b5]; simp [List.take_of_length_le (by omega : acc.length ≤ 74)]

theorem nibble_lo : ∀ a b : Byte, small a = true → ((a &&& (0xF : Byte)) ||| ((b &&& (0xF : Byte)) <<< 4)).toNat % 16 = a.toNat % 16 := by
  intro a b _
  rw [BitVec.toNat_or, Nat.or_mod_two_pow (n := 4)]
  have : ((b &&& (0xF : Byte)) <<< 4).toNat % 2 ^ 4 = 0 := by
    rw [BitVec.toNat_shiftLeft, Nat.shiftLeft_eq]; omega
  rw [this, Nat.or_zero, BitVec.toNat_and]
  exact (congrArg (· % 16) (Nat.and_two_pow_sub_one_eq_mod a.toNat 4)).trans (Nat.mod_mod _ _)

theorem nibble_hi : ∀ a b : Byte, ((a &&& (0xF : Byte)) ||| ((b &&& (0xF : Byte)) <<< 4)).toNat / 16 % 16 = b.toNat % 16 := by
  intro a b
  have ha : (a &&& (0xF : Byte)).toNat = a.toNat % 16 := by rw [BitVec.toNat_and]; exact Nat.and_two_pow_sub_one_eq_mod a.toNat 4
  have hb : ((b &&& (0xF : Byte)) <<< 4).toNat = 16 * (b.toNat % 16) := by
    rw [BitVec.toNat_shiftLeft, Nat.shiftLeft_eq, BitVec.toNat_and, show (b.toNat &&& (0xF : Byte).toNat) = b.toNat % 16 from Nat.and_two_pow_sub_one_eq_mod b.toNat 4]
    omega
  have : ((a &&& (0xF : Byte)) ||| ((b &&& (0xF : Byte)) <<< 4)).toNat / 2 ^ 4 = b.toNat % 16 := by
    rw [BitVec.toNat_or, Nat.or_div_two_pow, ha, hb]
    rw [show a.toNat % 16 / 2 ^ 4 = 0 by omega, Nat.zero_or]; omega
  rw [show (16 : Nat) = 2 ^ 4 from rfl, this]; omega

theorem small_nibble : ∀ a : Byte, small a = true → (if a.toNat % 16 < 8 then ((a.toNat % 16 : Nat) : Int) else ((a.toNat % 16 : Nat) : Int) - 16) = a.toInt := by
  decide

theorem nibble_pack (acc : List Byte) (i : Nat) (b : Byte) (hi : i < 74) (hb : acc[i]? = some b) (hs : small b = true) : nibble (pack acc) i = b.toInt := by
  have hg : acc.getD i 0 = b := by rw [List.getD_eq_getElem?_getD, hb]; rfl
  rw [nibble, pack_get _ _ (by omega)]
  rcases Nat.mod_two_eq_zero_or_one i with hm | hm
  · simp only [hm, pow_zero, Nat.div_one]
    rw [show 2 * (i / 2) = i by omega, hg, nibble_lo _ _ hs]
    exact small_nibble b hs
  · simp only [hm, pow_one]
    rw [show 2 * (i / 2) + 1 = i by omega, hg, nibble_hi]
    exact small_nibble b hs

end Lemmas.CsidhKeys
