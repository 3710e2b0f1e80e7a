import Verif.Model.CsidhAlias
import Verif.Lemmas.SidhAlias
import Verif.Lemmas.CsidhArith
/-! In memory the arithmetic of CSIDH leaves the result in the destination, also when that is an argument. -/
namespace Lemmas.CsidhAlias
open Model Model.Limb Model.Csidh Model.Sidh.Alias Model.Csidh.Alias Lemmas.SidhAlias Lemmas.Limb Lemmas.CsidhArith

theorem pickM_spec (z : Nat) (w : W64) (t zs : List W64) (n : Nat) (ht : t.length = n) (hzs : zs.length = n) (k : Nat) :
    ∀ (i : Nat) (m : Mem), i + k = n → (m z).length = n → (∀ j, i ≤ j → word (m z) j = word zs j) →
    pickM z w t i k m z = (m z).take i ++ pickWords w (zs.drop i) (t.drop i) ∧ ∀ b, b ≠ z → pickM z w t i k m b = m b := by
  induction k with
  | zero =>
    intro i m hi hz _
    rw [List.drop_eq_nil_of_le (by omega), List.drop_eq_nil_of_le (by omega), List.take_of_length_le (by omega)]
    simp [pickM, pickWords]
  | succ k ih =>
    intro i m hi hz hwz
    rw [drop_cons_word zs i (by omega), drop_cons_word t i (by omega)]
    simp only [pickM, pickWords, List.zipWith_cons_cons]
    rw [hwz i (Nat.le_refl i)]
    generalize hp : ctPick64 w (word zs i) (word t i) = v
    obtain ⟨h1, h3⟩ := ih (i + 1) (store m z i v) (by omega) (by rw [store_self, List.length_set, hz])
      (fun j hj => by rw [store_word _ _ _ _ _ _ (by omega)]; exact hwz j (by omega))
    refine ⟨?_, fun b hb => by rw [h3 b hb, store_ne _ _ _ _ _ hb]⟩
    rw [h1, store_self, take_set_succ _ _ _ (by omega), List.append_assoc]
    rfl

theorem word_pick (a : List W64) (w : W64) (i : Nat) (h : i < a.length) : ctPick64 w (word a i) 0 = word (a.map fun a => ctPick64 w a 0) i := by
  rw [word, word, List.getD_eq_getElem?_getD, List.getD_eq_getElem?_getD, List.getElem?_map, List.getElem?_eq_getElem h]
  rfl

theorem addPickM_spec (z : Nat) (w : W64) (zs : List W64) (hzs : zs.length = 8) (k : Nat) :
    ∀ (i : Nat) (m : Mem) (c : W64), i + k = 8 → (m z).length = 8 → (∀ j, i ≤ j → word (m z) j = word zs j) →
    (addPickM z w i k (m, c)).1 z = (m z).take i ++ (addLoop (zs.drop i) ((p.map fun a => ctPick64 w a 0).drop i) c).1 ∧
    ∀ b, b ≠ z → (addPickM z w i k (m, c)).1 b = m b := by
  have hm : (p.map fun a => ctPick64 w a 0).length = 8 := by rw [List.length_map]; rfl
  induction k with
  | zero =>
    intro i m c hi hz _
    rw [List.drop_eq_nil_of_le (by omega), List.drop_eq_nil_of_le (by omega), List.take_of_length_le (by omega)]
    simp [addPickM, addLoop]
  | succ k ih =>
    intro i m c hi hz hwz
    rw [drop_cons_word zs i (by omega), drop_cons_word _ i (by omega)]
    simp only [addPickM, addLoop]
    rw [hwz i (Nat.le_refl i), word_pick p w i (by rw [p_len]; omega)]
    generalize hp : add64 (word zs i) (word (p.map fun a => ctPick64 w a 0) i) c = s
    obtain ⟨h1, h3⟩ := ih (i + 1) (store m z i s.1) s.2 (by omega) (by rw [store_self, List.length_set, hz])
      (fun j hj => by rw [store_word _ _ _ _ _ _ (by omega)]; exact hwz j (by omega))
    refine ⟨?_, fun b hb => by rw [h3 b hb, store_ne _ _ _ _ _ hb]⟩
    rw [h1, store_self, take_set_succ _ _ _ (by omega), List.append_assoc]
    rfl

theorem condSubM_spec (z : Nat) (m : Mem) (hz : (m z).length = 8) :
    condSubM z m z = condSub (m z) ∧ ∀ b, b ≠ z → condSubM z m b = m b := by
  have hl := (subLoop_spec (m z) p 0 (hz.trans p_len.symm) (by decide)).2.2
  obtain ⟨h1, h2⟩ := pickM_spec z (0 - (subLoop (m z) p 0).2) (subLoop (m z) p 0).1 (m z) 8 (hl.trans hz) hz 8 0 m (by omega) hz (fun _ _ => rfl)
  exact ⟨h1, h2⟩

theorem addRdcM_spec (z x y : Nat) (m : Mem) (hz : (m z).length = 8) (hx : (m x).length = 8) (hy : (m y).length = 8) :
    addRdcM z x y m z = addRdc (m x) (m y) ∧ ∀ b, b ≠ z → addRdcM z x y m b = m b := by
  obtain ⟨a1, _, a3⟩ := addM_spec z x y (m x) (m y) 8 hx hy 8 0 m 0 (by omega) hz (fun _ _ => rfl) (fun _ _ => rfl)
  simp only [List.drop_zero, List.take_zero, List.nil_append] at a1
  have hl := (addLoop_spec (m x) (m y) 0 (hx.trans hy.symm) (by decide)).2.2
  obtain ⟨h1, h2⟩ := condSubM_spec z (addM z x y 0 8 (m, 0)).1 (by rw [a1, hl, hx])
  rw [a1] at h1
  exact ⟨h1, fun b hb => (h2 b hb).trans (a3 b hb)⟩

theorem sub512M_spec (z x y : Nat) (m : Mem) (hz : (m z).length = 8) (hx : (m x).length = 8) (hy : (m y).length = 8) :
    (sub512M z x y m).1 z = (sub512 (m x) (m y)).1 ∧ (sub512M z x y m).2 = (sub512 (m x) (m y)).2 ∧ ∀ b, b ≠ z → (sub512M z x y m).1 b = m b := by
  obtain ⟨a1, a2, a3⟩ := subM_spec z x y (m x) (m y) 8 hx hy 8 0 m 0 (by omega) hz (fun _ _ => rfl) (fun _ _ => rfl)
  simp only [List.drop_zero, List.take_zero, List.nil_append] at a1 a2
  exact ⟨a1, a2, a3⟩

theorem subRdcM_spec (z x y : Nat) (m : Mem) (hz : (m z).length = 8) (hx : (m x).length = 8) (hy : (m y).length = 8) :
    subRdcM z x y m z = subRdc (m x) (m y) ∧ ∀ b, b ≠ z → subRdcM z x y m b = m b := by
  obtain ⟨a1, a2, a3⟩ := subM_spec z x y (m x) (m y) 8 hx hy 8 0 m 0 (by omega) hz (fun _ _ => rfl) (fun _ _ => rfl)
  simp only [List.drop_zero, List.take_zero, List.nil_append] at a1 a2
  have hl := (subLoop_spec (m x) (m y) 0 (hx.trans hy.symm) (by decide)).2.2
  generalize hm1 : subM z x y 0 8 (m, 0) = s1 at *
  have l1 : (s1.1 z).length = 8 := by rw [a1, hl, hx]
  obtain ⟨h1, h2⟩ := addPickM_spec z (0 - s1.2) (s1.1 z) l1 8 0 s1.1 0 (by omega) l1 (fun _ _ => rfl)
  simp only [List.drop_zero, List.take_zero, List.nil_append] at h1
  have hd : subRdcM z x y m = (addPickM z (0 - s1.2) 0 8 (s1.1, 0)).1 := by unfold subRdcM; rw [hm1]
  rw [hd]
  refine ⟨?_, fun b hb => by rw [h2 b hb, a3 b hb]⟩
  rw [h1, a1, a2]
  unfold subRdc
  rfl

theorem storeM_spec (z : Nat) : ∀ (ws : List W64) (i : Nat) (m : Mem), i + ws.length = (m z).length →
    storeM z ws i m z = (m z).take i ++ ws ∧ ∀ b, b ≠ z → storeM z ws i m b = m b
  | [], i, m, h => by
    rw [List.take_of_length_le (by simp at h; omega)]
    simp [storeM]
  | w :: ws, i, m, h => by
    rw [List.length_cons] at h
    obtain ⟨h1, h2⟩ := storeM_spec z ws (i + 1) (store m z i w) (by rw [store_self, List.length_set]; omega)
    refine ⟨?_, fun b hb => by rw [storeM, h2 b hb, store_ne _ _ _ _ _ hb]⟩
    rw [storeM, h1, store_self, take_set_succ _ _ _ (by omega), List.append_assoc]
    rfl

theorem mulRdcM_spec (z x y : Nat) (m : Mem) (hz : (m z).length = 8) (hg : (mulGeneric (m x) (m y)).length = 8) :
    mulRdcM z x y m z = mulRdc (m x) (m y) ∧ ∀ b, b ≠ z → mulRdcM z x y m b = m b := by
  obtain ⟨h1, h2⟩ := storeM_spec z (mulGeneric (m x) (m y)) 0 m (by omega)
  rw [List.take_zero, List.nil_append] at h1
  obtain ⟨h3, h4⟩ := condSubM_spec z (storeM z (mulGeneric (m x) (m y)) 0 m) (by rw [h1, hg])
  rw [h1] at h3
  exact ⟨h3, fun b hb => (h4 b hb).trans (h2 b hb)⟩

theorem mulTailM_spec (z x : Nat) (m2 : W64) (xs : List W64) (n : Nat) (hx : xs.length = n) (k : Nat) :
    ∀ (i : Nat) (m : Mem) (c : W64), i + k ≤ n → (m z).length = n → (∀ j, i ≤ j → word (m x) j = word xs j) →
    (mulTailM z x m2 i k (m, c)).1 z = (m z).take i ++ (mulTail m2 ((xs.drop i).take k) c).1 ++ (m z).drop (i + k) ∧
    (mulTailM z x m2 i k (m, c)).2 = (mulTail m2 ((xs.drop i).take k) c).2 ∧
    (∀ b, b ≠ z → (mulTailM z x m2 i k (m, c)).1 b = m b) ∧
    ∀ j, i + k ≤ j → word ((mulTailM z x m2 i k (m, c)).1 x) j = word xs j := by
  induction k with
  | zero =>
    intro i m c hi hz hw
    simpa [mulTailM, mulTail] using hw
  | succ k ih =>
    intro i m c hi hz hw
    rw [drop_cons_word xs i (by omega), List.take_succ_cons]
    simp only [mulTailM, mulTail]
    rw [hw i (Nat.le_refl i)]
    generalize hp : mul64 m2 (word xs i) = q
    generalize hs : add64 q.2 c 0 = s
    obtain ⟨h1, h2, h3, h4⟩ := ih (i + 1) (store m z i s.1) (q.1 + s.2) (by omega) (by rw [store_self, List.length_set, hz])
      (fun j hj => by rw [store_word _ _ _ _ _ _ (by omega)]; exact hw j (by omega))
    refine ⟨?_, h2, fun b hb => by rw [h3 b hb, store_ne _ _ _ _ _ hb], fun j hj => h4 j (by omega)⟩
    rw [h1, store_self, take_set_succ _ _ _ (by omega), List.drop_set_of_lt (by omega), show i + 1 + k = i + (k + 1) by omega,
      List.append_assoc, List.append_assoc]
    simp only [List.append_assoc, List.cons_append, List.nil_append]

theorem mul512M_spec (z x : Nat) (m2 : W64) (m : Mem) (hz : (m z).length = 8) (hx : (m x).length = 8) :
    mul512M z x m2 m z = mul512 (m x) m2 ∧ ∀ b, b ≠ z → mul512M z x m2 m b = m b := by
  obtain ⟨h1, h2, h3, h4⟩ := mulTailM_spec z x m2 (m x) 8 hx 6 1 (store m z 0 (mul64 m2 (word (m x) 0)).2) (mul64 m2 (word (m x) 0)).1
    (by omega) (by rw [store_self, List.length_set, hz]) (fun j hj => store_word _ _ _ _ _ _ (by omega))
  have hl := (mulTail_spec m2 (((m x).drop 1).take 6) (mul64 m2 (word (m x) 0)).1).2
  rw [(eight hx).2] at hl
  constructor
  · simp only [mul512M, mul512]
    rw [store_self, h4 7 (by omega), h2, h1, store_self]
    rw [take_set_succ _ _ _ (by omega), List.drop_set_of_lt (by omega)]
    generalize (mulTail m2 (((m x).drop 1).take 6) (mul64 m2 (word (m x) 0)).1).1 = r at *
    obtain ⟨w, hw⟩ : ∃ w, (m z).drop 7 = [w] := by
      match m z, hz with
      | [a, b, c, d, e, f, g, i], _ => exact ⟨i, rfl⟩
    rw [show 1 + 6 = 7 from rfl, hw]
    match r, hl with
    | [a, b, c, d, e, f], _ => rfl
  · intro b hb
    simp only [mul512M]
    rw [store_ne _ _ _ _ _ hb, h3 b hb, store_ne _ _ _ _ _ hb]

end Lemmas.CsidhAlias
