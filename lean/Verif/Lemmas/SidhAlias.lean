import Verif.Model.SidhAlias
import Verif.Lemmas.Limb
/-! The in-memory loops compute what the loops over values compute. -/
namespace Lemmas.SidhAlias
open Model Model.Limb Model.Sidh Model.Sidh.Alias Lemmas.Limb

theorem store_self (m : Mem) (d i : Nat) (w : W64) : store m d i w d = (m d).set i w := if_pos rfl
theorem store_ne (m : Mem) (d i b : Nat) (w : W64) (h : b ≠ d) : store m d i w b = m b := if_neg h

theorem word_set_ne (z : List W64) (v : W64) (a j : Nat) (h : a ≠ j) : word (z.set a v) j = word z j := by
  simp [word, List.getElem?_set_ne h]

theorem store_word (m : Mem) (d i b j : Nat) (w : W64) (h : i ≠ j) : word (store m d i w b) j = word (m b) j := by
  by_cases hb : b = d
  · subst hb; rw [store_self, word_set_ne _ _ _ _ h]
  · rw [store_ne _ _ _ _ _ hb]

theorem drop_cons_word (x : List W64) (i : Nat) (h : i < x.length) : x.drop i = word x i :: x.drop (i + 1) := by
  rw [List.drop_eq_getElem_cons h]
  simp [word, h]

theorem take_set_succ (z : List W64) (v : W64) (a : Nat) (h : a < z.length) : (z.set a v).take (a + 1) = z.take a ++ [v] := by
  rw [List.take_succ, List.take_set_of_le (Nat.le_refl a), List.getElem?_set_self h]
  rfl

/-- What a loop leaves: the destination has the computed words, everything else is as before. -/
theorem addM_spec (z x y : Nat) (xs ys : List W64) (n : Nat) (hx : xs.length = n) (hy : ys.length = n) (k : Nat) :
    ∀ (i : Nat) (m : Mem) (c : W64), i + k = n → (m z).length = n →
    (∀ j, i ≤ j → word (m x) j = word xs j) → (∀ j, i ≤ j → word (m y) j = word ys j) →
    (addM z x y i k (m, c)).1 z = (m z).take i ++ (addLoop (xs.drop i) (ys.drop i) c).1 ∧
    (addM z x y i k (m, c)).2 = (addLoop (xs.drop i) (ys.drop i) c).2 ∧
    ∀ b, b ≠ z → (addM z x y i k (m, c)).1 b = m b := by
  induction k with
  | zero =>
    intro i m c hi hz _ _
    rw [List.drop_eq_nil_of_le (by omega), List.drop_eq_nil_of_le (by omega), List.take_of_length_le (by omega)]
    simp [addM, addLoop]
  | succ k ih =>
    intro i m c hi hz hwx hwy
    rw [drop_cons_word xs i (by omega), drop_cons_word ys i (by omega)]
    simp only [addM, addLoop]
    rw [hwx i (Nat.le_refl i), hwy i (Nat.le_refl i)]
    generalize hp : add64 (word xs i) (word ys i) c = p
    obtain ⟨h1, h2, h3⟩ := ih (i + 1) (store m z i p.1) p.2 (by omega) (by rw [store_self, List.length_set, hz])
      (fun j hj => by rw [store_word _ _ _ _ _ _ (by omega)]; exact hwx j (by omega))
      (fun j hj => by rw [store_word _ _ _ _ _ _ (by omega)]; exact hwy j (by omega))
    refine ⟨?_, h2, ?_⟩
    · rw [h1, store_self, take_set_succ _ _ _ (by omega), List.append_assoc]
      rfl
    · intro b hb
      rw [h3 b hb, store_ne _ _ _ _ _ hb]

theorem subM_spec (z x y : Nat) (xs ys : List W64) (n : Nat) (hx : xs.length = n) (hy : ys.length = n) (k : Nat) :
    ∀ (i : Nat) (m : Mem) (c : W64), i + k = n → (m z).length = n →
    (∀ j, i ≤ j → word (m x) j = word xs j) → (∀ j, i ≤ j → word (m y) j = word ys j) →
    (subM z x y i k (m, c)).1 z = (m z).take i ++ (subLoop (xs.drop i) (ys.drop i) c).1 ∧
    (subM z x y i k (m, c)).2 = (subLoop (xs.drop i) (ys.drop i) c).2 ∧
    ∀ b, b ≠ z → (subM z x y i k (m, c)).1 b = m b := by
  induction k with
  | zero =>
    intro i m c hi hz _ _
    rw [List.drop_eq_nil_of_le (by omega), List.drop_eq_nil_of_le (by omega), List.take_of_length_le (by omega)]
    simp [subM, subLoop]
  | succ k ih =>
    intro i m c hi hz hwx hwy
    rw [drop_cons_word xs i (by omega), drop_cons_word ys i (by omega)]
    simp only [subM, subLoop]
    rw [hwx i (Nat.le_refl i), hwy i (Nat.le_refl i)]
    generalize hp : sub64 (word xs i) (word ys i) c = p
    obtain ⟨h1, h2, h3⟩ := ih (i + 1) (store m z i p.1) p.2 (by omega) (by rw [store_self, List.length_set, hz])
      (fun j hj => by rw [store_word _ _ _ _ _ _ (by omega)]; exact hwx j (by omega))
      (fun j hj => by rw [store_word _ _ _ _ _ _ (by omega)]; exact hwy j (by omega))
    refine ⟨?_, h2, ?_⟩
    · rw [h1, store_self, take_set_succ _ _ _ (by omega), List.append_assoc]
      rfl
    · intro b hb
      rw [h3 b hb, store_ne _ _ _ _ _ hb]

theorem word_mask (a : List W64) (mask : W64) (i : Nat) : word a i &&& mask = word (maskWords a mask) i := by
  rw [word, word, maskWords, List.getD_eq_getElem?_getD, List.getD_eq_getElem?_getD, List.getElem?_map]
  cases a[i]? with
  | none => simp
  | some w => rfl

theorem addMaskM_spec (z : Nat) (a zs : List W64) (mask : W64) (n : Nat) (ha : a.length = n) (hzs : zs.length = n) (k : Nat) :
    ∀ (i : Nat) (m : Mem) (c : W64), i + k = n → (m z).length = n → (∀ j, i ≤ j → word (m z) j = word zs j) →
    (addMaskM z a mask i k (m, c)).1 z = (m z).take i ++ (addLoop (zs.drop i) ((maskWords a mask).drop i) c).1 ∧
    ∀ b, b ≠ z → (addMaskM z a mask i k (m, c)).1 b = m b := by
  have hm : (maskWords a mask).length = n := by rw [maskWords_length, ha]
  induction k with
  | zero =>
    intro i m c hi hz _
    rw [List.drop_eq_nil_of_le (by omega), List.drop_eq_nil_of_le (by omega), List.take_of_length_le (by omega)]
    simp [addMaskM, addLoop]
  | succ k ih =>
    intro i m c hi hz hwz
    rw [drop_cons_word zs i (by omega), drop_cons_word (maskWords a mask) i (by omega)]
    simp only [addMaskM, addLoop]
    rw [hwz i (Nat.le_refl i), word_mask]
    generalize hp : add64 (word zs i) (word (maskWords a mask) i) c = p
    obtain ⟨h1, h3⟩ := ih (i + 1) (store m z i p.1) p.2 (by omega) (by rw [store_self, List.length_set, hz])
      (fun j hj => by rw [store_word _ _ _ _ _ _ (by omega)]; exact hwz j (by omega))
    refine ⟨?_, ?_⟩
    · rw [h1, store_self, take_set_succ _ _ _ (by omega), List.append_assoc]
      rfl
    · intro b hb
      rw [h3 b hb, store_ne _ _ _ _ _ hb]

theorem subConstM_spec (z : Nat) (a zs : List W64) (n : Nat) (ha : a.length = n) (hzs : zs.length = n) (k : Nat) :
    ∀ (i : Nat) (m : Mem) (c : W64), i + k = n → (m z).length = n → (∀ j, i ≤ j → word (m z) j = word zs j) →
    (subConstM z a i k (m, c)).1 z = (m z).take i ++ (subLoop (zs.drop i) (a.drop i) c).1 ∧
    (subConstM z a i k (m, c)).2 = (subLoop (zs.drop i) (a.drop i) c).2 ∧
    ∀ b, b ≠ z → (subConstM z a i k (m, c)).1 b = m b := by
  induction k with
  | zero =>
    intro i m c hi hz _
    rw [List.drop_eq_nil_of_le (by omega), List.drop_eq_nil_of_le (by omega), List.take_of_length_le (by omega)]
    simp [subConstM, subLoop]
  | succ k ih =>
    intro i m c hi hz hwz
    rw [drop_cons_word zs i (by omega), drop_cons_word a i (by omega)]
    simp only [subConstM, subLoop]
    rw [hwz i (Nat.le_refl i)]
    generalize hp : sub64 (word zs i) (word a i) c = p
    obtain ⟨h1, h2, h3⟩ := ih (i + 1) (store m z i p.1) p.2 (by omega) (by rw [store_self, List.length_set, hz])
      (fun j hj => by rw [store_word _ _ _ _ _ _ (by omega)]; exact hwz j (by omega))
    refine ⟨?_, h2, ?_⟩
    · rw [h1, store_self, take_set_succ _ _ _ (by omega), List.append_assoc]
      rfl
    · intro b hb
      rw [h3 b hb, store_ne _ _ _ _ _ hb]

theorem addPM_spec (P : Prime) (h2 : P.px2.length = P.n) (z x y : Nat) (m : Mem)
    (hz : (m z).length = P.n) (hx : (m x).length = P.n) (hy : (m y).length = P.n) :
    addPM P z x y m z = addP P (m x) (m y) ∧ ∀ b, b ≠ z → addPM P z x y m b = m b := by
  have hl : ∀ a b : List W64, a.length = P.n → b.length = P.n → (addLoop a b 0).1.length = P.n := fun a b ha hb => by
    have := (addLoop_spec a b 0 (by omega) (by decide)).2.2
    omega
  have hl' : ∀ a b : List W64, a.length = P.n → b.length = P.n → (subLoop a b 0).1.length = P.n := fun a b ha hb => by
    have := (subLoop_spec a b 0 (by omega) (by decide)).2.2
    omega
  obtain ⟨a1, _, a3⟩ := addM_spec z x y (m x) (m y) P.n hx hy P.n 0 m 0 (by omega) hz (fun _ _ => rfl) (fun _ _ => rfl)
  simp only [List.drop_zero, List.take_zero, List.nil_append] at a1
  generalize hm1 : addM z x y 0 P.n (m, 0) = s1 at *
  have l1 : (s1.1 z).length = P.n := by rw [a1]; exact hl _ _ hx hy
  obtain ⟨b1, b2, b3⟩ := subConstM_spec z P.px2 (s1.1 z) P.n h2 l1 P.n 0 s1.1 0 (by omega) l1 (fun _ _ => rfl)
  simp only [List.drop_zero, List.take_zero, List.nil_append] at b1 b2
  generalize hm2 : subConstM z P.px2 0 P.n (s1.1, 0) = s2 at *
  have l2 : (s2.1 z).length = P.n := by rw [b1]; exact hl' _ _ l1 h2
  obtain ⟨c1, c3⟩ := addMaskM_spec z P.px2 (s2.1 z) (0 - s2.2) P.n h2 l2 P.n 0 s2.1 0 (by omega) l2 (fun _ _ => rfl)
  simp only [List.drop_zero, List.take_zero, List.nil_append] at c1
  have hd : addPM P z x y m = (addMaskM z P.px2 (0 - s2.2) 0 P.n (s2.1, 0)).1 := by
    rw [← hm2, ← hm1]; rfl
  rw [hd]
  refine ⟨?_, fun b hb => by rw [c3 b hb, b3 b hb, a3 b hb]⟩
  rw [c1, b1, b2, a1]
  rfl

theorem subPM_spec (P : Prime) (h2 : P.px2.length = P.n) (z x y : Nat) (m : Mem)
    (hz : (m z).length = P.n) (hx : (m x).length = P.n) (hy : (m y).length = P.n) :
    subPM P z x y m z = subP P (m x) (m y) ∧ ∀ b, b ≠ z → subPM P z x y m b = m b := by
  obtain ⟨a1, a2, a3⟩ := subM_spec z x y (m x) (m y) P.n hx hy P.n 0 m 0 (by omega) hz (fun _ _ => rfl) (fun _ _ => rfl)
  simp only [List.drop_zero, List.take_zero, List.nil_append] at a1 a2
  generalize hm1 : subM z x y 0 P.n (m, 0) = s1 at *
  have l1 : (s1.1 z).length = P.n := by
    rw [a1]
    have := (subLoop_spec (m x) (m y) 0 (by omega) (by decide)).2.2
    omega
  obtain ⟨c1, c3⟩ := addMaskM_spec z P.px2 (s1.1 z) (0 - s1.2) P.n h2 l1 P.n 0 s1.1 0 (by omega) l1 (fun _ _ => rfl)
  simp only [List.drop_zero, List.take_zero, List.nil_append] at c1
  have hd : subPM P z x y m = (addMaskM z P.px2 (0 - s1.2) 0 P.n (s1.1, 0)).1 := by
    rw [← hm1]; rfl
  rw [hd]
  refine ⟨?_, fun b hb => by rw [c3 b hb, a3 b hb]⟩
  rw [c1, a1, a2]
  rfl

theorem adlPM_spec (P : Prime) (z x y : Nat) (m : Mem)
    (hz : (m z).length = 2 * P.n) (hx : (m x).length = 2 * P.n) (hy : (m y).length = 2 * P.n) :
    adlPM P z x y m z = adlP (m x) (m y) ∧ ∀ b, b ≠ z → adlPM P z x y m b = m b := by
  obtain ⟨a1, _, a3⟩ := addM_spec z x y (m x) (m y) (2 * P.n) hx hy (2 * P.n) 0 m 0 (by omega) hz (fun _ _ => rfl) (fun _ _ => rfl)
  simp only [List.drop_zero, List.take_zero, List.nil_append] at a1
  exact ⟨a1, a3⟩

end Lemmas.SidhAlias
