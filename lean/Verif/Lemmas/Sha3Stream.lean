import Verif.Lemmas.Sha3Bytes
/-! The sponge object simulates (message absorbed so far) / (message, number of bytes squeezed). -/
namespace Lemmas.Sha3
open Model Model.Sha3

section
variable (f : List Byte → List Byte) (r : Nat)

/-- State string after absorbing the first `n` blocks of `m`. -/
def absorbN (m : List Byte) (n : Nat) : List Byte :=
  (List.range n).foldl
    (fun S i => f (Spec.Keccak.xorBytes S ((m.drop (i * r)).take r ++ List.replicate (200 - r) 0)))
    (List.replicate 200 0)

theorem absorbN_succ (m : List Byte) (n : Nat) :
    absorbN f r m (n + 1) = f (Spec.Keccak.xorBytes (absorbN f r m n)
      ((m.drop (n * r)).take r ++ List.replicate (200 - r) 0)) := by
  rw [absorbN, List.range_succ, List.foldl_append]; rfl

theorem absorbN_append (m x : List Byte) (n : Nat) (h : n * r ≤ m.length) :
    absorbN f r (m ++ x) n = absorbN f r m n := by
  induction n with
  | zero => rfl
  | succ n ih =>
    rw [Nat.add_mul, Nat.one_mul] at h
    rw [absorbN_succ, absorbN_succ, ih (by omega)]
    congr 3
    rw [List.drop_append, List.take_append]
    have h1 : n * r - m.length = 0 := by omega
    have h2 : r - (m.drop (n * r)).length = 0 := by rw [List.length_drop]; omega
    rw [h2, List.take_zero, List.append_nil]

end

theorem writeLoop_spec {P : Plat} (hP : Good P) {r : Nat} (hr : IsRate r) (input : List Byte) :
    ∀ (a : Vector W64 25) (m : List Byte) (n : Nat), m.length = n * r →
      laneBytes a = absorbN Spec.Keccak.keccakF r m n →
      ∃ a', writeLoop P r a input = some (a', input.drop (input.length / r * r)) ∧
        laneBytes a' = absorbN Spec.Keccak.keccakF r (m ++ input) (n + input.length / r) := by
  have hb := hr.bounds
  induction h : input.length using Nat.strongRecOn generalizing input with
  | ind len ih =>
    intro a m n hm ha
    rw [writeLoop]
    by_cases hc : 0 < r ∧ r ≤ input.length
    · rw [dif_pos hc]
      have htl : (input.take r).length = r := by rw [List.length_take]; omega
      obtain ⟨a1, e1, l1⟩ := hP.xorIn a (input.take r) (by rw [htl]; exact hr)
      rw [htl] at l1
      have hblk : laneBytes (P.keccakF a1) =
          absorbN Spec.Keccak.keccakF r (m ++ input.take r) (n + 1) := by
        have hbl : ((m ++ input.take r).drop (n * r)).take r = input.take r := by
          rw [← hm, List.drop_left, List.take_take, Nat.min_self]
        rw [hP.keccakF, l1, absorbN_succ, absorbN_append _ _ _ _ _ (by omega), ha, hbl]
      have hdl : (input.drop r).length = input.length - r := List.length_drop
      obtain ⟨a', e2, l2⟩ := ih (input.length - r) (by omega) (input.drop r) hdl (P.keccakF a1)
        (m ++ input.take r) (n + 1) (by rw [List.length_append, htl, hm, Nat.add_mul]; omega) hblk
      have hq : input.length / r = (input.length - r) / r + 1 := by
        rw [← Nat.sub_add_cancel hc.2, Nat.add_div_right _ hc.1, Nat.add_sub_cancel]
      refine ⟨a', ?_, ?_⟩
      · rw [e1]
        simp only [Option.bind_eq_bind, Option.bind_some]
        rw [e2, List.drop_drop, ← h, hq, Nat.add_mul]
        congr 3
        omega
      · rw [l2, List.append_assoc, List.take_append_drop, ← h, hq]
        congr 1; omega
    · rw [dif_neg hc]
      have h0 : input.length / r = 0 := Nat.div_eq_of_lt (by omega)
      refine ⟨a, ?_, ?_⟩
      · rw [← h, h0]; simp
      · rw [← h, h0, Nat.add_zero, absorbN_append _ _ _ _ _ (by omega), ha]

/-- The object has absorbed exactly the message `m`. -/
structure Absorbed (c : State) (m : List Byte) : Prop where
  rate : IsRate c.rate
  absorbing : c.isSquezing = false
  dataLen : c.data.length = 168
  idx : c.idx = m.length % c.rate
  pending : c.data.take c.idx = m.drop (m.length / c.rate * c.rate)
  zeros : c.data.drop c.rate = List.replicate (168 - c.rate) 0
  lanes : laneBytes c.a = absorbN Spec.Keccak.keccakF c.rate m (m.length / c.rate)

/-- Same parameters. -/
def SameParams (c c' : State) : Prop := c'.rate = c.rate ∧ c'.dsize = c.dsize ∧ c'.sfx = c.sfx

theorem write_spec {P : Plat} (hP : Good P) {c : State} {m : List Byte} (hc : Absorbed c m) (x : List Byte) :
    ∃ c', write P c x = some (c', x.length, none) ∧ Absorbed c' (m ++ x) ∧ SameParams c c' := by
  have hb := hc.rate.bounds
  have hidx : c.idx < c.rate := by rw [hc.idx]; exact Nat.mod_lt _ (by omega)
  have hmod := Nat.div_add_mod m.length c.rate
  rw [Nat.mul_comm] at hmod
  have hmx : (m ++ x).length = m.length / c.rate * c.rate + (c.idx + x.length) := by
    rw [List.length_append, hc.idx]; omega
  have hpl : (m.drop (m.length / c.rate * c.rate)).length = c.idx := by
    rw [List.length_drop, hc.idx]; omega
  have hdiv : (m ++ x).length / c.rate = m.length / c.rate + (c.idx + x.length) / c.rate := by
    rw [hmx, Nat.add_comm, Nat.add_mul_div_right _ _ (by omega), Nat.add_comm]
  have hmod2 : (m ++ x).length % c.rate = (c.idx + x.length) % c.rate := by
    rw [hmx, Nat.add_comm, Nat.add_mul_mod_self_right]
  rw [write, hc.absorbing]
  simp only [Bool.false_eq_true, if_false]
  by_cases hlt : c.idx + x.length < c.rate
  · -- buffering only
    rw [if_pos hlt]
    have h168 : c.idx ≤ c.data.length := by rw [hc.dataLen]; omega
    simp only [copyFrom, h168, if_true, Option.bind_eq_bind, Option.bind_some]
    have hcopy : goCopy (c.data.drop c.idx) x = x ++ c.data.drop (c.idx + x.length) := by
      rw [goCopy, List.take_of_length_le (by rw [List.length_drop, hc.dataLen]; omega), List.drop_drop]
    rw [hcopy]
    have hd0 : (c.idx + x.length) / c.rate = 0 := Nat.div_eq_of_lt hlt
    refine ⟨_, rfl, ?_, ⟨rfl, rfl, rfl⟩⟩
    constructor
    · exact hc.rate
    · rfl
    · simp only [List.length_append, List.length_take, List.length_drop, hc.dataLen]; omega
    · rw [hmod2, Nat.mod_eq_of_lt hlt]
    · rw [hdiv, hd0, Nat.add_zero]
      simp only
      rw [← List.append_assoc, List.take_append_of_le_length (by
        simp only [List.length_append, List.length_take, hc.dataLen]; omega),
        List.take_of_length_le (by simp only [List.length_append, List.length_take, hc.dataLen]; omega),
        hc.pending, List.drop_append_of_le_length (by omega)]
    · simp only
      have e : (c.data.take c.idx ++ (x ++ c.data.drop (c.idx + x.length))).drop c.rate = c.data.drop c.rate := by
        rw [← List.append_assoc, List.drop_append, List.drop_of_length_le (by
          simp only [List.length_append, List.length_take, hc.dataLen]; omega), List.nil_append, List.drop_drop]
        congr 1
        simp only [List.length_append, List.length_take, hc.dataLen]; omega
      rw [e, hc.zeros]
    · simp only
      rw [hdiv, hd0, Nat.add_zero, absorbN_append _ _ _ _ _ (by omega)]
      exact hc.lanes
  · rw [if_neg hlt]
    have hfb : c.rate - c.idx ≤ x.length := by omega
    have h168 : c.idx ≤ c.data.length := by rw [hc.dataLen]; omega
    -- the first block
    have hcopy : goCopy (c.data.drop c.idx) (x.take (c.rate - c.idx)) =
        x.take (c.rate - c.idx) ++ List.replicate (168 - c.rate) 0 := by
      rw [goCopy, List.take_of_length_le (by
        simp only [List.length_take, List.length_drop, hc.dataLen]; omega), List.drop_drop]
      congr 1
      rw [List.length_take, Nat.min_eq_left hfb, Nat.add_sub_cancel' (by omega), hc.zeros]
    have hbuf : copyFrom c.data c.idx (x.take (c.rate - c.idx)) =
        some (m.drop (m.length / c.rate * c.rate) ++ x.take (c.rate - c.idx) ++
          List.replicate (168 - c.rate) 0) := by
      rw [copyFrom, if_pos h168, hcopy, hc.pending, List.append_assoc]
    generalize hB : m.drop (m.length / c.rate * c.rate) ++ x.take (c.rate - c.idx) = B at hbuf
    have hBl : B.length = c.rate := by
      rw [← hB, List.length_append, hpl, List.length_take]; omega
    obtain ⟨a1, e1, l1⟩ := hP.xorIn c.a (B ++ List.replicate (168 - c.rate) 0) (by
      rw [List.length_append, hBl, List.length_replicate]; right; right; right; right; omega)
    have hfirst : laneBytes (P.keccakF a1) = absorbN Spec.Keccak.keccakF c.rate
        (m ++ x.take (c.rate - c.idx)) (m.length / c.rate + 1) := by
      rw [hP.keccakF, l1, absorbN_succ, absorbN_append _ _ _ _ _ (by omega), hc.lanes]
      congr 2
      rw [List.drop_append_of_le_length (by omega), hB, List.take_of_length_le (by omega), List.append_assoc]
      congr 1
      rw [List.replicate_append_replicate]
      congr 1
      simp only [List.length_append, hBl, List.length_replicate]; omega
    have hml : (m ++ x.take (c.rate - c.idx)).length = (m.length / c.rate + 1) * c.rate := by
      rw [List.length_append, List.length_take, Nat.min_eq_left hfb, Nat.add_mul, Nat.one_mul]
      have := hc.idx; omega
    obtain ⟨a2, e2, l2⟩ := writeLoop_spec hP hc.rate (x.drop (c.rate - c.idx)) (P.keccakF a1) _ _ hml hfirst
    have hrl : (x.drop (c.rate - c.idx)).length = c.idx + x.length - c.rate := by
      rw [List.length_drop]; omega
    rw [hrl] at e2 l2
    have hq : (c.idx + x.length) / c.rate = (c.idx + x.length - c.rate) / c.rate + 1 := by
      rw [← Nat.add_div_right _ (by omega : 0 < c.rate), Nat.sub_add_cancel (by omega)]
    have hqm := Nat.div_add_mod (c.idx + x.length - c.rate) c.rate
    rw [Nat.mul_comm] at hqm
    have hqr : (c.idx + x.length - c.rate) % c.rate < c.rate := Nat.mod_lt _ (by omega)
    have hmm : (c.idx + x.length) % c.rate = (c.idx + x.length - c.rate) % c.rate := by
      rw [Nat.mod_eq_sub_mod (by omega)]
    simp only [sliceTo, hfb, if_true, Option.bind_eq_bind, Option.bind_some, hbuf, e1, sliceFrom, e2]
    generalize hT : (x.drop (c.rate - c.idx)).drop ((c.idx + x.length - c.rate) / c.rate * c.rate) = T
    have hTl : T.length = (c.idx + x.length - c.rate) % c.rate := by
      rw [← hT, List.length_drop, hrl]; omega
    have hfin : copyFrom (B ++ List.replicate (168 - c.rate) 0) 0 T =
        some (T ++ (B.drop T.length ++ List.replicate (168 - c.rate) 0)) := by
      rw [copyFrom, if_pos (Nat.zero_le _), List.take_zero, List.nil_append, List.drop_zero, goCopy,
        List.take_of_length_le (by simp only [List.length_append, hBl, List.length_replicate]; omega),
        List.drop_append_of_le_length (by omega)]
    rw [hfin]
    simp only [Option.bind_some]
    have hexp : (m.length / c.rate + ((c.idx + x.length - c.rate) / c.rate + 1)) * c.rate =
        m.length / c.rate * c.rate + ((c.idx + x.length - c.rate) / c.rate * c.rate + c.rate) := by
      rw [Nat.add_mul, Nat.add_mul, Nat.one_mul]
    have hdm : m.drop (m.length / c.rate * c.rate + ((c.idx + x.length - c.rate) / c.rate * c.rate + c.rate)) = [] :=
      List.drop_of_length_le (by have := hc.idx; omega)
    refine ⟨_, rfl, ?_, ⟨rfl, rfl, rfl⟩⟩
    constructor
    · exact hc.rate
    · rfl
    · simp only [List.length_append, List.length_drop, List.length_replicate, hBl]; omega
    · simp only; rw [hmod2, hmm, hTl]
    · simp only
      rw [List.take_append_of_le_length (Nat.le_refl _), List.take_of_length_le (Nat.le_refl _), ← hT,
        hdiv, hq, hexp, List.drop_append, hdm, List.nil_append, List.drop_drop]
      congr 1
      have := hc.idx; omega
    · simp only
      rw [List.drop_append, List.drop_of_length_le (by omega), List.nil_append, List.drop_append,
        List.drop_of_length_le (by rw [List.length_drop, hBl]; omega), List.nil_append, List.length_drop, hBl]
      have : c.rate - T.length - (c.rate - T.length) = 0 := by omega
      rw [this, List.drop_zero]
    · simp only
      rw [l2, List.append_assoc, List.take_append_drop, hdiv, hq]
      congr 1; omega

/-! ### padding and the first squeezed block -/

theorem pad_form (r : Nat) (sfx : Byte) (m : List Byte) (hr : 0 < r) :
    ∃ t : List Byte, Spec.Keccak.pad r sfx m = m ++ t ∧ t.length = r - m.length % r ∧
      t = (List.set (sfx :: List.replicate (r - m.length % r - 1) 0) (r - m.length % r - 1)
        ((sfx :: List.replicate (r - m.length % r - 1) 0).getD (r - m.length % r - 1) 0 ||| 0x80)) := by
  have hq : 0 < r - m.length % r := by have := Nat.mod_lt m.length hr; omega
  generalize hqd : r - m.length % r = q at *
  rw [Spec.Keccak.pad]
  simp only [hqd]
  by_cases h1 : q = 1
  · subst h1
    exact ⟨_, by rw [if_pos rfl], by simp, by simp⟩
  · rw [if_neg h1]
    refine ⟨[sfx] ++ List.replicate (q - 2) 0 ++ [0x80], by simp, by simp; omega, ?_⟩
    obtain ⟨k, rfl⟩ : ∃ k, q = k + 2 := ⟨q - 2, by omega⟩
    have : k + 2 - 1 = k + 1 := by omega
    rw [this, List.replicate_succ']
    simp

theorem absorb_eq (f : List Byte → List Byte) (r : Nat) (p : List Byte) :
    Spec.Keccak.absorb f r p = absorbN f r p (p.length / r) := rfl

/-- The object is squeezing: the message was `m` and `k` output bytes have been handed out. -/
structure Squeezing (c : State) (m : List Byte) (k : Nat) : Prop where
  rate : IsRate c.rate
  squeezing : c.isSquezing = true
  dataLen : c.data.length = 168
  idx : c.idx ≤ c.rate
  lanes : ∃ j, k + c.idx = (j + 1) * c.rate ∧
    laneBytes c.a = Nat.repeat Spec.Keccak.keccakF j
      (Spec.Keccak.absorb Spec.Keccak.keccakF c.rate (Spec.Keccak.pad c.rate c.sfx m))
  data : c.data.take c.rate = (laneBytes c.a).take c.rate

theorem finalize_spec {P : Plat} (hP : Good P) {c : State} {m : List Byte} (hc : Absorbed c m) :
    ∃ c', finalize P c = some c' ∧ Squeezing c' m 0 ∧ SameParams c c' := by
  have hb := hc.rate.bounds
  have hidx : c.idx < c.rate := by rw [hc.idx]; exact Nat.mod_lt _ (by omega)
  have hmod := Nat.div_add_mod m.length c.rate
  rw [Nat.mul_comm] at hmod
  have hpl : (m.drop (m.length / c.rate * c.rate)).length = c.idx := by
    rw [List.length_drop, hc.idx]; omega
  -- the buffer after zero filling
  have hb1 : copyFrom c.data (c.idx + 1) (List.replicate (c.rate - (c.idx + 1)) 0) =
      some (c.data.take (c.idx + 1) ++ (List.replicate (c.rate - (c.idx + 1)) 0 ++ c.data.drop c.rate)) := by
    have h1 : (List.replicate (c.rate - (c.idx + 1)) (0 : Byte)).take (c.data.drop (c.idx + 1)).length =
        List.replicate (c.rate - (c.idx + 1)) 0 := List.take_of_length_le (by
      simp only [List.length_replicate, List.length_drop, hc.dataLen]; omega)
    have h2 : c.idx + 1 + (c.rate - (c.idx + 1)) = c.rate := by omega
    rw [copyFrom, if_pos (by rw [hc.dataLen]; omega), goCopy, h1, List.drop_drop,
      List.length_replicate, h2]
  have htake : c.data.take (c.idx + 1) = m.drop (m.length / c.rate * c.rate) ++ [c.data[c.idx]'(by rw [hc.dataLen]; omega)] := by
    rw [List.take_succ_eq_append_getElem (by rw [hc.dataLen]; omega), hc.pending]
  obtain ⟨t, ht1, ht2, ht3⟩ := pad_form c.rate c.sfx m (by omega)
  have hq : c.rate - m.length % c.rate - 1 = c.rate - (c.idx + 1) := by rw [← hc.idx]; omega
  rw [hq] at ht3
  have htl : t.length = c.rate - c.idx := by rw [ht2, hc.idx]
  -- after setting the suffix byte
  have hb2 : (c.data.take (c.idx + 1) ++ (List.replicate (c.rate - (c.idx + 1)) 0 ++ c.data.drop c.rate)).set c.idx c.sfx
      = m.drop (m.length / c.rate * c.rate) ++ ((c.sfx :: List.replicate (c.rate - (c.idx + 1)) 0) ++ c.data.drop c.rate) := by
    rw [htake, List.append_assoc, List.set_append_right _ _ (by omega), hpl]
    simp
  have hgd : (m.drop (m.length / c.rate * c.rate) ++ ((c.sfx :: List.replicate (c.rate - (c.idx + 1)) 0) ++ c.data.drop c.rate)).getD (c.rate - 1) 0
      = (c.sfx :: List.replicate (c.rate - (c.idx + 1)) 0).getD (c.rate - (c.idx + 1)) 0 := by
    rw [List.getD_eq_getElem?_getD, List.getD_eq_getElem?_getD, List.getElem?_append_right (by omega), hpl,
      List.getElem?_append_left (by simp; omega)]
    congr 2; omega
  have hb3 : (m.drop (m.length / c.rate * c.rate) ++ ((c.sfx :: List.replicate (c.rate - (c.idx + 1)) 0) ++ c.data.drop c.rate)).set
      (c.rate - 1) ((c.sfx :: List.replicate (c.rate - (c.idx + 1)) 0).getD (c.rate - (c.idx + 1)) 0 ||| 0x80)
      = m.drop (m.length / c.rate * c.rate) ++ (t ++ c.data.drop c.rate) := by
    rw [List.set_append_right _ _ (by omega), hpl, List.set_append_left _ _ (by simp; omega), ht3]
    congr 3; omega
  have hlen1 : (c.data.take (c.idx + 1) ++ (List.replicate (c.rate - (c.idx + 1)) 0 ++ c.data.drop c.rate)).length = 168 := by
    simp only [List.length_append, List.length_take, List.length_replicate, List.length_drop, hc.dataLen]; omega
  have hlen2 : (m.drop (m.length / c.rate * c.rate) ++ ((c.sfx :: List.replicate (c.rate - (c.idx + 1)) 0) ++ c.data.drop c.rate)).length = 168 := by
    rw [← hb2, List.length_set, hlen1]
  have hlen3 : (m.drop (m.length / c.rate * c.rate) ++ (t ++ c.data.drop c.rate)).length = 168 := by
    rw [← hb3, List.length_set, hlen2]
  -- the block
  clear htake
  generalize hD : m.drop (m.length / c.rate * c.rate) = D at *
  have hblk : (D ++ (t ++ c.data.drop c.rate)).take c.rate = D ++ t := by
    rw [← List.append_assoc, List.take_append_of_le_length (by rw [List.length_append]; omega),
      List.take_of_length_le (by rw [List.length_append]; omega)]
  have hblkl : (D ++ t).length = c.rate := by rw [List.length_append]; omega
  obtain ⟨a1, e1, l1⟩ := hP.xorIn c.a (D ++ t) (by rw [hblkl]; exact hc.rate)
  have e2 := hP.copyOut (P.keccakF a1) (D ++ t) (by rw [hblkl]; exact hc.rate)
  rw [hblkl] at l1 e2
  have hol : ((laneBytes (P.keccakF a1)).take c.rate).length = c.rate := by
    rw [List.length_take, laneBytes_length]; omega
  have hb4 : copyFrom (D ++ (t ++ c.data.drop c.rate)) 0 ((laneBytes (P.keccakF a1)).take c.rate) =
      some ((laneBytes (P.keccakF a1)).take c.rate ++ (D ++ (t ++ c.data.drop c.rate)).drop c.rate) := by
    rw [copyFrom, if_pos (Nat.zero_le _), List.take_zero, List.nil_append, List.drop_zero, goCopy,
      List.take_of_length_le (by rw [hol, hlen3]; omega), hol]
  have hpadlen : (Spec.Keccak.pad c.rate c.sfx m).length = (m.length / c.rate + 1) * c.rate := by
    rw [ht1, List.length_append, htl, Nat.add_mul]; have := hc.idx; omega
  refine ⟨{ c with a := P.keccakF a1, data := (laneBytes (P.keccakF a1)).take c.rate ++ (D ++ (t ++ c.data.drop c.rate)).drop c.rate, idx := c.rate, isSquezing := true }, ?_, ?_, ⟨rfl, rfl, rfl⟩⟩
  · simp only [finalize, setAt, sliceTo, Option.bind_eq_bind]
    rw [if_pos (by omega), hb1]
    simp only [Option.bind_some]
    rw [if_pos (by rw [hlen1]; omega), hb2]
    simp only [Option.bind_some]
    rw [if_neg (by omega), if_pos (by rw [hlen2]; omega), hgd, hb3]
    simp only [Option.bind_some]
    rw [if_pos (by rw [hlen3]; omega), hblk]
    simp only [Option.bind_some, e1, e2, hb4]
  · constructor
    · exact hc.rate
    · rfl
    · simp only [List.length_append, hol, List.length_drop, hlen3] at *; omega
    · exact Nat.le_refl _
    · refine ⟨0, by simp, ?_⟩
      simp only [Nat.repeat]
      rw [absorb_eq, hpadlen, Nat.mul_div_cancel _ (by omega : 0 < c.rate), absorbN_succ, hP.keccakF, l1, hc.lanes,
        ht1, absorbN_append _ _ _ _ _ (by omega)]
      congr 3
      rw [List.drop_append_of_le_length (by omega), hD, List.take_of_length_le (by omega)]
    · simp only
      rw [List.take_append_of_le_length (by omega), List.take_take, Nat.min_self]

/-! ### reading -/

theorem keccakF_length (s : List Byte) : (Spec.Keccak.keccakF s).length = 200 := by
  simp [Spec.Keccak.keccakF, Spec.Keccak.toBytes]

theorem spongeBytes_length (f : List Byte → List Byte) (r sfx m k n) :
    (Spec.Keccak.spongeBytes f r sfx m k n).length = n := by
  simp [Spec.Keccak.spongeBytes]

theorem spongeBytes_append (f : List Byte → List Byte) (r sfx m k n n') :
    Spec.Keccak.spongeBytes f r sfx m k (n + n') =
      Spec.Keccak.spongeBytes f r sfx m k n ++ Spec.Keccak.spongeBytes f r sfx m (k + n) n' := by
  apply List.ext_getElem (by simp [Spec.Keccak.spongeBytes])
  intro i h1 h2
  simp only [Spec.Keccak.spongeBytes, List.getElem_map, List.getElem_range, List.getElem_append,
    List.length_map, List.length_range]
  split
  · rfl
  · congr 1; omega

/-- Bytes inside one output block. -/
theorem spongeBytes_block (f : List Byte → List Byte) (r sfx m j t n) (S : List Byte) (hr : r ≤ 200)
    (htn : t + n ≤ r) (h0 : 0 < r)
    (hS : S = Nat.repeat f j (Spec.Keccak.absorb f r (Spec.Keccak.pad r sfx m))) (hl : S.length = 200) :
    Spec.Keccak.spongeBytes f r sfx m (j * r + t) n = (S.drop t).take n := by
  apply List.ext_getElem
  · simp [Spec.Keccak.spongeBytes, hl]; omega
  intro i h1 h2
  have hi : i < n := by rw [spongeBytes_length] at h1; exact h1
  simp only [Spec.Keccak.spongeBytes, List.getElem_map, List.getElem_range, List.getElem_take, List.getElem_drop,
    Spec.Keccak.spongeStream, Spec.Keccak.squeeze]
  have e : j * r + t + i = t + i + j * r := by omega
  have hd : (j * r + t + i) / r = j := by
    rw [e, Nat.add_mul_div_right _ _ h0, Nat.div_eq_of_lt (by omega), Nat.zero_add]
  have hm : (j * r + t + i) % r = t + i := by
    rw [e, Nat.add_mul_mod_self_right, Nat.mod_eq_of_lt (by omega)]
  rw [hd, hm, ← hS, List.getD_eq_getElem?_getD, List.getElem?_eq_getElem (by omega)]
  rfl

theorem readLoop_spec {P : Plat} (hP : Good P) {r : Nat} (hr : IsRate r) (sfx : Byte) (m : List Byte) (n : Nat) :
    ∀ (a : Vector W64 25) (j : Nat) (out : List Byte), n * r ≤ out.length →
      laneBytes a = Nat.repeat Spec.Keccak.keccakF j
        (Spec.Keccak.absorb Spec.Keccak.keccakF r (Spec.Keccak.pad r sfx m)) →
      ∃ a', readLoop P r a out n =
          some (a', Spec.Keccak.spongeBytes Spec.Keccak.keccakF r sfx m ((j + 1) * r) (n * r), out.drop (n * r)) ∧
        laneBytes a' = Nat.repeat Spec.Keccak.keccakF (j + n)
          (Spec.Keccak.absorb Spec.Keccak.keccakF r (Spec.Keccak.pad r sfx m)) := by
  have hb := hr.bounds
  induction n with
  | zero => intro a j out _ ha; exact ⟨a, by simp [readLoop, Spec.Keccak.spongeBytes], ha⟩
  | succ n ih =>
    intro a j out hlen ha
    rw [Nat.add_mul, Nat.one_mul] at hlen
    have ha1 : laneBytes (P.keccakF a) = Nat.repeat Spec.Keccak.keccakF (j + 1)
        (Spec.Keccak.absorb Spec.Keccak.keccakF r (Spec.Keccak.pad r sfx m)) := by
      rw [hP.keccakF, ha]; rfl
    have htl : (out.take r).length = r := by rw [List.length_take]; omega
    have e1 := hP.copyOut (P.keccakF a) (out.take r) (by rw [htl]; exact hr)
    rw [htl] at e1
    obtain ⟨a', e2, l2⟩ := ih (P.keccakF a) (j + 1) (out.drop r) (by rw [List.length_drop]; omega) ha1
    refine ⟨a', ?_, ?_⟩
    · simp only [readLoop, sliceTo, sliceFrom, Option.bind_eq_bind]
      rw [if_pos (by omega)]
      simp only [Option.bind_some, e1]
      rw [if_pos (by omega)]
      simp only [Option.bind_some, e2]
      have hblk := spongeBytes_block Spec.Keccak.keccakF r sfx m (j + 1) 0 r _ (by omega) (by omega) (by omega) ha1
        (laneBytes_length _)
      rw [Nat.add_zero, List.drop_zero] at hblk
      have hsum : (n + 1) * r = r + n * r := by rw [Nat.add_mul]; omega
      rw [hsum, spongeBytes_append, hblk, List.drop_drop]
      have : (j + 1) * r + r = (j + 1 + 1) * r := by rw [Nat.add_mul (j + 1) 1 r, Nat.one_mul]
      rw [this]
    · rw [l2]; congr 1; omega

theorem read_squeezing {P : Plat} (hP : Good P) {c : State} {m : List Byte} {k : Nat} (hc : Squeezing c m k)
    (out : List Byte) :
    ∃ c', read P c out = some (c', Spec.Keccak.spongeBytes Spec.Keccak.keccakF c.rate c.sfx m k out.length, out.length) ∧
      Squeezing c' m (k + out.length) ∧ SameParams c c' := by
  have hb := hc.rate.bounds
  obtain ⟨j, hk, hl⟩ := hc.lanes
  have hj : k = j * c.rate + (c.rate - c.idx) := by
    have := hc.idx; rw [Nat.add_mul, Nat.one_mul] at hk; omega
  have hdata : ∀ n, n ≤ c.idx → (c.data.drop (c.rate - c.idx)).take n =
      Spec.Keccak.spongeBytes Spec.Keccak.keccakF c.rate c.sfx m k n := by
    intro n hn
    have hidx := hc.idx
    rw [hj, spongeBytes_block Spec.Keccak.keccakF c.rate c.sfx m j (c.rate - c.idx) n _ (by omega) (by omega) (by omega) hl (laneBytes_length _)]
    have h1 : ∀ (l : List Byte), (l.drop (c.rate - c.idx)).take n = ((l.take c.rate).drop (c.rate - c.idx)).take n := by
      intro l
      rw [List.drop_take, List.take_take]
      congr 1; omega
    rw [h1 c.data, hc.data, ← h1]
  have hidx := hc.idx
  simp only [Model.Sha3.read, hc.squeezing, if_true, Option.bind_eq_bind, Option.bind_some]
  rw [if_neg (by omega)]
  simp only [sliceFrom, sliceTo, hc.dataLen]
  rw [if_pos (by omega)]
  simp only [Option.bind_some]
  rw [if_pos (by rw [List.length_drop, hc.dataLen]; omega), hdata _ (Nat.min_le_left _ _)]
  simp only [Option.bind_some, List.length_drop]
  by_cases hle : out.length ≤ c.idx
  · rw [Nat.min_eq_right hle, if_pos (by omega)]
    refine ⟨_, rfl, ?_, ⟨rfl, rfl, rfl⟩⟩
    constructor
    · exact hc.rate
    · rfl
    · exact hc.dataLen
    · simp only; omega
    · exact ⟨j, by simp only; omega, hl⟩
    · exact hc.data
  · rw [Nat.min_eq_left (by omega), if_neg (by omega), if_neg (by omega)]
    have hmod := Nat.div_add_mod (out.length - c.idx) c.rate
    rw [Nat.mul_comm] at hmod
    have hmlt : (out.length - c.idx) % c.rate < c.rate := Nat.mod_lt _ (by omega)
    obtain ⟨a', e1, l1⟩ := readLoop_spec hP hc.rate c.sfx m ((out.length - c.idx) / c.rate) c.a j (out.drop c.idx)
      (by rw [List.length_drop]; omega) hl
    rw [e1]
    simp only [Option.bind_some]
    have e2 := hP.copyOut (P.keccakF a') c.data (by rw [hc.dataLen]; right; right; right; right; rfl)
    rw [hc.dataLen] at e2
    rw [e2]
    simp only [Option.bind_some, List.length_drop]
    generalize hn : (out.length - c.idx) / c.rate = n at *
    have hrest : out.length - c.idx - n * c.rate = (out.length - c.idx) % c.rate := by omega
    rw [hrest]
    generalize hq : (out.length - c.idx) % c.rate = q at *
    have hl2 : laneBytes (P.keccakF a') = Nat.repeat Spec.Keccak.keccakF (j + n + 1)
        (Spec.Keccak.absorb Spec.Keccak.keccakF c.rate (Spec.Keccak.pad c.rate c.sfx m)) := by
      rw [hP.keccakF, l1]; rfl
    have htl : ((laneBytes (P.keccakF a')).take 168).length = 168 := by rw [List.length_take, laneBytes_length]; rfl
    rw [if_pos (by rw [htl]; omega)]
    simp only [Option.bind_some]
    have hlast := spongeBytes_block Spec.Keccak.keccakF c.rate c.sfx m (j + n + 1) 0 q _ (by omega) (by omega) (by omega)
      hl2 (laneBytes_length _)
    rw [Nat.add_zero, List.drop_zero] at hlast
    have hexp1 : (j + 1) * c.rate = j * c.rate + c.rate := by rw [Nat.add_mul, Nat.one_mul]
    have hexp : (j + n + 1) * c.rate = j * c.rate + n * c.rate + c.rate := by
      rw [Nat.add_mul, Nat.add_mul, Nat.one_mul]
    have hexp2 : (j + n + 1 + 1) * c.rate = j * c.rate + n * c.rate + c.rate + c.rate := by
      rw [Nat.add_mul, hexp, Nat.one_mul]
    have hres : Spec.Keccak.spongeBytes Spec.Keccak.keccakF c.rate c.sfx m k c.idx ++
          Spec.Keccak.spongeBytes Spec.Keccak.keccakF c.rate c.sfx m ((j + 1) * c.rate) (n * c.rate) ++
          ((laneBytes (P.keccakF a')).take 168).take q =
        Spec.Keccak.spongeBytes Spec.Keccak.keccakF c.rate c.sfx m k out.length := by
      rw [List.take_take, Nat.min_eq_left (by omega), ← hlast]
      have hol : out.length = c.idx + n * c.rate + q := by omega
      conv => rhs; rw [hol]
      rw [spongeBytes_append, spongeBytes_append]
      have h1 : k + c.idx = (j + 1) * c.rate := hk
      have h2 : k + (c.idx + n * c.rate) = (j + n + 1) * c.rate := by omega
      rw [h1, h2]
    rw [hres]
    refine ⟨_, rfl, ?_, ⟨rfl, rfl, rfl⟩⟩
    constructor
    · exact hc.rate
    · rfl
    · simp only; exact htl
    · simp only; omega
    · refine ⟨j + n + 1, by simp only; omega, hl2⟩
    · simp only
      rw [List.take_take, Nat.min_eq_left (by omega)]

theorem read_absorbed {P : Plat} (hP : Good P) {c : State} {m : List Byte} (hc : Absorbed c m)
    (out : List Byte) :
    ∃ c', read P c out = some (c', Spec.Keccak.spongeBytes Spec.Keccak.keccakF c.rate c.sfx m 0 out.length, out.length) ∧
      Squeezing c' m out.length ∧ SameParams c c' := by
  obtain ⟨c1, e1, s1, p1⟩ := finalize_spec hP hc
  obtain ⟨c2, e2, s2, p2⟩ := read_squeezing hP s1 out
  refine ⟨c2, ?_, by rw [Nat.zero_add] at s2; exact s2, ?_⟩
  · have h : read P c out = read P c1 out := by
      simp only [Model.Sha3.read, hc.absorbing, e1, s1.squeezing, Bool.false_eq_true, if_false, if_true,
        Option.bind_eq_bind, Option.bind_some, p1.1]
    rw [h, e2, p1.1, p1.2.2]
  · obtain ⟨a1, a2, a3⟩ := p1
    obtain ⟨b1, b2, b3⟩ := p2
    exact ⟨by rw [b1, a1], by rw [b2, a2], by rw [b3, a3]⟩

end Lemmas.Sha3
