import Verif.Lemmas.AESTables
import Verif.Model.AES
/-! The portable cipher on words against FIPS 197 on the state. -/
namespace Lemmas.AES
open Model Model.AES
open Spec.AES hiding Byte

/-! ### Words as columns -/

def Quad.col (q : Quad) : Fin 4 → W32
  | 0 => q.s0
  | 1 => q.s1
  | 2 => q.s2
  | 3 => q.s3

/-- The state of four words. -/
def st (q : Quad) : State := fun r c => wordByte (Quad.col q c) r

theorem fin4 {P : Fin 4 → Prop} (h0 : P 0) (h1 : P 1) (h2 : P 2) (h3 : P 3) (i : Fin 4) : P i := by
  match i with
  | 0 => exact h0
  | 1 => exact h1
  | 2 => exact h2
  | 3 => exact h3

theorem extract_xor {n : Nat} (a b : BitVec n) (k l : Nat) :
    (a ^^^ b).extractLsb' k l = a.extractLsb' k l ^^^ b.extractLsb' k l := by
  apply BitVec.eq_of_getLsbD_eq
  intro i hi
  simp [hi]

theorem wordByte_xor (a b : W32) (r : Fin 4) : wordByte (a ^^^ b) r = wordByte a r ^^^ wordByte b r := extract_xor ..

theorem wordByte_mk (a b c d : Byte) : wordByte (mkWord a b c d) 0 = a ∧ wordByte (mkWord a b c d) 1 = b ∧
    wordByte (mkWord a b c d) 2 = c ∧ wordByte (mkWord a b c d) 3 = d := by
  refine ⟨?_, ?_, ?_, ?_⟩ <;>
  · apply BitVec.eq_of_getLsbD_eq
    intro i hi
    simp only [wordByte, mkWord, BitVec.getLsbD_extractLsb', BitVec.getLsbD_append, hi, decide_true, Bool.true_and]
    simp (disch := omega) [if_neg, if_pos, hi] <;> (try (congr 1; omega))

theorem mk0 (a b c d : Byte) : wordByte (mkWord a b c d) 0 = a := (wordByte_mk a b c d).1
theorem mk1 (a b c d : Byte) : wordByte (mkWord a b c d) 1 = b := (wordByte_mk a b c d).2.1
theorem mk2 (a b c d : Byte) : wordByte (mkWord a b c d) 2 = c := (wordByte_mk a b c d).2.2.1
theorem mk3 (a b c d : Byte) : wordByte (mkWord a b c d) 3 = d := (wordByte_mk a b c d).2.2.2

theorem word_ext {x y : W32} (h : ∀ r, wordByte x r = wordByte y r) : x = y := by
  apply BitVec.eq_of_getLsbD_eq
  intro i hi
  have key : ∀ z : W32, ∀ r : Fin 4, ∀ j, j < 8 → i = 24 - 8 * r.val + j → z.getLsbD i = (wordByte z r).getLsbD j := by
    intro z r j hj e
    rw [wordByte, BitVec.getLsbD_extractLsb', e]; simp [hj]
  have : ∃ r : Fin 4, ∃ j, j < 8 ∧ i = 24 - 8 * r.val + j := by
    rcases Nat.lt_or_ge i 8 with h | h
    · exact ⟨3, i, h, by show i = 24 - 8 * 3 + i; omega⟩
    rcases Nat.lt_or_ge i 16 with h | h
    · exact ⟨2, i - 8, by omega, by simp; omega⟩
    rcases Nat.lt_or_ge i 24 with h | h
    · exact ⟨1, i - 16, by omega, by simp; omega⟩
    · exact ⟨0, i - 24, by omega, by simp; omega⟩
  obtain ⟨r, j, hj, e⟩ := this
  rw [key x r j hj e, key y r j hj e, h]

theorem mk_eta (x : W32) : mkWord (wordByte x 0) (wordByte x 1) (wordByte x 2) (wordByte x 3) = x := by
  apply word_ext
  apply fin4 <;> simp only [mk0, mk1, mk2, mk3]

theorem pack_eq (a b c d : Byte) : pack a b c d = mkWord a b c d := by
  apply BitVec.eq_of_getLsbD_eq
  intro i hi
  simp only [pack, mkWord, BitVec.getLsbD_or, BitVec.getLsbD_append, BitVec.getLsbD_shiftLeft, BitVec.getLsbD_setWidth, hi,
    decide_true, Bool.true_and]
  rcases Nat.lt_or_ge i 8 with h | h
  · have h1 : i < 16 := by omega
    have h2 : i < 24 := by omega
    simp [h, h1, h2]
  · have e0 : d.getLsbD i = false := BitVec.getLsbD_of_ge _ _ h
    have n1 : ¬ i < 8 := by omega
    rcases Nat.lt_or_ge i 16 with h' | h'
    · have h2 : i < 24 := by omega
      have h3 : i - 8 < 8 := by omega
      have h4 : i - 8 < 32 := by omega
      simp [e0, h', n1, h2, h3, h4]
    · have e1 : c.getLsbD (i - 8) = false := BitVec.getLsbD_of_ge _ _ (by omega)
      have n2 : ¬ i - 8 < 8 := by omega
      have n3 : ¬ i < 16 := by omega
      rcases Nat.lt_or_ge i 24 with h'' | h''
      · have h4 : i - 16 < 32 := by omega
        simp [e0, e1, n1, n2, n3, h'', h4, show i - 8 - 8 = i - 16 by omega, show i - 16 < 8 by omega]
      · have e2 : b.getLsbD (i - 16) = false := BitVec.getLsbD_of_ge _ _ (by omega)
        have n4 : ¬ i < 24 := by omega
        simp [e0, e1, e2, n1, n2, n3, n4, show ¬ i - 8 - 8 < 8 by omega, show i - 8 - 8 - 8 = i - 24 by omega,
          show i - 24 < 32 by omega, show i - 24 < 8 by omega]

theorem b3_eq (x : W32) : b3 x = wordByte x 0 := rfl
theorem b2_eq (x : W32) : b2 x = wordByte x 1 := rfl
theorem b1_eq (x : W32) : b1 x = wordByte x 2 := rfl
theorem b0_eq (x : W32) : b0 x = wordByte x 3 := rfl

/-! ### Rounds -/

theorem st_xor (a b : Quad) (r c : Fin 4) : st (a.xor b) r c = st a r c ^^^ st b r c := by
  rw [st, st, st, ← wordByte_xor]
  congr 1
  revert c; apply fin4 <;> rfl

theorem st_xor' (a b : Quad) : st (a.xor b) = fun r c => st a r c ^^^ st b r c := by
  funext r c; exact st_xor a b r c

theorem fadd : ((0 : Fin 4) + 0 = 0) ∧ ((0 : Fin 4) + 1 = 1) ∧ ((0 : Fin 4) + 2 = 2) ∧ ((0 : Fin 4) + 3 = 3) ∧
    ((1 : Fin 4) + 0 = 1) ∧ ((1 : Fin 4) + 1 = 2) ∧ ((1 : Fin 4) + 2 = 3) ∧ ((1 : Fin 4) + 3 = 0) ∧
    ((2 : Fin 4) + 0 = 2) ∧ ((2 : Fin 4) + 1 = 3) ∧ ((2 : Fin 4) + 2 = 0) ∧ ((2 : Fin 4) + 3 = 1) ∧
    ((3 : Fin 4) + 0 = 3) ∧ ((3 : Fin 4) + 1 = 0) ∧ ((3 : Fin 4) + 2 = 1) ∧ ((3 : Fin 4) + 3 = 2) := by decide
theorem fsub : ((0 : Fin 4) - 0 = 0) ∧ ((0 : Fin 4) - 1 = 3) ∧ ((0 : Fin 4) - 2 = 2) ∧ ((0 : Fin 4) - 3 = 1) ∧
    ((1 : Fin 4) - 0 = 1) ∧ ((1 : Fin 4) - 1 = 0) ∧ ((1 : Fin 4) - 2 = 3) ∧ ((1 : Fin 4) - 3 = 2) ∧
    ((2 : Fin 4) - 0 = 2) ∧ ((2 : Fin 4) - 1 = 1) ∧ ((2 : Fin 4) - 2 = 0) ∧ ((2 : Fin 4) - 3 = 3) ∧
    ((3 : Fin 4) - 0 = 3) ∧ ((3 : Fin 4) - 1 = 2) ∧ ((3 : Fin 4) - 2 = 1) ∧ ((3 : Fin 4) - 3 = 0) := by decide

theorem xor4 {n : Nat} (a b c d e f g h : BitVec n) (h' : a ^^^ b ^^^ c ^^^ d = e ^^^ f ^^^ g ^^^ h) :
    a ^^^ b ^^^ c ^^^ d = e ^^^ f ^^^ g ^^^ h := h'

theorem encMid_eq (s : Quad) : st (encMid s) = mixColumns (shiftRows (subBytes (st s))) := by
  funext r c
  revert r c
  simp only [st, encMid, te0_eq, te1_eq, te2_eq, te3_eq, b3_eq, b2_eq, b1_eq, b0_eq, mixColumns, shiftRows, subBytes]
  apply fin4 <;> apply fin4 <;>
    simp only [Quad.col, wordByte_xor, mk0, mk1, mk2, mk3, fadd] <;> ac_rfl

theorem encLast_eq (s : Quad) : st (encLast s) = shiftRows (subBytes (st s)) := by
  funext r c
  revert r c
  simp only [st, encLast, pack_eq, sbox0_eq, b3_eq, b2_eq, b1_eq, b0_eq, shiftRows, subBytes]
  apply fin4 <;> apply fin4 <;> simp only [Quad.col, mk0, mk1, mk2, mk3, fadd]

theorem decMid_eq (s : Quad) : st (decMid s) = invMixColumns (invSubBytes (invShiftRows (st s))) := by
  funext r c
  revert r c
  simp only [st, decMid, td0_eq, td1_eq, td2_eq, td3_eq, b3_eq, b2_eq, b1_eq, b0_eq, invMixColumns, invShiftRows, invSubBytes]
  apply fin4 <;> apply fin4 <;>
    simp only [Quad.col, wordByte_xor, mk0, mk1, mk2, mk3, fadd, fsub] <;> ac_rfl

theorem decLast_eq (s : Quad) : st (decLast s) = invSubBytes (invShiftRows (st s)) := by
  funext r c
  revert r c
  simp only [st, decLast, pack_eq, sbox1_eq, b3_eq, b2_eq, b1_eq, b0_eq, invShiftRows, invSubBytes]
  apply fin4 <;> apply fin4 <;> simp only [Quad.col, mk0, mk1, mk2, mk3, fsub]

/-! ### Inverses -/

theorem xor_cancel {n : Nat} (a b : BitVec n) : a ^^^ (a ^^^ b) = b := by
  rw [← BitVec.xor_assoc, BitVec.xor_self, BitVec.zero_xor]

theorem xor_lc {n : Nat} (a b c : BitVec n) : a ^^^ (b ^^^ c) = b ^^^ (a ^^^ c) := by ac_rfl

/-- The four columns sums, as identities in `xtime`. -/
theorem col_id (a b c d : Byte) :
    mul 0xe (mul 2 a ^^^ mul 3 b ^^^ c ^^^ d) ^^^ mul 0xb (mul 2 b ^^^ mul 3 c ^^^ d ^^^ a) ^^^
      mul 0xd (mul 2 c ^^^ mul 3 d ^^^ a ^^^ b) ^^^ mul 0x9 (mul 2 d ^^^ mul 3 a ^^^ b ^^^ c) = a := by
  simp only [mul2, mul3, mul9, mulb, muld, mule, xtime_xor]
  generalize xtime (xtime (xtime (xtime a))) = a4
  generalize xtime (xtime (xtime a)) = a3
  generalize xtime (xtime a) = a2
  generalize xtime a = a1
  generalize xtime (xtime (xtime (xtime b))) = b4
  generalize xtime (xtime (xtime b)) = b3
  generalize xtime (xtime b) = b2
  generalize xtime b = b1
  generalize xtime (xtime (xtime (xtime c))) = c4
  generalize xtime (xtime (xtime c)) = c3
  generalize xtime (xtime c) = c2
  generalize xtime c = c1
  generalize xtime (xtime (xtime (xtime d))) = d4
  generalize xtime (xtime (xtime d)) = d3
  generalize xtime (xtime d) = d2
  generalize xtime d = d1
  simp only [BitVec.xor_comm, xor_lc, BitVec.xor_self, xor_cancel, BitVec.xor_zero]

theorem col_id' (a b c d : Byte) :
    mul 2 (mul 0xe a ^^^ mul 0xb b ^^^ mul 0xd c ^^^ mul 0x9 d) ^^^ mul 3 (mul 0xe b ^^^ mul 0xb c ^^^ mul 0xd d ^^^ mul 0x9 a) ^^^
      (mul 0xe c ^^^ mul 0xb d ^^^ mul 0xd a ^^^ mul 0x9 b) ^^^ (mul 0xe d ^^^ mul 0xb a ^^^ mul 0xd b ^^^ mul 0x9 c) = a := by
  simp only [mul2, mul3, mul9, mulb, muld, mule, xtime_xor]
  generalize xtime (xtime (xtime (xtime a))) = a4
  generalize xtime (xtime (xtime a)) = a3
  generalize xtime (xtime a) = a2
  generalize xtime a = a1
  generalize xtime (xtime (xtime (xtime b))) = b4
  generalize xtime (xtime (xtime b)) = b3
  generalize xtime (xtime b) = b2
  generalize xtime b = b1
  generalize xtime (xtime (xtime (xtime c))) = c4
  generalize xtime (xtime (xtime c)) = c3
  generalize xtime (xtime c) = c2
  generalize xtime c = c1
  generalize xtime (xtime (xtime (xtime d))) = d4
  generalize xtime (xtime (xtime d)) = d3
  generalize xtime (xtime d) = d2
  generalize xtime d = d1
  simp only [BitVec.xor_comm, xor_lc, BitVec.xor_self, xor_cancel, BitVec.xor_zero]

theorem invMix_mix (s : State) : invMixColumns (mixColumns s) = s := by
  funext r c
  revert r
  simp only [invMixColumns, mixColumns]
  apply fin4 <;> simp only [fadd] <;> exact col_id ..

theorem mix_invMix (s : State) : mixColumns (invMixColumns s) = s := by
  funext r c
  revert r
  simp only [invMixColumns, mixColumns]
  apply fin4 <;> simp only [fadd] <;> exact col_id' ..

theorem invMix_xor (s t : State) : invMixColumns (fun r c => s r c ^^^ t r c) =
    fun r c => invMixColumns s r c ^^^ invMixColumns t r c := by
  funext r c
  simp only [invMixColumns, mul9, mulb, muld, mule, xtime_xor]
  ac_rfl

theorem invSub_sub (s : State) : invSubBytes (subBytes s) = s := by funext r c; exact invSbox_sbox _
theorem sub_invSub (s : State) : subBytes (invSubBytes s) = s := by funext r c; exact sbox_invSbox _
theorem invShift_shift (s : State) : invShiftRows (shiftRows s) = s := by
  funext r c; show s r (c - r + r) = s r c; congr 1; revert r c; decide
theorem shift_invShift (s : State) : shiftRows (invShiftRows s) = s := by
  funext r c; show s r (c + r - r) = s r c; congr 1; revert r c; decide
theorem ark_ark (w : Nat → Word) (j : Nat) (s : State) : addRoundKey w j (addRoundKey w j s) = s := by
  funext r c
  simp only [addRoundKey, BitVec.xor_assoc, BitVec.xor_self, BitVec.xor_zero]

theorem invRounds_rounds (w : Nat → Word) (n : Nat) (s : State) :
    invRounds w n (shiftRows (subBytes (rounds w n s))) = shiftRows (subBytes s) := by
  induction n with
  | zero => rfl
  | succ n ih =>
    rw [invRounds, invShift_shift, invSub_sub, rounds, ark_ark, invMix_mix, ih]

/-- The inverse cipher inverts the cipher. -/
theorem invCipher_cipher (w : Nat → Word) (nr : Nat) (s : State) : invCipherState w nr (cipherState w nr s) = s := by
  rw [invCipherState, cipherState, ark_ark, invRounds_rounds, invShift_shift, invSub_sub, ark_ark]

theorem rounds_invRounds (w : Nat → Word) (n : Nat) (s : State) :
    rounds w n (invSubBytes (invShiftRows (invRounds w n s))) = invSubBytes (invShiftRows s) := by
  induction n generalizing s with
  | zero => rfl
  | succ n ih =>
    rw [rounds, invRounds, ih, sub_invSub, shift_invShift, mix_invMix, ark_ark]

/-- The cipher inverts the inverse cipher. -/
theorem cipher_invCipher (w : Nat → Word) (nr : Nat) (s : State) : cipherState w nr (invCipherState w nr s) = s := by
  rw [invCipherState, cipherState, ark_ark, rounds_invRounds, sub_invSub, shift_invShift, ark_ark]

/-! ### Block cipher -/

theorem toState_ofState (s : State) : toState (ofState s) = s := by
  funext r c
  revert r c
  apply fin4 <;> apply fin4 <;> rfl

theorem list16 (b : List Byte) (h : b.length = 16) : ∃ x0 x1 x2 x3 x4 x5 x6 x7 x8 x9 x10 x11 x12 x13 x14 x15,
    b = [x0, x1, x2, x3, x4, x5, x6, x7, x8, x9, x10, x11, x12, x13, x14, x15] := by
  match b, h with
  | [x0, x1, x2, x3, x4, x5, x6, x7, x8, x9, x10, x11, x12, x13, x14, x15], _ => exact ⟨_, _, _, _, _, _, _, _, _, _, _, _, _, _, _, _, rfl⟩

theorem ofState_toState (b : List Byte) (h : b.length = 16) : ofState (toState b) = b := by
  obtain ⟨x0, x1, x2, x3, x4, x5, x6, x7, x8, x9, x10, x11, x12, x13, x14, x15, rfl⟩ := list16 b h
  rfl

theorem toState_take (b : List Byte) : toState (b.take 16) = toState b := by
  funext r c
  rw [toState, toState, List.getD_eq_getElem?_getD, List.getD_eq_getElem?_getD, List.getElem?_take_of_lt (by omega)]

theorem loadQuad_eq (src : List Byte) (h : 16 ≤ src.length) : ∃ q, loadQuad src = some q ∧ st q = toState src := by
  have h' : (src.take 16).length = 16 := by rw [List.length_take]; omega
  obtain ⟨x0, x1, x2, x3, x4, x5, x6, x7, x8, x9, x10, x11, x12, x13, x14, x15, e⟩ := list16 _ h'
  have e2 : src = [x0, x1, x2, x3, x4, x5, x6, x7, x8, x9, x10, x11, x12, x13, x14, x15] ++ src.drop 16 := by
    rw [← e, List.take_append_drop]
  rw [← toState_take, e, e2]
  refine ⟨_, rfl, ?_⟩
  funext r c
  revert r c
  simp only [pack_eq, st]
  apply fin4 <;> apply fin4 <;> simp only [Quad.col, mk0, mk1, mk2, mk3] <;> rfl

theorem out_eq (s : Quad) : beBytes32 s.s0 ++ beBytes32 s.s1 ++ beBytes32 s.s2 ++ beBytes32 s.s3 = ofState (st s) := rfl

/-- `xk` holds the round keys 0 … nr of `w`. -/
def Sched (xk : List W32) (w : Nat → Word) (nr : Nat) : Prop :=
  xk.length = 4 * (nr + 1) ∧ ∀ i, i < 4 * (nr + 1) → xk[i]? = some (w i)

theorem keyQuad_eq {xk : List W32} {w : Nat → Word} {nr : Nat} (h : Sched xk w nr) {j : Nat} (hj : j ≤ nr) :
    ∃ q, keyQuad xk (4 * j) = some q ∧ ∀ r c, st q r c = wordByte (w (4 * j + c.val)) r := by
  refine ⟨⟨w (4 * j), w (4 * j + 1), w (4 * j + 2), w (4 * j + 3)⟩, ?_, ?_⟩
  · rw [keyQuad, h.2 _ (by omega), h.2 _ (by omega), h.2 _ (by omega), h.2 _ (by omega)]; rfl
  · intro r c
    rw [st]; congr 1
    revert c; apply fin4 <;> rfl

theorem ark_eq {q s : Quad} {w : Nat → Word} {j : Nat} (h : ∀ r c, st q r c = wordByte (w (4 * j + c.val)) r) :
    st (q.xor s) = addRoundKey w j (st s) := by
  funext r c
  rw [st_xor, h, addRoundKey, BitVec.xor_comm]

theorem ark_eq' {q s : Quad} {w : Nat → Word} {j : Nat} (h : ∀ r c, st q r c = wordByte (w (4 * j + c.val)) r) :
    st (s.xor q) = addRoundKey w j (st s) := by
  funext r c
  rw [st_xor, h, addRoundKey]

theorem encRounds_eq {xk : List W32} {w : Nat → Word} {nr : Nat} (h : Sched xk w nr) (s0 : State) (n : Nat) :
    ∀ (j : Nat) (s : Quad), j + n ≤ nr → st s = rounds w j s0 →
    ∃ t, midRounds encMid xk s (4 * (j + 1)) n = some (t, 4 * (j + n + 1)) ∧ st t = rounds w (j + n) s0 := by
  induction n with
  | zero => intro j s _ hs; exact ⟨s, rfl, hs⟩
  | succ n ih =>
    intro j s hj hs
    obtain ⟨q, q1, q2⟩ := keyQuad_eq h (j := j + 1) (by omega)
    obtain ⟨t, t1, t2⟩ := ih (j + 1) (q.xor (encMid s)) (by omega) (by
      rw [ark_eq q2, encMid_eq, hs, rounds])
    refine ⟨t, ?_, by rw [t2]; congr 1; omega⟩
    rw [midRounds, q1]
    simp only [Option.bind_eq_bind, Option.bind_some]
    rw [show 4 * (j + 1) + 4 = 4 * (j + 1 + 1) by omega, t1]
    congr 3; omega

theorem encrypt_sched {xk : List W32} {w : Nat → Word} {nr : Nat} (h : Sched xk w nr) (hnr : 2 ≤ nr) (src : List Byte)
    (hs : 16 ≤ src.length) : encryptBlockGo xk src = some (ofState (cipherState w nr (toState src))) := by
  obtain ⟨s, s1, s2⟩ := loadQuad_eq src hs
  obtain ⟨k0, a1, a2⟩ := keyQuad_eq h (j := 0) (by omega)
  obtain ⟨t, t1, t2⟩ := encRounds_eq h (addRoundKey w 0 (toState src)) (nr - 1) 0 (s.xor k0) (by omega) (by
    rw [ark_eq' a2, s2, rounds])
  obtain ⟨kl, l1, l2⟩ := keyQuad_eq h (j := nr) (by omega)
  rw [encryptBlockGo, cryptBlock, s1]
  simp only [Option.bind_eq_bind, Option.bind_some]
  rw [show keyQuad xk 0 = some k0 from a1]
  simp only [Option.bind_some]
  rw [h.1, show 4 * (nr + 1) / 4 - 2 = nr - 1 by omega, t1]
  simp only [Option.bind_some]
  rw [show 4 * (0 + (nr - 1) + 1) = 4 * nr by omega, l1]
  simp only [Option.bind_some]
  rw [out_eq, if_neg (by omega), ark_eq' l2, encLast_eq, t2, cipherState, Nat.zero_add]

/-- `xk` holds the round keys of the equivalent inverse cipher. -/
def DecSched (xk : List W32) (w : Nat → Word) (nr : Nat) : Prop :=
  xk.length = 4 * (nr + 1) ∧ ∀ q, q ≤ nr → ∃ k, keyQuad xk (4 * q) = some k ∧
    st k = (if 0 < q ∧ q < nr then invMixColumns else id) (fun r c => wordByte (w (4 * (nr - q) + c.val)) r)

theorem decRounds_eq {xk : List W32} {w : Nat → Word} {nr : Nat} (h : DecSched xk w nr) (n : Nat) :
    ∀ (s : Quad), n + 1 ≤ nr →
    ∃ t, midRounds decMid xk s (4 * (nr - n)) n = some (t, 4 * nr) ∧ st t = invRounds w n (st s) := by
  induction n with
  | zero => intro s hn; exact ⟨s, by rw [midRounds]; rfl, rfl⟩
  | succ n ih =>
    intro s hn
    obtain ⟨q, q1, q2⟩ := h.2 (nr - (n + 1)) (by omega)
    rw [if_pos (by omega)] at q2
    obtain ⟨t, t1, t2⟩ := ih (q.xor (decMid s)) (by omega)
    refine ⟨t, ?_, ?_⟩
    · rw [midRounds, q1]
      simp only [Option.bind_eq_bind, Option.bind_some]
      rw [show 4 * (nr - (n + 1)) + 4 = 4 * (nr - n) by omega, t1]
    · rw [t2, invRounds]
      congr 1
      have hx : addRoundKey w (n + 1) (invSubBytes (invShiftRows (st s))) =
          fun r c => invSubBytes (invShiftRows (st s)) r c ^^^ wordByte (w (4 * (n + 1) + c.val)) r := rfl
      rw [hx, invMix_xor, ← decMid_eq]
      funext r c
      rw [st_xor, q2, BitVec.xor_comm, show nr - (nr - (n + 1)) = n + 1 by omega]

theorem decrypt_sched {xk : List W32} {w : Nat → Word} {nr : Nat} (h : DecSched xk w nr) (hnr : 2 ≤ nr) (src : List Byte)
    (hs : 16 ≤ src.length) : decryptBlockGo xk src = some (ofState (invCipherState w nr (toState src))) := by
  obtain ⟨s, s1, s2⟩ := loadQuad_eq src hs
  obtain ⟨k0, a1, a2⟩ := h.2 0 (by omega)
  rw [if_neg (by omega)] at a2
  obtain ⟨t, t1, t2⟩ := decRounds_eq h (nr - 1) (s.xor k0) (by omega)
  obtain ⟨kl, l1, l2⟩ := h.2 nr (by omega)
  rw [if_neg (by omega)] at l2
  have e0 : st (s.xor k0) = addRoundKey w nr (toState src) :=
    ark_eq' (fun r c => by rw [a2, Nat.sub_zero]; rfl) |>.trans (by rw [s2])
  rw [decryptBlockGo, cryptBlock, s1]
  simp only [Option.bind_eq_bind, Option.bind_some]
  rw [show keyQuad xk 0 = some k0 from a1]
  simp only [Option.bind_some]
  rw [h.1, show 4 * (nr + 1) / 4 - 2 = nr - 1 by omega]
  rw [show 4 * (nr - (nr - 1)) = 4 by omega] at t1
  rw [t1]
  simp only [Option.bind_some, l1]
  rw [out_eq, if_neg (by omega), ark_eq' (w := w) (j := 0) (fun r c => by rw [l2, Nat.sub_self]; rfl), decLast_eq, t2, e0, invCipherState]

end Lemmas.AES
