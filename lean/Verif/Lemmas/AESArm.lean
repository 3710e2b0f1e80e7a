import Verif.Lemmas.AESAsm
import Verif.Model.AESArm
/-! The ARMv8 cipher computes the same schedules and blocks as the AES-NI one. -/
namespace Lemmas.AES
open Model Model.AES Model.AES.Xmm
open Spec.AES hiding Byte ofState

/-! ### Blocks -/

/-- `n` rounds from block `a`. -/
def armK (f : Xmm → Xmm → Xmm) (xk : List Xmm) : Nat → Nat → Xmm → Option Xmm
  | _, 0, x => some x
  | a, n + 1, x => (xk[a]?).bind fun k => armK f xk (a + 1) n (f k x)

theorem armK_add (f : Xmm → Xmm → Xmm) (xk : List Xmm) (m : Nat) : ∀ (n a : Nat) (x : Xmm),
    armK f xk a (n + m) x = (armK f xk a n x).bind (armK f xk (a + n) m) := by
  intro n
  induction n with
  | zero => intro a x; rw [Nat.zero_add]; rfl
  | succ n ih =>
    intro a x
    rw [Nat.add_right_comm, armK, armK]
    cases xk[a]? with
    | none => rfl
    | some k => simp only [Option.bind_some]; rw [ih, Nat.add_right_comm a 1 n]; rfl

theorem cryptArm_armK (op : Xmm → Xmm → Xmm) (mc : Xmm → Xmm) (nr : Nat) (hnr : nr = 10 ∨ nr = 12 ∨ nr = 14) (xk : List Xmm) (x : Xmm) :
    cryptBlockArm op mc nr xk x = (armK (fun k x => mc (op k x)) xk 0 (nr - 1) x).bind fun y =>
      (xk[nr - 1]?).bind fun v => (xk[nr]?).map fun k => (op v y).xor k := by
  have r2 : ∀ a y, armRun op mc xk [a, a + 1] y = armK (fun k x => mc (op k x)) xk a 2 y := fun _ _ => rfl
  have r9 : ∀ a y, armRun op mc xk [a, a + 1, a + 2, a + 3, a + 4, a + 5, a + 6, a + 7, a + 8] y =
    armK (fun k x => mc (op k x)) xk a 9 y := fun _ _ => rfl
  have fin : ∀ (a b : Nat) (y : Xmm), ((xk[a]?).bind fun v14 => (xk[b]?).bind fun v15 => some ((op v14 y).xor v15)) =
      (xk[a]?).bind fun v => (xk[b]?).map fun k => (op v y).xor k := by
    intro a b y
    cases xk[a]? with
    | none => rfl
    | some k => cases xk[b]? <;> rfl
  rw [cryptBlockArm]
  simp only [Option.bind_eq_bind]
  rcases hnr with rfl | rfl | rfl
  · simp only [show ¬ 12 < 10 by decide, show ¬ 12 ≤ 10 by decide, if_false, Option.bind_some, r9, fin]
  · simp only [show ¬ 12 < 12 by decide, show 12 ≤ 12 by decide, if_false, if_true, Option.bind_some, r2, r9, fin]
    rw [show 12 - 1 = 2 + 9 from rfl, armK_add]
    cases armK (fun k x => mc (op k x)) xk 0 2 x <;> rfl
  · simp only [show 12 < 14 by decide, show 12 ≤ 14 by decide, if_true, Option.bind_some, r2, r9, fin]
    rw [show 14 - 1 = 2 + (2 + 9) from rfl, armK_add]
    cases armK (fun k x => mc (op k x)) xk 0 2 x with
    | none => rfl
    | some y =>
      simp only [Option.bind_some]
      rw [armK_add]
      show _ = (((armK (fun k x => mc (op k x)) xk 2 2 y).bind _).bind _)
      cases h : armK (fun k x => mc (op k x)) xk 2 2 y with
      | none => simp only [Nat.zero_add, h]; rfl
      | some z => simp only [Nat.zero_add, h]; rfl

/-- A round of the one is a round of the other with the key added at the other end. -/
theorem arm_runK (op' : Xmm → Xmm → Xmm) (E : Xmm → Xmm) (h' : ∀ k x, op' k x = (E x).xor k) (f : Xmm → Xmm → Xmm)
    (hf : ∀ k x, f k x = E (x.xor k)) (xk : List Xmm) : ∀ (n a : Nat) (x : Xmm),
    ((armK f xk a n x).bind fun y => (xk[a + n]?).map fun k => y.xor k) = (xk[a]?).bind fun k => runK op' xk (a + 1) n (x.xor k) := by
  intro n
  induction n with
  | zero =>
    intro a x
    show (xk[a]?).map _ = _
    cases xk[a]? <;> rfl
  | succ n ih =>
    intro a x
    rw [armK]
    cases xk[a]? with
    | none => rfl
    | some k =>
      simp only [Option.bind_some]
      have := ih (a + 1) (f k x)
      rw [show a + (n + 1) = a + 1 + n by omega, this, runK, hf]
      cases xk[a + 1]? with
      | none => rfl
      | some k' => simp only [Option.bind_some]; rw [h']

theorem crypt_arm_asm (op' last : Xmm → Xmm → Xmm) (E L : Xmm → Xmm) (op : Xmm → Xmm → Xmm) (mc : Xmm → Xmm)
    (h' : ∀ k x, op' k x = (E x).xor k) (hf : ∀ k x, mc (op k x) = E (x.xor k))
    (hl : ∀ k x, last k x = (L x).xor k) (ho : ∀ k x, op k x = L (x.xor k))
    (nr : Nat) (hnr : nr = 10 ∨ nr = 12 ∨ nr = 14) (xk : List Xmm) (x : Xmm) :
    cryptBlockArm op mc nr xk x = cryptBlockAsm op' last nr xk x := by
  rw [cryptArm_armK op mc nr hnr, cryptAsm_runK op' last nr hnr]
  have key := arm_runK op' E h' (fun k x => mc (op k x)) hf xk (nr - 1) 0 x
  rw [Nat.zero_add, Nat.zero_add] at key
  have e : (xk[0]?.bind fun k => (runK op' xk 1 (nr - 1) (x.xor k)).bind fun y => (xk[nr]?).map fun k => last k y) =
      (xk[0]?.bind fun k => runK op' xk 1 (nr - 1) (x.xor k)).bind fun y => (xk[nr]?).map fun k => last k y := by
    cases xk[0]? <;> rfl
  rw [e, ← key]
  cases armK (fun k x => mc (op k x)) xk 0 (nr - 1) x with
  | none => rfl
  | some y =>
    simp only [Option.bind_some]
    cases xk[nr - 1]? with
    | none => rfl
    | some v =>
      simp only [Option.bind_some, Option.map_some]
      cases xk[nr]? with
      | none => rfl
      | some k => simp only [Option.map_some]; rw [hl, ho]

theorem enc_arm_asm (nr : Nat) (hnr : nr = 10 ∨ nr = 12 ∨ nr = 14) (xk : List Xmm) (x : Xmm) :
    encryptBlockArm nr xk x = encryptBlockAsm nr xk x :=
  crypt_arm_asm aesenc aesenclast (fun x => Xmm.ofState (mixColumns (subBytes (shiftRows x.state))))
    (fun x => Xmm.ofState (subBytes (shiftRows x.state))) aese aesmc (fun _ _ => rfl)
    (fun _ _ => by rw [aesmc, aese, state_ofState]) (fun _ _ => rfl) (fun _ _ => rfl) nr hnr xk x

theorem dec_arm_asm (nr : Nat) (hnr : nr = 10 ∨ nr = 12 ∨ nr = 14) (xk : List Xmm) (x : Xmm) :
    decryptBlockArm nr xk x = decryptBlockAsm nr xk x :=
  crypt_arm_asm aesdec aesdeclast (fun x => Xmm.ofState (invMixColumns (invSubBytes (invShiftRows x.state))))
    (fun x => Xmm.ofState (invSubBytes (invShiftRows x.state))) aesd aesimc (fun _ _ => rfl)
    (fun _ _ => by rw [aesimc, aesd, state_ofState]) (fun _ _ => rfl) (fun _ _ => rfl) nr hnr xk x

/-! ### Key expansion -/

theorem xor_zero_x (x : Xmm) : x.xor zero = x := by
  obtain ⟨a, b, c, d⟩ := x
  simp only [Xmm.xor, zero, xor_0]

/-- Byte `r` of dword `c` after a TBL. -/
theorem tbl_state (idx : Nat → Nat) (t : Xmm) (r c : Fin 4) : (tbl idx t).state r c = t.byteAt (idx (4 * c.val + r.val)) := by
  rw [← st_toQ]
  revert r c
  have h : ∀ c, (tbl idx t).dw c = mkWord (t.byteAt (idx (4 * c.val + 3))) (t.byteAt (idx (4 * c.val + 2))) (t.byteAt (idx (4 * c.val + 1)))
      (t.byteAt (idx (4 * c.val + 0))) := by apply fin4 <;> rfl
  have h0 := h 0
  have h1 := h 1
  have h2 := h 2
  have h3 := h 3
  simp only [dw] at h0 h1 h2 h3
  apply fin4 <;> apply fin4 <;> simp only [st, toQ, Quad.col, h0, h1, h2, h3, bs, mk0, mk1, mk2, mk3] <;> rfl

theorem sbw_d0 (idx : Nat → Nat) (v2 : Xmm) (r : W32) : (sbw idx v2 r).d0 =
    mkWord (Spec.AES.sbox (Xmm.byteAt {v2 with d0 := r} (idx 15))) (Spec.AES.sbox (Xmm.byteAt {v2 with d0 := r} (idx 10)))
      (Spec.AES.sbox (Xmm.byteAt {v2 with d0 := r} (idx 5))) (Spec.AES.sbox (Xmm.byteAt {v2 with d0 := r} (idx 0))) := by
  have h : ∀ s : State, (Xmm.ofState s).d0 = mkWord (s 3 0) (s 2 0) (s 1 0) (s 0 0) := fun _ => rfl
  have g : ∀ (s : State) (r : Fin 4), subBytes (shiftRows s) r 0 = Spec.AES.sbox (s r (0 + r)) := fun _ _ => rfl
  rw [sbw, aese, xor_zero_x, h]
  simp only [g, tbl_state]
  rfl

theorem sbw_rot (v2 : Xmm) (r : W32) : (sbw rotInvSRows v2 r).d0 = rotDw (subDw r) := by
  rw [sbw_d0, rotDw_eq]
  have h : subDw r = mkWord (Spec.AES.sbox (wordByte r 0)) (Spec.AES.sbox (wordByte r 1)) (Spec.AES.sbox (wordByte r 2)) (Spec.AES.sbox (wordByte r 3)) := rfl
  rw [h]
  simp only [mk0, mk1, mk2, mk3]
  rfl

theorem sbw_plain (v2 : Xmm) (r : W32) : (sbw invSRows v2 r).d0 = subDw r := by
  rw [sbw_d0]; rfl

/-- The first `m` words of the schedule, as stored. -/
def ws (key : List Byte) (nk m : Nat) : List W32 := (List.range m).map fun i => bs (w key nk i)

theorem ws_succ (key : List Byte) (nk m : Nat) : ws key nk (m + 1) = ws key nk m ++ [bs (w key nk m)] := by
  rw [ws, List.range_succ, List.map_append]; rfl
theorem ws_length (key : List Byte) (nk m : Nat) : (ws key nk m).length = m := by
  rw [ws, List.length_map, List.length_range]

/-- Rcon as held in R13 at iteration `j`. -/
def rc13 (j : Nat) : W32 := (rconByte (j + 1)).setWidth 32

theorem rc_next128 : ∀ j, j < 9 → (if rc13 j <<< 1 &&& 0x100 ≠ 0 then (0x1b : W32) else rc13 j <<< 1) = rc13 (j + 1) := by decide
theorem rc_next : ∀ j, j < 7 → rc13 j <<< 1 = rc13 (j + 1) := by decide

theorem rotword (key : List Byte) (nk j : Nat) (h0 : 0 < nk) (v2 : Xmm) (x : W32) (hx : x = bs (w key nk (nk * j + nk - 1))) :
    bs (w key nk (nk * j)) ^^^ rc13 j ^^^ (sbw rotInvSRows v2 x).d0 = bs (w key nk (nk * j + nk)) := by
  rw [sbw_rot, w_rot key nk j h0, bs_xor, ← subrot, rc13, hx]
  ac_rfl

theorem plainword (key : List Byte) (nk i : Nat) (h0 : 0 < nk) (h1 : (i + nk) % nk ≠ 0) (h2 : ¬ (6 < nk ∧ (i + nk) % nk = 4)) :
    bs (w key nk i) ^^^ bs (w key nk (i + nk - 1)) = bs (w key nk (i + nk)) := by
  rw [w_plain key nk (i + nk) h0 (by omega) h1 h2, Nat.add_sub_cancel, bs_xor]

theorem ks128_eq (key : List Byte) : ∀ (n j : Nat) (v2 : Xmm) (r13 : W32), j + n = 10 → (0 < n → r13 = rc13 j) →
    ks128 n (bs (w key 4 (4 * j))) (bs (w key 4 (4 * j + 1))) (bs (w key 4 (4 * j + 2))) (bs (w key 4 (4 * j + 3))) r13 v2
      (ws key 4 (4 * j + 4)) = ws key 4 44 := by
  intro n
  induction n with
  | zero => intro j v2 r13 hj _; rw [ks128, show 4 * j + 4 = 44 by omega]
  | succ n ih =>
    intro j v2 r13 hj hr
    have e4 := rotword key 4 j (by decide) v2 (bs (w key 4 (4 * j + 3))) rfl
    have e5 : bs (w key 4 (4 * j + 1)) ^^^ bs (w key 4 (4 * j + 4)) = bs (w key 4 (4 * j + 5)) := plainword key 4 (4 * j + 1) (by decide) (by omega) (by omega)
    have e6 : bs (w key 4 (4 * j + 2)) ^^^ bs (w key 4 (4 * j + 5)) = bs (w key 4 (4 * j + 6)) := plainword key 4 (4 * j + 2) (by decide) (by omega) (by omega)
    have e7 : bs (w key 4 (4 * j + 3)) ^^^ bs (w key 4 (4 * j + 6)) = bs (w key 4 (4 * j + 7)) := plainword key 4 (4 * j + 3) (by decide) (by omega) (by omega)
    rw [ks128]
    rw [hr (by omega), e4, e5, e6, e7]
    have := ih (j + 1) (sbw rotInvSRows v2 (bs (w key 4 (4 * j + 3)))) (if rc13 j <<< 1 &&& 0x100 ≠ 0 then 0x1b else rc13 j <<< 1) (by omega) (fun h => rc_next128 j (by omega))
    rw [show 4 * (j + 1) = 4 * j + 4 by omega] at this
    rw [← this]
    congr 1
    simp only [ws_succ, List.append_assoc, List.cons_append, List.nil_append]

theorem ks192_eq (key : List Byte) : ∀ (n j : Nat) (v2 : Xmm) (r13 : W32), j + n = 8 → (0 < n → r13 = rc13 j) →
    ks192 n (bs (w key 6 (6 * j))) (bs (w key 6 (6 * j + 1))) (bs (w key 6 (6 * j + 2))) (bs (w key 6 (6 * j + 3)))
      (bs (w key 6 (6 * j + 4))) (bs (w key 6 (6 * j + 5))) r13 v2 (ws key 6 (6 * j + 4)) = ws key 6 52 := by
  intro n
  induction n with
  | zero => intro j v2 r13 hj _; rw [ks192, show 6 * j + 4 = 52 by omega]
  | succ n ih =>
    intro j v2 r13 hj hr
    have e0 := rotword key 6 j (by decide) v2 (bs (w key 6 (6 * j + 5))) rfl
    have e1 : bs (w key 6 (6 * j + 1)) ^^^ bs (w key 6 (6 * j + 6)) = bs (w key 6 (6 * j + 7)) := plainword key 6 (6 * j + 1) (by decide) (by omega) (by omega)
    have e2 : bs (w key 6 (6 * j + 2)) ^^^ bs (w key 6 (6 * j + 7)) = bs (w key 6 (6 * j + 8)) := plainword key 6 (6 * j + 2) (by decide) (by omega) (by omega)
    have e3 : bs (w key 6 (6 * j + 3)) ^^^ bs (w key 6 (6 * j + 8)) = bs (w key 6 (6 * j + 9)) := plainword key 6 (6 * j + 3) (by decide) (by omega) (by omega)
    have e4 : bs (w key 6 (6 * j + 4)) ^^^ bs (w key 6 (6 * j + 9)) = bs (w key 6 (6 * j + 10)) := plainword key 6 (6 * j + 4) (by decide) (by omega) (by omega)
    have e5 : bs (w key 6 (6 * j + 5)) ^^^ bs (w key 6 (6 * j + 10)) = bs (w key 6 (6 * j + 11)) := plainword key 6 (6 * j + 5) (by decide) (by omega) (by omega)
    rw [ks192]
    rw [hr (by omega), e0, e1, e2, e3, e4, e5]
    have := ih (j + 1) (sbw rotInvSRows v2 (bs (w key 6 (6 * j + 5)))) (rc13 j <<< 1) (by omega) (fun h => rc_next j (by omega))
    rw [show 6 * (j + 1) = 6 * j + 6 by omega] at this
    rw [← this]
    congr 1
    simp only [ws_succ, List.append_assoc, List.cons_append, List.nil_append]

theorem ks256_eq (key : List Byte) : ∀ (n j : Nat) (v2 : Xmm) (r13 : W32), j + n = 7 → (0 < n → r13 = rc13 j) →
    ks256 n (bs (w key 8 (8 * j))) (bs (w key 8 (8 * j + 1))) (bs (w key 8 (8 * j + 2))) (bs (w key 8 (8 * j + 3)))
      (bs (w key 8 (8 * j + 4))) (bs (w key 8 (8 * j + 5))) (bs (w key 8 (8 * j + 6))) (bs (w key 8 (8 * j + 7))) r13 v2
      (ws key 8 (8 * j + 4)) = ws key 8 60 := by
  intro n
  induction n with
  | zero => intro j v2 r13 hj _; rw [ks256, show 8 * j + 4 = 60 by omega]
  | succ n ih =>
    intro j v2 r13 hj hr
    have e0 := rotword key 8 j (by decide) v2 (bs (w key 8 (8 * j + 7))) rfl
    have e1 : bs (w key 8 (8 * j + 1)) ^^^ bs (w key 8 (8 * j + 8)) = bs (w key 8 (8 * j + 9)) := plainword key 8 (8 * j + 1) (by decide) (by omega) (by omega)
    have e2 : bs (w key 8 (8 * j + 2)) ^^^ bs (w key 8 (8 * j + 9)) = bs (w key 8 (8 * j + 10)) := plainword key 8 (8 * j + 2) (by decide) (by omega) (by omega)
    have e3 : bs (w key 8 (8 * j + 3)) ^^^ bs (w key 8 (8 * j + 10)) = bs (w key 8 (8 * j + 11)) := plainword key 8 (8 * j + 3) (by decide) (by omega) (by omega)
    have e4 : ∀ v, bs (w key 8 (8 * j + 4)) ^^^ (sbw invSRows v (bs (w key 8 (8 * j + 11)))).d0 = bs (w key 8 (8 * j + 12)) := by
      intro v
      rw [sbw_plain, subDw_bs, w_sub key (8 * j + 12) (by omega) (by omega), bs_xor]; rfl
    have e5 : bs (w key 8 (8 * j + 5)) ^^^ bs (w key 8 (8 * j + 12)) = bs (w key 8 (8 * j + 13)) := plainword key 8 (8 * j + 5) (by decide) (by omega) (by omega)
    have e6 : bs (w key 8 (8 * j + 6)) ^^^ bs (w key 8 (8 * j + 13)) = bs (w key 8 (8 * j + 14)) := plainword key 8 (8 * j + 6) (by decide) (by omega) (by omega)
    have e7 : bs (w key 8 (8 * j + 7)) ^^^ bs (w key 8 (8 * j + 14)) = bs (w key 8 (8 * j + 15)) := plainword key 8 (8 * j + 7) (by decide) (by omega) (by omega)
    rw [ks256]
    rw [hr (by omega), e0, e1, e2, e3, e4, e5, e6, e7]
    have := ih (j + 1) (sbw invSRows (sbw rotInvSRows v2 (bs (w key 8 (8 * j + 7)))) (bs (w key 8 (8 * j + 11)))) (rc13 j <<< 1) (by omega) (fun h => rc_next j (by omega))
    rw [show 8 * (j + 1) = 8 * j + 8 by omega] at this
    rw [← this]
    congr 1
    simp only [ws_succ, List.append_assoc, List.cons_append, List.nil_append]

theorem leDw_key (key : List Byte) (nk i : Nat) (hk : key.length = 4 * nk) (hi : i < nk) : leDw (key.drop (4 * i)) = some (bs (w key nk i)) := by
  have hp : ∀ l : List Byte, 4 ≤ l.length → ∃ x, leDw l = some x ∧ beUint32 l = some (bs x) := by
    intro l hl
    match l, hl with
    | a :: b :: c :: d :: r, _ =>
      refine ⟨mkWord d c b a, rfl, ?_⟩
      rw [beUint32, pack_eq]; simp only [bs, mk0, mk1, mk2, mk3]
  obtain ⟨x, x1, x2⟩ := hp (key.drop (4 * i)) (by rw [List.length_drop]; omega)
  have h0 := beUint32_eq key i (by omega)
  rw [x2, Option.some.injEq] at h0
  rw [x1, show w key nk i = keyWord key i by rw [w, dif_pos (by omega)], ← h0, bs_bs]

theorem expandEncArm_eq (v2 : Xmm) (key : List Byte) (nk : Nat) (hk : key.length = 4 * nk) (hnk : nk = 4 ∨ nk = 6 ∨ nk = 8) :
    expandEncArm v2 (nk + 6) key = some (ws key nk (4 * nk + 28)) := by
  have L := fun i hi => leDw_key key nk i hk hi
  rw [expandEncArm]
  rcases hnk with rfl | rfl | rfl
  · rw [if_neg (by decide), if_neg (by decide)]
    have l0 : leDw key = _ := L 0 (by decide)
    have l1 : leDw (key.drop 4) = _ := L 1 (by decide)
    have l2 : leDw (key.drop 8) = _ := L 2 (by decide)
    have l3 : leDw (key.drop 12) = _ := L 3 (by decide)
    rw [l0, l1, l2, l3]
    exact congrArg some (ks128_eq key 10 0 v2 1 rfl (fun _ => by decide))
  · rw [if_pos (by decide)]
    have l0 : leDw key = _ := L 0 (by decide)
    have l1 : leDw (key.drop 4) = _ := L 1 (by decide)
    have l2 : leDw (key.drop 8) = _ := L 2 (by decide)
    have l3 : leDw (key.drop 12) = _ := L 3 (by decide)
    have l4 : leDw (key.drop 16) = _ := L 4 (by decide)
    have l5 : leDw (key.drop 20) = _ := L 5 (by decide)
    rw [l0, l1, l2, l3, l4, l5]
    exact congrArg some (ks192_eq key 8 0 v2 1 rfl (fun _ => by decide))
  · rw [if_neg (by decide), if_pos (by decide)]
    have l0 : leDw key = _ := L 0 (by decide)
    have l1 : leDw (key.drop 4) = _ := L 1 (by decide)
    have l2 : leDw (key.drop 8) = _ := L 2 (by decide)
    have l3 : leDw (key.drop 12) = _ := L 3 (by decide)
    have l4 : leDw (key.drop 16) = _ := L 4 (by decide)
    have l5 : leDw (key.drop 20) = _ := L 5 (by decide)
    have l6 : leDw (key.drop 24) = _ := L 6 (by decide)
    have l7 : leDw (key.drop 28) = _ := L 7 (by decide)
    rw [l0, l1, l2, l3, l4, l5, l6, l7]
    exact congrArg some (ks256_eq key 7 0 v2 1 rfl (fun _ => by decide))

theorem blocksOf_ws (key : List Byte) (nk : Nat) (hnk : nk = 4 ∨ nk = 6 ∨ nk = 8) :
    blocksOf (ws key nk (4 * nk + 28)) = blks key nk (nk + 6 + 1) := by
  rcases hnk with rfl | rfl | rfl <;> rfl

theorem expandArm_eq (v2 : Xmm) (key : List Byte) (nk : Nat) (hk : key.length = 4 * nk) (hnk : nk = 4 ∨ nk = 6 ∨ nk = 8)
    (enc dec : List Xmm) (he : enc.length = 15) (hd : dec.length = 15) :
    expandKeyArm v2 (nk + 6) key enc dec = some (blks key nk (nk + 6 + 1) ++ enc.drop (nk + 6 + 1),
      (List.range (nk + 6 + 1)).map (dblk key nk) ++ dec.drop (nk + 6 + 1)) := by
  have hg : ∀ j, j ≤ nk + 6 → (blks key nk (nk + 6 + 1) ++ enc.drop (nk + 6 + 1))[j]? = some (blk key nk j) := by
    intro j hj
    rw [List.getElem?_append_left (by rw [blks_length]; omega), blks_get _ _ _ _ (by omega)]
  rw [expandKeyArm, expandEncArm_eq v2 key nk hk hnk]
  simp only [Option.bind_eq_bind, Option.bind_some]
  rw [ws_length, if_neg (by rcases hnk with rfl | rfl | rfl <;> decide), blocksOf_ws key nk hnk, storeBlocks, blks_length, if_pos (by omega)]
  simp only [Option.bind_some]
  have hD : expandDecArm (nk + 6) (blks key nk (nk + 6 + 1) ++ enc.drop (nk + 6 + 1)) = some ((List.range (nk + 6 + 1)).map (dblk key nk)) := by
    rw [expandDecArm, hg 0 (by omega), hg 1 (by omega), hg 2 (by omega), hg 3 (by omega), hg 4 (by omega), hg 5 (by omega), hg 6 (by omega),
      hg 7 (by omega), hg 8 (by omega), hg 9 (by omega), hg 10 (by omega)]
    simp only [Option.bind_eq_bind, Option.bind_some]
    rcases hnk with rfl | rfl | rfl
    · rw [if_neg (by decide), if_neg (by decide)]; rfl
    · rw [if_pos (by decide), hg 11 (by omega), hg 12 (by omega)]; rfl
    · rw [if_neg (by decide), if_pos (by decide), hg 11 (by omega), hg 12 (by omega), hg 13 (by omega), hg 14 (by omega)]; rfl
  rw [hD]
  simp only [Option.bind_some]
  rw [storeBlocks, List.length_map, List.length_range, if_pos (by omega)]
  rfl

theorem arm_setKey (v2 : Xmm) (c : AESAsm) (hc : AsmWf c) (key : List Byte) (nk : Nat) (hk : key.length = 4 * nk) (hnk : nk = 4 ∨ nk = 6 ∨ nk = 8) :
    c.setKeyArm v2 key = c.setKey key := by
  have hr : (if key.length = 16 then 10 else if key.length = 24 then 12 else if key.length = 32 then 14 else 0) = nk + 6 := by
    rcases hnk with rfl | rfl | rfl <;> rw [hk] <;> rfl
  rw [(asm_setKey c hc key nk hk hnk).1, AESAsm.setKeyArm, hr]
  simp only []
  rw [expandArm_eq v2 key nk hk hnk _ _ hc.1 hc.2]; rfl

theorem arm_encrypt (c : AESAsm) (dst src : List Byte) : c.encryptArm dst src = c.encrypt dst src := by
  rw [AESAsm.encryptArm, AESAsm.encrypt]
  simp only [enc_arm_asm (60 / 4 - 1) (by decide)]
theorem arm_decrypt (c : AESAsm) (dst src : List Byte) : c.decryptArm dst src = c.decrypt dst src := by
  rw [AESAsm.decryptArm, AESAsm.decrypt]
  simp only [dec_arm_asm (60 / 4 - 1) (by decide)]

end Lemmas.AES
