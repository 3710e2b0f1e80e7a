import Verif.Lemmas.AESKey
import Verif.Model.AESAsm
/-! The AES-NI cipher against the portable one and FIPS 197. -/
namespace Lemmas.AES
open Model Model.AES Model.AES.Xmm
open Spec.AES hiding Byte ofState

/-- Byte swap. -/
def bs (x : W32) : W32 := mkWord (wordByte x 3) (wordByte x 2) (wordByte x 1) (wordByte x 0)

theorem bs_bs (x : W32) : bs (bs x) = x := by
  simp only [bs, mk0, mk1, mk2, mk3, mk_eta]
theorem bs_xor (x y : W32) : bs (x ^^^ y) = bs x ^^^ bs y := by
  apply word_ext; apply fin4 <;> simp only [bs, wordByte_xor, mk0, mk1, mk2, mk3]

def toQ (x : Xmm) : Quad := ⟨bs x.d0, bs x.d1, bs x.d2, bs x.d3⟩

theorem st_toQ (x : Xmm) : st (toQ x) = x.state := by
  funext r c
  revert r c
  apply fin4 <;> apply fin4 <;> simp only [st, toQ, Quad.col, bs, mk0, mk1, mk2, mk3] <;> rfl

theorem st_inj {p q : Quad} (h : st p = st q) : p = q := by
  have hc : ∀ c, Quad.col p c = Quad.col q c := fun c => word_ext (fun r => congrFun (congrFun h r) c)
  obtain ⟨a, b, c, d⟩ := p
  obtain ⟨a', b', c', d'⟩ := q
  have h0 := hc 0
  have h1 := hc 1
  have h2 := hc 2
  have h3 := hc 3
  simp only [Quad.col] at h0 h1 h2 h3
  rw [h0, h1, h2, h3]

theorem state_ofState (s : State) : (Xmm.ofState s).state = s := by
  rw [← st_toQ]
  funext r c
  revert r c
  have h : ∀ c, (Xmm.ofState s).dw c = mkWord (s 3 c) (s 2 c) (s 1 c) (s 0 c) := by apply fin4 <;> rfl
  have h0 := h 0
  have h1 := h 1
  have h2 := h 2
  have h3 := h 3
  simp only [dw] at h0 h1 h2 h3
  apply fin4 <;> apply fin4 <;> simp only [st, toQ, Quad.col, h0, h1, h2, h3, bs, mk0, mk1, mk2, mk3]

theorem toQ_xor (a b : Xmm) : toQ (a.xor b) = (toQ a).xor (toQ b) := by
  simp only [toQ, Xmm.xor, Quad.xor, bs_xor]

theorem quad_xor_comm (a b : Quad) : a.xor b = b.xor a := by
  simp only [Quad.xor, BitVec.xor_comm]

theorem toQ_aesenc (k x : Xmm) : toQ (aesenc k x) = (toQ k).xor (encMid (toQ x)) := by
  rw [aesenc, toQ_xor, quad_xor_comm]
  congr 1
  apply st_inj
  rw [st_toQ, state_ofState, encMid_eq, st_toQ]; rfl
theorem toQ_aesenclast (k x : Xmm) : toQ (aesenclast k x) = (encLast (toQ x)).xor (toQ k) := by
  rw [aesenclast, toQ_xor]
  congr 1
  apply st_inj
  rw [st_toQ, state_ofState, encLast_eq, st_toQ]; rfl
theorem toQ_aesdec (k x : Xmm) : toQ (aesdec k x) = (toQ k).xor (decMid (toQ x)) := by
  rw [aesdec, toQ_xor, quad_xor_comm]
  congr 1
  apply st_inj
  rw [st_toQ, state_ofState, decMid_eq, st_toQ]
theorem toQ_aesdeclast (k x : Xmm) : toQ (aesdeclast k x) = (decLast (toQ x)).xor (toQ k) := by
  rw [aesdeclast, toQ_xor]
  congr 1
  apply st_inj
  rw [st_toQ, state_ofState, decLast_eq, st_toQ]

/-- The schedule of blocks as words in the order of the portable cipher. -/
def words (xk : List Xmm) : List W32 := xk.flatMap fun x => [bs x.d0, bs x.d1, bs x.d2, bs x.d3]

theorem list15 {α : Type} (b : List α) (h : b.length = 15) : ∃ x0 x1 x2 x3 x4 x5 x6 x7 x8 x9 x10 x11 x12 x13 x14,
    b = [x0, x1, x2, x3, x4, x5, x6, x7, x8, x9, x10, x11, x12, x13, x14] := by
  match b, h with
  | [x0, x1, x2, x3, x4, x5, x6, x7, x8, x9, x10, x11, x12, x13, x14], _ => exact ⟨_, _, _, _, _, _, _, _, _, _, _, _, _, _, _, rfl⟩

theorem load_eq (src : List Byte) (h : 16 ≤ src.length) : ∃ x, load src = some x ∧ loadQuad src = some (toQ x) := by
  have h' : (src.take 16).length = 16 := by rw [List.length_take]; omega
  obtain ⟨x0, x1, x2, x3, x4, x5, x6, x7, x8, x9, x10, x11, x12, x13, x14, x15, e⟩ := list16 _ h'
  have e2 : src = [x0, x1, x2, x3, x4, x5, x6, x7, x8, x9, x10, x11, x12, x13, x14, x15] ++ src.drop 16 := by
    rw [← e, List.take_append_drop]
  rw [e2]
  refine ⟨⟨mkWord x3 x2 x1 x0, mkWord x7 x6 x5 x4, mkWord x11 x10 x9 x8, mkWord x15 x14 x13 x12⟩, rfl, ?_⟩
  simp only [toQ, bs, mk0, mk1, mk2, mk3]
  simp only [← pack_eq]
  rfl

theorem bytes_eq (x : Xmm) : x.bytes = Spec.AES.ofState (st (toQ x)) := by
  rw [st_toQ]; rfl

theorem words_get (xk : List Xmm) (a : Nat) : keyQuad (words xk) (4 * a) = (xk[a]?).map toQ := by
  induction xk generalizing a with
  | nil => rfl
  | cons x xk ih =>
    cases a with
    | zero => rfl
    | succ a =>
      have h : keyQuad (words (x :: xk)) (4 * (a + 1)) = keyQuad (words xk) (4 * a) := rfl
      rw [h, ih]; rfl

theorem words_length (xk : List Xmm) : (words xk).length = 4 * xk.length := by
  induction xk with
  | nil => rfl
  | cons x xk ih =>
    have : (words (x :: xk)).length = (words xk).length + 4 := rfl
    rw [this, ih, List.length_cons]; omega

/-- `n` rounds from block `a`. -/
def runK (op : Xmm → Xmm → Xmm) (xk : List Xmm) : Nat → Nat → Xmm → Option Xmm
  | _, 0, x => some x
  | a, n + 1, x => (xk[a]?).bind fun k => runK op xk (a + 1) n (op k x)

theorem runK_add (op : Xmm → Xmm → Xmm) (xk : List Xmm) (m : Nat) : ∀ (n a : Nat) (x : Xmm),
    runK op xk a (n + m) x = (runK op xk a n x).bind (runK op xk (a + n) m) := by
  intro n
  induction n with
  | zero => intro a x; rw [Nat.zero_add]; rfl
  | succ n ih =>
    intro a x
    rw [Nat.add_right_comm, runK, runK]
    cases xk[a]? with
    | none => rfl
    | some k => simp only [Option.bind_some]; rw [ih, Nat.add_right_comm a 1 n]; rfl

theorem mid_runK (op : Xmm → Xmm → Xmm) (mid : Quad → Quad) (hop : ∀ k x, toQ (op k x) = (toQ k).xor (mid (toQ x)))
    (xk : List Xmm) : ∀ (n a : Nat) (x : Xmm),
    midRounds mid (words xk) (toQ x) (4 * a) n = (runK op xk a n x).map fun t => (toQ t, 4 * (a + n)) := by
  intro n
  induction n with
  | zero => intro a x; rfl
  | succ n ih =>
    intro a x
    rw [midRounds, words_get, runK]
    cases xk[a]? with
    | none => rfl
    | some k =>
      simp only [Option.map_some, Option.bind_eq_bind, Option.bind_some]
      rw [← hop, show 4 * a + 4 = 4 * (a + 1) by omega, ih, show a + 1 + n = a + (n + 1) by omega]

theorem cryptAsm_runK (op last : Xmm → Xmm → Xmm) (nr : Nat) (hnr : nr = 10 ∨ nr = 12 ∨ nr = 14) (xk : List Xmm) (x : Xmm) :
    cryptBlockAsm op last nr xk x = (xk[0]?).bind fun k => (runK op xk 1 (nr - 1) (x.xor k)).bind fun y =>
      (xk[nr]?).map fun k => last k y := by
  have r2 : ∀ ax y, xkRun op xk ax [0, 1] y = runK op xk ax 2 y := fun _ _ => rfl
  have r9 : ∀ ax y, xkRun op xk ax [0, 1, 2, 3, 4, 5, 6, 7, 8] y = runK op xk ax 9 y := fun _ _ => rfl
  rw [cryptBlockAsm]
  cases xk[0]? with
  | none => rfl
  | some k =>
    simp only [Option.bind_eq_bind, Option.bind_some]
    rcases hnr with rfl | rfl | rfl
    · rw [if_neg (by decide), if_neg (by decide), if_neg (by decide), if_neg (by decide), r9]
      cases runK op xk 1 9 (x.xor k) with
      | none => rfl
      | some u => rw [Option.bind_some, Option.bind_some, xkRun]; cases xk[1 + 9]? <;> rfl
    · rw [if_neg (by decide), if_pos (by decide), if_neg (by decide), if_pos (by decide), r2,
        show runK op xk 1 (12 - 1) = runK op xk 1 (2 + 9) from rfl, runK_add]
      cases runK op xk 1 2 (x.xor k) with
      | none => rfl
      | some z =>
        simp only [Option.bind_some]
        rw [r9]
        cases runK op xk (1 + 2) 9 z with
        | none => rfl
        | some u => rw [Option.bind_some, Option.bind_some, xkRun]; cases xk[1 + 2 + 9]? <;> rfl
    · rw [if_pos (by decide), if_pos (by decide), if_pos (by decide), r2,
        show runK op xk 1 (14 - 1) = runK op xk 1 (2 + (2 + 9)) from rfl, runK_add]
      cases runK op xk 1 2 (x.xor k) with
      | none => rfl
      | some y =>
        simp only [Option.bind_some]
        rw [if_pos (by decide), r2, runK_add]
        cases runK op xk (1 + 2) 2 y with
        | none => rfl
        | some z =>
          simp only [Option.bind_some]
          rw [r9]
          cases runK op xk (1 + 2 + 2) 9 z with
          | none => rfl
          | some u => rw [Option.bind_some, Option.bind_some, xkRun]; cases xk[1 + 2 + 2 + 9]? <;> rfl

theorem crypt_asm_go (op last : Xmm → Xmm → Xmm) (mid last' : Quad → Quad)
    (hop : ∀ k x, toQ (op k x) = (toQ k).xor (mid (toQ x))) (hlast : ∀ k x, toQ (last k x) = (last' (toQ x)).xor (toQ k))
    (nr : Nat) (hnr : nr = 10 ∨ nr = 12 ∨ nr = 14)
    (xk : List Xmm) (hx : xk.length = nr + 1) (src : List Byte) (hs : 16 ≤ src.length) :
    (do let s ← load src; let x ← cryptBlockAsm op last nr xk s; some x.bytes) = cryptBlock mid last' (words xk) src := by
  obtain ⟨x, l1, l2⟩ := load_eq src hs
  rw [l1, cryptBlock, l2, words_length, hx]
  simp only [Option.bind_eq_bind, Option.bind_some]
  rw [cryptAsm_runK op last nr hnr, show keyQuad (words xk) 0 = _ from words_get xk 0]
  cases xk[0]? with
  | none => rfl
  | some k =>
    simp only [Option.bind_some, Option.map_some]
    rw [← toQ_xor, show 4 * (nr + 1) / 4 - 2 = nr - 1 by omega,
      show midRounds mid (words xk) (toQ (x.xor k)) 4 (nr - 1) = _ from mid_runK op mid hop xk (nr - 1) 1 _]
    cases runK op xk 1 (nr - 1) (x.xor k) with
    | none => rfl
    | some y =>
      simp only [Option.bind_some, Option.map_some]
      rw [words_get, if_neg (by omega), show 1 + (nr - 1) = nr by omega]
      cases xk[nr]? with
      | none => rfl
      | some k => simp only [Option.bind_some, Option.map_some]; rw [bytes_eq, out_eq, hlast]

theorem encrypt_asm_go (c : AESAsm) (hx : c.enc.length = 15) (dst src : List Byte) (hs : 16 ≤ src.length) (hd : 16 ≤ dst.length) :
    c.encrypt dst src = (encryptBlockGo (words c.enc) src).map (· ++ dst.drop 16) := by
  rw [AESAsm.encrypt, if_neg (by omega), encryptBlockGo,
    ← crypt_asm_go aesenc aesenclast encMid encLast toQ_aesenc toQ_aesenclast 14 (by decide) _ hx src hs]
  obtain ⟨x, l1, l2⟩ := load_eq src hs
  rw [l1]
  simp only [Option.bind_eq_bind, Option.bind_some]
  rw [encryptBlockAsm]
  cases cryptBlockAsm aesenc aesenclast (60 / 4 - 1) c.enc x <;> rfl

theorem decrypt_asm_go (c : AESAsm) (hx : c.dec.length = 15) (dst src : List Byte) (hs : 16 ≤ src.length) (hd : 16 ≤ dst.length) :
    c.decrypt dst src = (decryptBlockGo (words c.dec) src).map (· ++ dst.drop 16) := by
  rw [AESAsm.decrypt, if_neg (by omega), decryptBlockGo,
    ← crypt_asm_go aesdec aesdeclast decMid decLast toQ_aesdec toQ_aesdeclast 14 (by decide) _ hx src hs]
  obtain ⟨x, l1, l2⟩ := load_eq src hs
  rw [l1]
  simp only [Option.bind_eq_bind, Option.bind_some]
  rw [decryptBlockAsm]
  cases cryptBlockAsm aesdec aesdeclast (60 / 4 - 1) c.dec x <;> rfl

/-! ### Key expansion -/

theorem subDw_bs (x : W32) : subDw (bs x) = bs (subWord x) := by
  have h : ∀ y, subDw y = mkWord (Spec.AES.sbox (wordByte y 0)) (Spec.AES.sbox (wordByte y 1)) (Spec.AES.sbox (wordByte y 2)) (Spec.AES.sbox (wordByte y 3)) :=
    fun _ => rfl
  rw [h]
  simp only [bs, subWord, mk0, mk1, mk2, mk3]

theorem rotDw_eq (x : W32) : rotDw x = mkWord (wordByte x 3) (wordByte x 0) (wordByte x 1) (wordByte x 2) := by
  apply word_ext
  apply fin4 <;> simp only [mk0, mk1, mk2, mk3] <;> apply BitVec.eq_of_getLsbD_eq <;> intro i hi <;>
    simp only [rotDw, wordByte, BitVec.getLsbD_extractLsb', BitVec.getLsbD_or, BitVec.getLsbD_shiftLeft,
      BitVec.getLsbD_ushiftRight, hi, decide_true, Bool.true_and]
  · have h1 : ¬ 24 - 8 * (0 : Fin 4).val + i < 24 := by show ¬ 24 - 8 * 0 + i < 24; omega
    have h2 : 24 - 8 * (0 : Fin 4).val + i < 32 := by show 24 - 8 * 0 + i < 32; omega
    have h3 : 24 - 8 * (0 : Fin 4).val + i - 24 = 24 - 8 * (3 : Fin 4).val + i := by
      show 24 - 8 * 0 + i - 24 = 24 - 8 * 3 + i; omega
    have h4 : x.getLsbD (8 + (24 - 8 * (0 : Fin 4).val + i)) = false := BitVec.getLsbD_of_ge _ _ (by
      show 32 ≤ 8 + (24 - 8 * 0 + i); omega)
    rw [h4, h3, decide_eq_false h1, decide_eq_true h2]; simp
  · have h1 : 24 - 8 * (1 : Fin 4).val + i < 24 := by show 24 - 8 * 1 + i < 24; omega
    have h3 : 8 + (24 - 8 * (1 : Fin 4).val + i) = 24 - 8 * (0 : Fin 4).val + i := by
      show 8 + (24 - 8 * 1 + i) = 24 - 8 * 0 + i; omega
    rw [h3, decide_eq_true h1]; simp
  · have h1 : 24 - 8 * (2 : Fin 4).val + i < 24 := by show 24 - 8 * 2 + i < 24; omega
    have h3 : 8 + (24 - 8 * (2 : Fin 4).val + i) = 24 - 8 * (1 : Fin 4).val + i := by
      show 8 + (24 - 8 * 2 + i) = 24 - 8 * 1 + i; omega
    rw [h3, decide_eq_true h1]; simp
  · have h1 : 24 - 8 * (3 : Fin 4).val + i < 24 := by show 24 - 8 * 3 + i < 24; omega
    have h3 : 8 + (24 - 8 * (3 : Fin 4).val + i) = 24 - 8 * (2 : Fin 4).val + i := by
      show 8 + (24 - 8 * 3 + i) = 24 - 8 * 2 + i; omega
    rw [h3, decide_eq_true h1]; simp

theorem rotDw_bs (x : W32) : rotDw (bs x) = bs (rotWord x) := by
  rw [rotDw_eq]
  simp only [bs, rotWord, mk0, mk1, mk2, mk3]

theorem rcDw (rc : Byte) : (rc.setWidth 32 : W32) = bs (mkWord rc 0 0 0) := by
  simp only [bs, mk0, mk1, mk2, mk3]
  rw [← pack_eq, pack]
  simp

/-- The rotate-and-substitute word, as a dword. -/
theorem subrot (x : W32) (i : Nat) : rotDw (subDw (bs x)) ^^^ ((rconByte i).setWidth 32 : W32) = bs (subWord (rotWord x) ^^^ rcon i) := by
  rw [subDw_bs, rotDw_bs, rcDw, ← bs_xor]
  congr 1
  simp only [rcon]
  congr 1
  simp only [subWord, rotWord, mk0, mk1, mk2, mk3]

theorem xor_0 (a : W32) : a ^^^ 0 = a := by simp

/-- The shuffle sequence common to the expansion routines. -/
theorem shuffle (x0 x4 t : Xmm) (h : x4.d0 = 0) :
    ((x0.xor (shufps 0x10 x0 x4)).xor (shufps 0x8c (x0.xor (shufps 0x10 x0 x4)) (shufps 0x10 x0 x4))).xor t =
      ⟨x0.d0 ^^^ t.d0, x0.d1 ^^^ (x0.d0 ^^^ t.d1), x0.d2 ^^^ (x0.d1 ^^^ (x0.d0 ^^^ t.d2)),
        x0.d3 ^^^ (x0.d2 ^^^ (x0.d1 ^^^ (x0.d0 ^^^ t.d3)))⟩ ∧
    (shufps 0x8c (x0.xor (shufps 0x10 x0 x4)) (shufps 0x10 x0 x4)).d0 = 0 := by
  have e1 : shufps 0x10 x0 x4 = ⟨x4.d0, x4.d0, x0.d1, x0.d0⟩ := rfl
  have e2 : ∀ a b, shufps 0x8c a b = ⟨b.d0, b.d3, a.d0, a.d2⟩ := fun _ _ => rfl
  rw [e1, h]
  simp only [Xmm.xor, e2, xor_0]
  refine ⟨?_, trivial⟩
  congr 1 <;> ac_rfl

/-- A register holding four schedule words. -/
def X (a b c d : W32) : Xmm := ⟨bs a, bs b, bs c, bs d⟩

theorem chain {a0 a1 a2 a3 t b0 b1 b2 b3 : W32} (h0 : b0 = a0 ^^^ t) (h1 : b1 = a1 ^^^ b0) (h2 : b2 = a2 ^^^ b1)
    (h3 : b3 = a3 ^^^ b2) (x4 : Xmm) (u : Xmm) (h : x4.d0 = 0) (hu : u = ⟨bs t, bs t, bs t, bs t⟩) :
    (((X a0 a1 a2 a3).xor (shufps 0x10 (X a0 a1 a2 a3) x4)).xor
      (shufps 0x8c ((X a0 a1 a2 a3).xor (shufps 0x10 (X a0 a1 a2 a3) x4)) (shufps 0x10 (X a0 a1 a2 a3) x4))).xor u = X b0 b1 b2 b3 := by
  rw [(shuffle _ _ _ h).1, hu]
  simp only [X, h3, h2, h1, h0, bs_xor]

theorem e128 {a0 a1 a2 a3 t b0 b1 b2 b3 : W32} (h0 : b0 = a0 ^^^ t) (h1 : b1 = a1 ^^^ b0) (h2 : b2 = a2 ^^^ b1)
    (h3 : b3 = a3 ^^^ b2) (g : ExpRegs) (hx : g.x0 = X a0 a1 a2 a3) (h4 : g.x4.d0 = 0) (ht : g.x1.d3 = bs t) :
    (expand128 g).x0 = X b0 b1 b2 b3 ∧ (expand128 g).x2 = g.x2 ∧ (expand128 g).x4.d0 = 0 ∧
      (expand128 g).out = g.out ++ [X b0 b1 b2 b3] := by
  have hc := chain h0 h1 h2 h3 g.x4 (pshufd 0xff g.x1) h4 (by
    rw [show pshufd 0xff g.x1 = ⟨g.x1.d3, g.x1.d3, g.x1.d3, g.x1.d3⟩ from rfl, ht])
  rw [← hx] at hc
  exact ⟨hc, rfl, (shuffle g.x0 g.x4 g.x4 h4).2, by rw [← hc]; rfl⟩

theorem e256b {a0 a1 a2 a3 t b0 b1 b2 b3 : W32} (h0 : b0 = a0 ^^^ t) (h1 : b1 = a1 ^^^ b0) (h2 : b2 = a2 ^^^ b1)
    (h3 : b3 = a3 ^^^ b2) (g : ExpRegs) (hx : g.x2 = X a0 a1 a2 a3) (h4 : g.x4.d0 = 0) (ht : g.x1.d2 = bs t) :
    (expand256b g).x2 = X b0 b1 b2 b3 ∧ (expand256b g).x0 = g.x0 ∧ (expand256b g).x4.d0 = 0 ∧
      (expand256b g).out = g.out ++ [X b0 b1 b2 b3] := by
  have hc := chain h0 h1 h2 h3 g.x4 (pshufd 0xaa g.x1) h4 (by
    rw [show pshufd 0xaa g.x1 = ⟨g.x1.d2, g.x1.d2, g.x1.d2, g.x1.d2⟩ from rfl, ht])
  rw [← hx] at hc
  exact ⟨hc, rfl, (shuffle g.x2 g.x4 g.x4 h4).2, by rw [← hc]; rfl⟩

theorem e192a {a0 a1 a2 a3 a4 a5 t b0 b1 b2 b3 b4 b5 : W32} (h0 : b0 = a0 ^^^ t) (h1 : b1 = a1 ^^^ b0) (h2 : b2 = a2 ^^^ b1)
    (h3 : b3 = a3 ^^^ b2) (h4 : b4 = a4 ^^^ b3) (h5 : b5 = a5 ^^^ b4)
    (g : ExpRegs) (hx : g.x0 = X a0 a1 a2 a3) (hy : g.x2.d0 = bs a4) (hz : g.x2.d1 = bs a5) (hx4 : g.x4.d0 = 0) (ht : g.x1.d1 = bs t) :
    (expand192a g).x0 = X b0 b1 b2 b3 ∧ (expand192a g).x2.d0 = bs b4 ∧ (expand192a g).x2.d1 = bs b5 ∧ (expand192a g).x4.d0 = 0 ∧
      (expand192a g).out = g.out ++ [X a4 a5 b0 b1, X b2 b3 b4 b5] := by
  have hc := chain h0 h1 h2 h3 g.x4 (pshufd 0x55 g.x1) hx4 (by
    rw [show pshufd 0x55 g.x1 = ⟨g.x1.d1, g.x1.d1, g.x1.d1, g.x1.d1⟩ from rfl, ht])
  rw [← hx] at hc
  have e0 : (expand192a g).x0 = X b0 b1 b2 b3 := hc
  have e2 : (expand192a g).x2.d0 = bs b4 := by
    rw [show (expand192a g).x2.d0 = g.x2.d0 ^^^ (expand192a g).x0.d3 ^^^ 0 from rfl, e0, hy, h4, bs_xor, xor_0]; rfl
  have e3 : (expand192a g).x2.d1 = bs b5 := by
    rw [show (expand192a g).x2.d1 = g.x2.d1 ^^^ (expand192a g).x0.d3 ^^^ g.x2.d0 from rfl, e0, hy, hz, h5, h4, bs_xor, bs_xor]
    simp only [X]; ac_rfl
  refine ⟨e0, e2, e3, (shuffle g.x0 g.x4 g.x4 hx4).2, ?_⟩
  rw [show (expand192a g).out = g.out ++ [⟨g.x2.d0, g.x2.d1, (expand192a g).x0.d0, (expand192a g).x0.d1⟩,
    ⟨(expand192a g).x0.d2, (expand192a g).x0.d3, (expand192a g).x2.d0, (expand192a g).x2.d1⟩] from rfl, e0, e2, e3, hy, hz]
  rfl

theorem e192b {a0 a1 a2 a3 a4 a5 t b0 b1 b2 b3 b4 b5 : W32} (h0 : b0 = a0 ^^^ t) (h1 : b1 = a1 ^^^ b0) (h2 : b2 = a2 ^^^ b1)
    (h3 : b3 = a3 ^^^ b2) (h4 : b4 = a4 ^^^ b3) (h5 : b5 = a5 ^^^ b4)
    (g : ExpRegs) (hx : g.x0 = X a0 a1 a2 a3) (hy : g.x2.d0 = bs a4) (hz : g.x2.d1 = bs a5) (hx4 : g.x4.d0 = 0) (ht : g.x1.d1 = bs t) :
    (expand192b g).x0 = X b0 b1 b2 b3 ∧ (expand192b g).x2.d0 = bs b4 ∧ (expand192b g).x2.d1 = bs b5 ∧ (expand192b g).x4.d0 = 0 ∧
      (expand192b g).out = g.out ++ [X b0 b1 b2 b3] := by
  have hc := chain h0 h1 h2 h3 g.x4 (pshufd 0x55 g.x1) hx4 (by
    rw [show pshufd 0x55 g.x1 = ⟨g.x1.d1, g.x1.d1, g.x1.d1, g.x1.d1⟩ from rfl, ht])
  rw [← hx] at hc
  have e0 : (expand192b g).x0 = X b0 b1 b2 b3 := hc
  have e2 : (expand192b g).x2.d0 = bs b4 := by
    rw [show (expand192b g).x2.d0 = g.x2.d0 ^^^ (expand192b g).x0.d3 ^^^ 0 from rfl, e0, hy, h4, bs_xor, xor_0]; rfl
  have e3 : (expand192b g).x2.d1 = bs b5 := by
    rw [show (expand192b g).x2.d1 = g.x2.d1 ^^^ (expand192b g).x0.d3 ^^^ g.x2.d0 from rfl, e0, hy, hz, h5, h4, bs_xor, bs_xor]
    simp only [X]; ac_rfl
  exact ⟨e0, e2, e3, (shuffle g.x0 g.x4 g.x4 hx4).2, by rw [← e0]; rfl⟩

/-! The schedule, in blocks. -/

theorem w_rot (key : List Byte) (nk q : Nat) (h0 : 0 < nk) :
    w key nk (nk * q + nk) = w key nk (nk * q) ^^^ (subWord (rotWord (w key nk (nk * q + nk - 1))) ^^^ rcon (q + 1)) := by
  have hle : nk ≤ nk * q + nk := Nat.le_add_left _ _
  rw [w, dif_neg (by omega)]
  simp only
  rw [if_pos (by rw [Nat.add_mod_right, Nat.mul_mod_right]), Nat.add_sub_cancel, Nat.add_div_right _ h0, Nat.mul_div_cancel_left _ h0]

theorem w_plain (key : List Byte) (nk i : Nat) (h0 : 0 < nk) (hi : nk ≤ i) (h1 : i % nk ≠ 0) (h2 : ¬ (6 < nk ∧ i % nk = 4)) :
    w key nk i = w key nk (i - nk) ^^^ w key nk (i - 1) := by
  rw [w, dif_neg (by omega)]
  simp only
  rw [if_neg h1, if_neg h2]

theorem w_sub (key : List Byte) (i : Nat) (hi : 8 ≤ i) (h1 : i % 8 = 4) :
    w key 8 i = w key 8 (i - 8) ^^^ subWord (w key 8 (i - 1)) := by
  rw [w, dif_neg (by omega)]
  simp only
  rw [if_neg (by omega), if_pos (by omega)]

/-- Round key `j`. -/
def blk (key : List Byte) (nk j : Nat) : Xmm :=
  X (w key nk (4 * j)) (w key nk (4 * j + 1)) (w key nk (4 * j + 2)) (w key nk (4 * j + 3))

def blks (key : List Byte) (nk n : Nat) : List Xmm := (List.range n).map (blk key nk)

theorem blks_succ (key : List Byte) (nk n : Nat) : blks key nk (n + 1) = blks key nk n ++ [blk key nk n] := by
  rw [blks, List.range_succ, List.map_append]; rfl

theorem kga3 (rc : Byte) (x : Xmm) : (keygenassist rc x).d3 = rotDw (subDw x.d3) ^^^ rc.setWidth 32 := rfl
theorem kga1 (rc : Byte) (x : Xmm) : (keygenassist rc x).d1 = rotDw (subDw x.d1) ^^^ rc.setWidth 32 := rfl
theorem kga2 (rc : Byte) (x : Xmm) : (keygenassist rc x).d2 = subDw x.d3 := rfl

theorem step128 (key : List Byte) (j : Nat) (rc : Byte) (hrc : rc = rconByte (j + 1)) (g : ExpRegs)
    (h : g.x0 = blk key 4 j ∧ g.x4.d0 = 0 ∧ g.out = blks key 4 (j + 1)) :
    (KeyIns.run g (.k128 rc)).x0 = blk key 4 (j + 1) ∧ (KeyIns.run g (.k128 rc)).x4.d0 = 0 ∧
      (KeyIns.run g (.k128 rc)).out = blks key 4 (j + 1 + 1) := by
  obtain ⟨hx, h4, ho⟩ := h
  have hw := w_rot key 4 j (by decide)
  have hw1 := w_plain key 4 (4 * j + 4 + 1) (by decide) (by omega) (by omega) (by omega)
  have hw2 := w_plain key 4 (4 * j + 4 + 2) (by decide) (by omega) (by omega) (by omega)
  have hw3 := w_plain key 4 (4 * j + 4 + 3) (by decide) (by omega) (by omega) (by omega)
  obtain ⟨e0, _, e4, eo⟩ := e128 hw hw1 hw2 hw3 { g with x1 := keygenassist rc g.x0 } hx h4 (by
    rw [kga3, hx, hrc]; exact subrot _ _)
  exact ⟨e0, e4, by rw [blks_succ, ← ho]; exact eo⟩

theorem step256 (key : List Byte) (j : Nat) (rc : Byte) (hrc : rc = rconByte (j + 1)) (g : ExpRegs)
    (h : g.x0 = blk key 8 (2 * j) ∧ g.x2 = blk key 8 (2 * j + 1) ∧ g.x4.d0 = 0 ∧ g.out = blks key 8 (2 * j + 2)) :
    (KeyIns.run g (.k256a rc)).x0 = blk key 8 (2 * j + 2) ∧ (KeyIns.run g (.k256a rc)).x2 = blk key 8 (2 * j + 1) ∧
      (KeyIns.run g (.k256a rc)).x4.d0 = 0 ∧
      (KeyIns.run g (.k256a rc)).out = blks key 8 (2 * j + 2 + 1) := by
  obtain ⟨hx, h2, h4, ho⟩ := h
  have hw := w_rot key 8 j (by decide)
  have hw1 := w_plain key 8 (8 * j + 8 + 1) (by decide) (by omega) (by omega) (by omega)
  have hw2 := w_plain key 8 (8 * j + 8 + 2) (by decide) (by omega) (by omega) (by omega)
  have hw3 := w_plain key 8 (8 * j + 8 + 3) (by decide) (by omega) (by omega) (by omega)
  have hb : blk key 8 (2 * j + 2) = X (w key 8 (8 * j + 8)) (w key 8 (8 * j + 8 + 1)) (w key 8 (8 * j + 8 + 2)) (w key 8 (8 * j + 8 + 3)) := by
    rw [blk, show 4 * (2 * j + 2) = 8 * j + 8 by omega]
  have hb0 : blk key 8 (2 * j) = X (w key 8 (8 * j)) (w key 8 (8 * j + 1)) (w key 8 (8 * j + 2)) (w key 8 (8 * j + 3)) := by
    rw [blk, show 4 * (2 * j) = 8 * j by omega]
  obtain ⟨e0, e2, e4, eo⟩ := e128 hw hw1 hw2 hw3 { g with x1 := keygenassist rc g.x2 } (hx.trans hb0) h4 (by
    rw [kga3, h2, hrc]
    rw [show (blk key 8 (2 * j + 1)).d3 = bs (w key 8 (8 * j + 8 - 1)) by rw [blk, show 4 * (2 * j + 1) + 3 = 8 * j + 8 - 1 by omega]; rfl]
    exact subrot _ _)
  rw [← hb] at e0 eo
  exact ⟨e0, e2.trans h2, e4, by rw [blks_succ, ← ho]; exact eo⟩

theorem step256b (key : List Byte) (j : Nat) (rc : Byte) (g : ExpRegs)
    (h : g.x0 = blk key 8 (2 * j + 2) ∧ g.x2 = blk key 8 (2 * j + 1) ∧ g.x4.d0 = 0 ∧ g.out = blks key 8 (2 * j + 2 + 1)) :
    (KeyIns.run g (.k256b rc)).x0 = blk key 8 (2 * (j + 1)) ∧ (KeyIns.run g (.k256b rc)).x2 = blk key 8 (2 * (j + 1) + 1) ∧
      (KeyIns.run g (.k256b rc)).x4.d0 = 0 ∧
      (KeyIns.run g (.k256b rc)).out = blks key 8 (2 * (j + 1) + 2) := by
  obtain ⟨hx, h2, h4, ho⟩ := h
  have hw := w_sub key (8 * j + 12) (by omega) (by omega)
  have hw1 := w_plain key 8 (8 * j + 12 + 1) (by decide) (by omega) (by omega) (by omega)
  have hw2 := w_plain key 8 (8 * j + 12 + 2) (by decide) (by omega) (by omega) (by omega)
  have hw3 := w_plain key 8 (8 * j + 12 + 3) (by decide) (by omega) (by omega) (by omega)
  have hb : blk key 8 (2 * (j + 1) + 1) = X (w key 8 (8 * j + 12)) (w key 8 (8 * j + 12 + 1)) (w key 8 (8 * j + 12 + 2)) (w key 8 (8 * j + 12 + 3)) := by
    rw [blk, show 4 * (2 * (j + 1) + 1) = 8 * j + 12 by omega]
  have hb0 : blk key 8 (2 * j + 1) = X (w key 8 (8 * j + 12 - 8)) (w key 8 (8 * j + 12 + 1 - 8)) (w key 8 (8 * j + 12 + 2 - 8)) (w key 8 (8 * j + 12 + 3 - 8)) := by
    rw [blk, show 8 * j + 12 - 8 = 4 * (2 * j + 1) by omega, show 8 * j + 12 + 1 - 8 = 4 * (2 * j + 1) + 1 by omega,
      show 8 * j + 12 + 2 - 8 = 4 * (2 * j + 1) + 2 by omega, show 8 * j + 12 + 3 - 8 = 4 * (2 * j + 1) + 3 by omega]
  obtain ⟨e0, e2, e4, eo⟩ := e256b hw hw1 hw2 hw3 { g with x1 := keygenassist rc g.x0 } (h2.trans hb0) h4 (by
    rw [kga2, hx]
    rw [show (blk key 8 (2 * j + 2)).d3 = bs (w key 8 (8 * j + 12 - 1)) by rw [blk, show 4 * (2 * j + 2) + 3 = 8 * j + 12 - 1 by omega]; rfl]
    exact subDw_bs _)
  rw [← hb] at e0 eo
  refine ⟨e2.trans hx, e0, e4, ?_⟩
  rw [show 2 * (j + 1) + 2 = 2 * j + 2 + 1 + 1 by omega, blks_succ, ← ho]; exact eo

theorem step192 (key : List Byte) (m : Nat) (rc rc' : Byte) (hrc : rc = rconByte (2 * m + 1)) (hrc' : rc' = rconByte (2 * m + 1 + 1)) (g : ExpRegs)
    (h : g.x0 = blk key 6 (3 * m) ∧ g.x2.d0 = bs (w key 6 (12 * m + 4)) ∧ g.x2.d1 = bs (w key 6 (12 * m + 5)) ∧
      g.x4.d0 = 0 ∧ g.out = blks key 6 (3 * m + 1)) :
    let g' := KeyIns.run (KeyIns.run g (.k192a rc)) (.k192b rc')
    g'.x0 = blk key 6 (3 * (m + 1)) ∧ g'.x2.d0 = bs (w key 6 (12 * (m + 1) + 4)) ∧ g'.x2.d1 = bs (w key 6 (12 * (m + 1) + 5)) ∧
      g'.x4.d0 = 0 ∧ g'.out = blks key 6 (3 * (m + 1) + 1) := by
  obtain ⟨hx, h2, h2', h4, ho⟩ := h
  have hw := w_rot key 6 (2 * m) (by decide)
  rw [show 6 * (2 * m) = 12 * m by omega] at hw
  have P : ∀ t, t % 6 ≠ 0 → 6 ≤ t → w key 6 (12 * m + t) = w key 6 (12 * m + (t - 6)) ^^^ w key 6 (12 * m + (t - 1)) := by
    intro t h1 h6
    have := w_plain key 6 (12 * m + t) (by decide) (by omega) (by omega) (by omega)
    rwa [show 12 * m + t - 6 = 12 * m + (t - 6) by omega, show 12 * m + t - 1 = 12 * m + (t - 1) by omega] at this
  have hwb := w_rot key 6 (2 * m + 1) (by decide)
  rw [show 6 * (2 * m + 1) + 6 = 12 * m + 12 by omega, show 6 * (2 * m + 1) = 12 * m + 6 by omega] at hwb
  have hb0 : blk key 6 (3 * m) = X (w key 6 (12 * m)) (w key 6 (12 * m + 1)) (w key 6 (12 * m + 2)) (w key 6 (12 * m + 3)) := by
    rw [blk, show 4 * (3 * m) = 12 * m by omega]
  have hb1 : blk key 6 (3 * m + 1) = X (w key 6 (12 * m + 4)) (w key 6 (12 * m + 5)) (w key 6 (12 * m + 6)) (w key 6 (12 * m + 7)) := by
    rw [blk, show 4 * (3 * m + 1) = 12 * m + 4 by omega]
  have hb2 : blk key 6 (3 * m + 2) = X (w key 6 (12 * m + 8)) (w key 6 (12 * m + 9)) (w key 6 (12 * m + 10)) (w key 6 (12 * m + 11)) := by
    rw [blk, show 4 * (3 * m + 2) = 12 * m + 8 by omega]
  have hb3 : blk key 6 (3 * m + 3) = X (w key 6 (12 * m + 12)) (w key 6 (12 * m + 13)) (w key 6 (12 * m + 14)) (w key 6 (12 * m + 15)) := by
    rw [blk, show 4 * (3 * m + 3) = 12 * m + 12 by omega]
  obtain ⟨a0, a2, a2', a4, ao⟩ := e192a hw (P 7 (by decide) (by decide)) (P 8 (by decide) (by decide)) (P 9 (by decide) (by decide))
    (P 10 (by decide) (by decide)) (P 11 (by decide) (by decide)) { g with x1 := keygenassist rc g.x2 } (hx.trans hb0) h2 h2' h4 (by
      rw [kga1, h2', hrc]; exact subrot _ _)
  obtain ⟨b0, b2, b2', b4, bo⟩ := e192b hwb (P 13 (by decide) (by decide)) (P 14 (by decide) (by decide)) (P 15 (by decide) (by decide))
    (P 16 (by decide) (by decide)) (P 17 (by decide) (by decide))
    { (KeyIns.run g (.k192a rc)) with x1 := keygenassist rc' (KeyIns.run g (.k192a rc)).x2 } a0 a2 a2' a4 (by
      rw [kga1, show (KeyIns.run g (.k192a rc)).x2.d1 = _ from a2', hrc']; exact subrot _ _)
  refine ⟨b0.trans hb3.symm, ?_, ?_, b4, ?_⟩
  · rw [show 12 * (m + 1) + 4 = 12 * m + 16 by omega]; exact b2
  · rw [show 12 * (m + 1) + 5 = 12 * m + 17 by omega]; exact b2'
  · have ao' : (KeyIns.run g (.k192a rc)).out = blks key 6 (3 * m + 1) ++ [blk key 6 (3 * m + 1), blk key 6 (3 * m + 2)] := by
      rw [hb1, hb2, ← ho]; exact ao
    rw [show 3 * (m + 1) + 1 = 3 * m + 1 + 1 + 1 + 1 by omega, blks_succ, blks_succ, blks_succ, List.append_assoc (blks key 6 _), List.cons_append, List.nil_append,
      show 3 * m + 1 + 1 = 3 * m + 2 by omega, ← ao', show 3 * m + 2 + 1 = 3 * m + 3 by omega, hb3]
    exact bo

/-! ### The whole expansion -/

theorem load_key (key : List Byte) (nk j : Nat) (hn : 4 * j + 4 ≤ nk) (h : 16 * j + 16 ≤ key.length) :
    load (key.drop (16 * j)) = some (blk key nk j) := by
  obtain ⟨x, l1, l2⟩ := load_eq (key.drop (16 * j)) (by rw [List.length_drop]; omega)
  have hw : ∀ i, i < nk → w key nk i = keyWord key i := fun i hi => by rw [w, dif_pos (by omega)]
  have h0 := beUint32_eq key (4 * j) (by omega)
  have h1 := beUint32_eq key (4 * j + 1) (by omega)
  have h2 := beUint32_eq key (4 * j + 2) (by omega)
  have h3 := beUint32_eq key (4 * j + 3) (by omega)
  rw [loadQuad, List.drop_drop, List.drop_drop, List.drop_drop, show 16 * j = 4 * (4 * j) by omega, h0,
    show 4 * (4 * j) + 4 = 4 * (4 * j + 1) by omega, h1, show 4 * (4 * j) + 8 = 4 * (4 * j + 2) by omega, h2,
    show 4 * (4 * j) + 12 = 4 * (4 * j + 3) by omega, h3] at l2
  simp only [Option.bind_eq_bind, Option.bind_some, Option.some.injEq, toQ, Quad.mk.injEq] at l2
  obtain ⟨a, b, c, d⟩ := l2
  rw [l1, blk, X, hw _ (by omega), hw _ (by omega), hw _ (by omega), hw _ (by omega), a, b, c, d, bs_bs, bs_bs, bs_bs, bs_bs]

theorem load8_key (key : List Byte) (h : key.length = 24) :
    ∃ x, load8 (key.drop 16) = some x ∧ x.d0 = bs (w key 6 4) ∧ x.d1 = bs (w key 6 5) := by
  have hw : ∀ i, i < 6 → w key 6 i = keyWord key i := fun i hi => by rw [w, dif_pos (by omega)]
  have hp : ∀ l : List Byte, 4 ≤ l.length → ∃ x, leDw l = some x ∧ beUint32 l = some (bs x) := by
    intro l hl
    match l, hl with
    | a :: b :: c :: d :: r, _ =>
      refine ⟨mkWord d c b a, rfl, ?_⟩
      rw [beUint32, pack_eq]; simp only [bs, mk0, mk1, mk2, mk3]
  obtain ⟨x, x1, x2⟩ := hp (key.drop 16) (by rw [List.length_drop]; omega)
  obtain ⟨y, y1, y2⟩ := hp (key.drop 20) (by rw [List.length_drop]; omega)
  have h0 := beUint32_eq key 4 (by omega)
  have h1 := beUint32_eq key 5 (by omega)
  rw [show 4 * 4 = 16 from rfl, x2, Option.some.injEq] at h0
  rw [show 4 * 5 = 20 from rfl, y2, Option.some.injEq] at h1
  refine ⟨⟨x, y, 0, 0⟩, ?_, ?_, ?_⟩
  · rw [load8, List.drop_drop, x1, y1]; rfl
  · rw [hw 4 (by decide), ← h0, bs_bs]
  · rw [hw 5 (by decide), ← h1, bs_bs]

theorem expandEnc_eq (key : List Byte) (nk : Nat) (hk : key.length = 4 * nk) (hnk : nk = 4 ∨ nk = 6 ∨ nk = 8) :
    expandEncAsm (nk + 6) key = some (blks key nk (nk + 6 + 1)) := by
  have hl : load key = some (blk key nk 0) := load_key key nk 0 (by omega) (by omega)
  rw [expandEncAsm, hl]
  simp only [Option.bind_eq_bind, Option.bind_some]
  rcases hnk with rfl | rfl | rfl
  · rw [if_neg (by decide), if_pos (by decide)]
    have s0 := step128 key 0 0x01 (by decide) ⟨blk key 4 0, zero, zero, zero, [blk key 4 0]⟩ ⟨rfl, rfl, rfl⟩
    have s1 := step128 key 1 0x02 (by decide) _ s0
    have s2 := step128 key 2 0x04 (by decide) _ s1
    have s3 := step128 key 3 0x08 (by decide) _ s2
    have s4 := step128 key 4 0x10 (by decide) _ s3
    have s5 := step128 key 5 0x20 (by decide) _ s4
    have s6 := step128 key 6 0x40 (by decide) _ s5
    have s7 := step128 key 7 0x80 (by decide) _ s6
    have s8 := step128 key 8 0x1b (by decide) _ s7
    have s9 := step128 key 9 0x36 (by decide) _ s8
    exact congrArg some s9.2.2
  · rw [if_pos (by decide)]
    obtain ⟨x, x1, x2, x3⟩ := load8_key key hk
    rw [x1]
    simp only [Option.bind_some]
    have s0 := step192 key 0 0x01 0x02 (by decide) (by decide) ⟨blk key 6 0, zero, x, zero, [blk key 6 0]⟩ ⟨rfl, x2, x3, rfl, rfl⟩
    have s1 := step192 key 1 0x04 0x08 (by decide) (by decide) _ s0
    have s2 := step192 key 2 0x10 0x20 (by decide) (by decide) _ s1
    have s3 := step192 key 3 0x40 0x80 (by decide) (by decide) _ s2
    exact congrArg some s3.2.2.2.2
  · rw [if_neg (by decide), if_neg (by decide)]
    have hl2 : load (key.drop 16) = some (blk key 8 1) := load_key key 8 1 (by omega) (by omega)
    rw [hl2]
    simp only [Option.bind_some]
    have s0 := step256b key 0 0x01 _ (step256 key 0 0x01 (by decide) ⟨blk key 8 0, zero, blk key 8 1, zero, [blk key 8 0, blk key 8 1]⟩ ⟨rfl, rfl, rfl, rfl⟩)
    have s1 := step256b key 1 0x02 _ (step256 key 1 0x02 (by decide) _ s0)
    have s2 := step256b key 2 0x04 _ (step256 key 2 0x04 (by decide) _ s1)
    have s3 := step256b key 3 0x08 _ (step256 key 3 0x08 (by decide) _ s2)
    have s4 := step256b key 4 0x10 _ (step256 key 4 0x10 (by decide) _ s3)
    have s5 := step256b key 5 0x20 _ (step256 key 5 0x20 (by decide) _ s4)
    have s6 := step256 key 6 0x40 (by decide) _ s5
    exact congrArg some s6.2.2.2

theorem decLoop_eq (enc : List Xmm) (B : Nat → Xmm) (n : Nat) : ∀ (bx : Nat) (out : List Xmm), n + 1 < bx + 1 → 0 < n →
    (∀ j, j ≤ bx → enc[j]? = some (B j)) →
    decLoop enc bx out n = some (out ++ ((List.range n).map fun t => aesimc (B (bx - 1 - t))) ++ [B (bx - 1 - n)]) := by
  induction n with
  | zero => intro bx out _ h; omega
  | succ n ih =>
    intro bx out hb _ he
    rw [decLoop, if_neg (by omega), he (bx - 1) (by omega)]
    simp only [Option.bind_eq_bind, Option.bind_some]
    by_cases hn : n = 0
    · subst hn
      rw [if_pos rfl, if_neg (by omega), he _ (by omega)]
      rfl
    · rw [if_neg hn, ih (bx - 1) _ (by omega) (by omega) (fun j hj => he j (by omega)), List.range_succ_eq_map, List.map_cons, List.map_map,
        show bx - 1 - 1 - n = bx - 1 - (n + 1) by omega, List.append_assoc out, List.cons_append, List.nil_append]
      congr 4
      apply List.map_congr_left
      intro t _
      rw [Function.comp, show bx - 1 - (t + 1) = bx - 1 - 1 - t by omega]

/-- The decryption schedule in blocks. -/
def dblk (key : List Byte) (nk q : Nat) : Xmm :=
  if 0 < q ∧ q < nk + 6 then aesimc (blk key nk (nk + 6 - q)) else blk key nk (nk + 6 - q)

theorem blks_get (key : List Byte) (nk n j : Nat) (h : j < n) : (blks key nk n)[j]? = some (blk key nk j) := by
  rw [blks, List.getElem?_map, List.getElem?_range h]; rfl
theorem blks_length (key : List Byte) (nk n : Nat) : (blks key nk n).length = n := by
  rw [blks, List.length_map, List.length_range]

theorem expandAsm_eq (key : List Byte) (nk : Nat) (hk : key.length = 4 * nk) (hnk : nk = 4 ∨ nk = 6 ∨ nk = 8)
    (enc dec : List Xmm) (he : enc.length = 15) (hd : dec.length = 15) :
    expandKeyAsm (nk + 6) key enc dec = some (blks key nk (nk + 6 + 1) ++ enc.drop (nk + 6 + 1),
      (List.range (nk + 6 + 1)).map (dblk key nk) ++ dec.drop (nk + 6 + 1)) := by
  rw [expandKeyAsm, expandEnc_eq key nk hk hnk]
  simp only [Option.bind_eq_bind, Option.bind_some]
  rw [storeBlocks, blks_length, if_pos (by omega)]
  simp only [Option.bind_some]
  have hg : ∀ j, j ≤ nk + 6 → (blks key nk (nk + 6 + 1) ++ enc.drop (nk + 6 + 1))[j]? = some (blk key nk j) := by
    intro j hj
    rw [List.getElem?_append_left (by rw [blks_length]; omega), blks_get _ _ _ _ (by omega)]
  rw [hg _ (by omega)]
  simp only [Option.bind_some]
  rw [decLoop_eq _ (blk key nk) (nk + 6 - 1) (nk + 6 + 1 - 1) _ (by omega) (by omega) (fun j hj => hg j (by omega))]
  simp only [Option.bind_some]
  have hD : [blk key nk (nk + 6 + 1 - 1)] ++ ((List.range (nk + 6 - 1)).map fun t => aesimc (blk key nk (nk + 6 + 1 - 1 - 1 - t))) ++
      [blk key nk (nk + 6 + 1 - 1 - 1 - (nk + 6 - 1))] = (List.range (nk + 6 + 1)).map (dblk key nk) := by
    rw [List.range_succ_eq_map, List.map_cons, List.map_map, show nk + 6 = nk + 5 + 1 from rfl, List.range_succ, List.map_append]
    simp only [List.map_cons, List.map_nil, List.cons_append, List.nil_append]
    congr 1
    congr 1
    · apply List.map_congr_left
      intro t ht
      rw [List.mem_range] at ht
      simp only [Function.comp, dblk]
      rw [if_pos (by omega)]
      congr 2; omega
    · simp only [Function.comp, dblk]
      rw [if_neg (by omega)]
      congr 2; omega
  rw [hD, storeBlocks, List.length_map, List.length_range, if_pos (by omega)]
  rfl

theorem words_col (xk : List Xmm) (a : Nat) (c : Fin 4) : (words xk)[4 * a + c.val]? = (xk[a]?).map fun x => Quad.col (toQ x) c := by
  induction xk generalizing a with
  | nil => rfl
  | cons x xk ih =>
    cases a with
    | zero => clear ih; revert c; apply fin4 <;> rfl
    | succ a =>
      have h : (words (x :: xk))[4 * (a + 1) + c.val]? = (words xk)[4 * a + c.val]? := by
        rw [show 4 * (a + 1) + c.val = 4 * a + c.val + 4 by omega]; rfl
      rw [h, ih]; rfl

theorem toQ_blk (key : List Byte) (nk j : Nat) (c : Fin 4) : Quad.col (toQ (blk key nk j)) c = w key nk (4 * j + c.val) := by
  revert c
  apply fin4 <;> simp only [toQ, blk, X, bs_bs] <;> rfl

theorem sched_blks (key : List Byte) (nk nr : Nat) : Sched (words (blks key nk (nr + 1))) (w key nk) nr := by
  refine ⟨by rw [words_length, blks_length], ?_⟩
  intro i hi
  have := words_col (blks key nk (nr + 1)) (i / 4) ⟨i % 4, by omega⟩
  simp only at this
  rw [show 4 * (i / 4) + i % 4 = i by omega, blks_get _ _ _ _ (by omega), Option.map_some, toQ_blk] at this
  simp only at this
  rw [this, show 4 * (i / 4) + i % 4 = i by omega]

theorem decSched_dblk (key : List Byte) (nk : Nat) : DecSched (words ((List.range (nk + 6 + 1)).map (dblk key nk))) (w key nk) (nk + 6) := by
  refine ⟨by rw [words_length, List.length_map, List.length_range], ?_⟩
  intro q hq
  refine ⟨toQ (dblk key nk q), ?_, ?_⟩
  · rw [words_get, List.getElem?_map, List.getElem?_range (by omega)]; rfl
  · have hb : st (toQ (blk key nk (nk + 6 - q))) = fun r c => wordByte (w key nk (4 * (nk + 6 - q) + c.val)) r := by
      funext r c; rw [st, toQ_blk]
    rw [dblk]
    by_cases h : 0 < q ∧ q < nk + 6
    · rw [if_pos h, if_pos h, st_toQ, aesimc, state_ofState, ← st_toQ, hb]
    · rw [if_neg h, if_neg h, hb]; rfl

/-! ### The object -/

/-- The shape of an object: two arrays of fifteen blocks. -/
def AsmWf (c : AESAsm) : Prop := c.enc.length = 15 ∧ c.dec.length = 15

theorem asm_new_wf : AsmWf AESAsm.new := ⟨rfl, rfl⟩

/-- The object after a successful `SetKey`. -/
def asmAfter (c : AESAsm) (key : List Byte) (nk : Nat) : AESAsm :=
  ⟨blks key nk (nk + 6 + 1) ++ c.enc.drop (nk + 6 + 1), (List.range (nk + 6 + 1)).map (dblk key nk) ++ c.dec.drop (nk + 6 + 1)⟩

theorem asm_setKey (c : AESAsm) (hc : AsmWf c) (key : List Byte) (nk : Nat) (hk : key.length = 4 * nk) (hnk : nk = 4 ∨ nk = 6 ∨ nk = 8) :
    c.setKey key = some (asmAfter c key nk) ∧ AsmWf (asmAfter c key nk) := by
  have hr : (if key.length = 16 then 10 else if key.length = 24 then 12 else if key.length = 32 then 14 else 0) = nk + 6 := by
    rcases hnk with rfl | rfl | rfl <;> rw [hk] <;> rfl
  refine ⟨?_, ?_, ?_⟩
  · rw [AESAsm.setKey, hr]
    simp only []
    rw [expandAsm_eq key nk hk hnk _ _ hc.1 hc.2]; rfl
  · simp only [asmAfter]; rw [List.length_append, blks_length, List.length_drop, hc.1]; omega
  · simp only [asmAfter]; rw [List.length_append, List.length_map, List.length_range, List.length_drop, hc.2]; omega

/-- The object holds the 32-byte key `key`. -/
def AsmHolds (c : AESAsm) (key : List Byte) : Prop :=
  AsmWf c ∧ key.length = 32 ∧ Sched (words c.enc) (w key 8) 14 ∧ DecSched (words c.dec) (w key 8) 14

theorem asm_setKey32 (c : AESAsm) (hc : AsmWf c) (key : List Byte) (hk : key.length = 32) :
    ∃ c', c.setKey key = some c' ∧ AsmHolds c' key := by
  obtain ⟨h1, h2⟩ := asm_setKey c hc key 8 hk (by decide)
  refine ⟨_, h1, h2, hk, ?_, ?_⟩
  · have : (asmAfter c key 8).enc = blks key 8 (14 + 1) := by
      simp only [asmAfter]; rw [List.drop_of_length_le (by rw [hc.1]; decide), List.append_nil]
    rw [this]; exact sched_blks key 8 14
  · have : (asmAfter c key 8).dec = (List.range (8 + 6 + 1)).map (dblk key 8) := by
      simp only [asmAfter]; rw [List.drop_of_length_le (by rw [hc.2]; decide), List.append_nil]
    rw [this]; exact decSched_dblk key 8

theorem asm_encrypt_holds {c : AESAsm} {key : List Byte} (h : AsmHolds c key) (dst src : List Byte) (hs : 16 ≤ src.length) (hd : 16 ≤ dst.length) :
    c.encrypt dst src = some (Spec.AES.encrypt key (src.take 16) ++ dst.drop 16) := by
  obtain ⟨hw, hk, he, _⟩ := h
  rw [encrypt_asm_go c hw.1 dst src hs hd, encrypt_sched he (by omega) src hs, Spec.AES.encrypt, toState_take, hk]; rfl

theorem asm_decrypt_holds {c : AESAsm} {key : List Byte} (h : AsmHolds c key) (dst src : List Byte) (hs : 16 ≤ src.length) (hd : 16 ≤ dst.length) :
    c.decrypt dst src = some (Spec.AES.decrypt key (src.take 16) ++ dst.drop 16) := by
  obtain ⟨hw, hk, _, he⟩ := h
  rw [decrypt_asm_go c hw.2 dst src hs hd, decrypt_sched he (by omega) src hs, Spec.AES.decrypt, toState_take, hk]; rfl

/-- The assembly routines themselves are right for all three key sizes when given the right number of rounds. -/
theorem asm_routines (key : List Byte) (nk : Nat) (hk : key.length = 4 * nk) (hnk : nk = 4 ∨ nk = 6 ∨ nk = 8)
    (src : List Byte) (hs : src.length = 16) :
    ∃ e d, expandKeyAsm (nk + 6) key (List.replicate 15 zero) (List.replicate 15 zero) = some (e, d) ∧
      ((do let s ← load src; let x ← encryptBlockAsm (nk + 6) (e.take (nk + 7)) s; some x.bytes) = some (Spec.AES.encrypt key src)) ∧
      ((do let s ← load src; let x ← decryptBlockAsm (nk + 6) (d.take (nk + 7)) s; some x.bytes) = some (Spec.AES.decrypt key src)) := by
  refine ⟨_, _, expandAsm_eq key nk hk hnk _ _ rfl rfl, ?_, ?_⟩
  · rw [List.take_left' (by rw [blks_length]), encryptBlockAsm,
      crypt_asm_go aesenc aesenclast encMid encLast toQ_aesenc toQ_aesenclast (nk + 6) (by omega) _ (blks_length ..) src (by omega)]
    rw [show cryptBlock encMid encLast = encryptBlockGo from rfl, encrypt_sched (sched_blks key nk (nk + 6)) (by omega) src (by omega), Spec.AES.encrypt, hk,
      show 4 * nk / 4 = nk by omega]
  · rw [List.take_left' (by rw [List.length_map, List.length_range]), decryptBlockAsm,
      crypt_asm_go aesdec aesdeclast decMid decLast toQ_aesdec toQ_aesdeclast (nk + 6) (by omega) _ (by rw [List.length_map, List.length_range]) src (by omega)]
    rw [show cryptBlock decMid decLast = decryptBlockGo from rfl, decrypt_sched (decSched_dblk key nk) (by omega) src (by omega), Spec.AES.decrypt, hk,
      show 4 * nk / 4 = nk by omega]

end Lemmas.AES
