import Verif.Lemmas.AESAsm
import Verif.Model.DRBG
import Verif.Spec.DRBG
/-! The DRBG object against SP 800-90A. -/
namespace Lemmas.DRBG
open Model Model.AES Model.DRBG Lemmas.AES
open Spec.DRBG (num be State blockEncrypt step blocks pad48)

/-! ### Big-endian numbers -/

theorem num_snoc (l : List Byte) (b : Byte) : num (l ++ [b]) = 256 * num l + b.toNat := by
  rw [num, List.foldl_append]; rfl

theorem snocInd {P : List Byte → Prop} (h0 : P []) (h1 : ∀ l b, P l → P (l ++ [b])) (l : List Byte) : P l := by
  have : ∀ n, ∀ l : List Byte, l.length = n → P l := by
    intro n
    induction n with
    | zero => intro l h; rw [List.length_eq_zero_iff.mp h]; exact h0
    | succ n ih =>
      intro l h
      have hne : l ≠ [] := by intro e; rw [e] at h; simp at h
      rw [← List.dropLast_concat_getLast hne]
      exact h1 _ _ (ih _ (by rw [List.length_dropLast, h]; rfl))
  exact this _ l rfl

theorem num_lt (l : List Byte) : num l < 256 ^ l.length := by
  induction l using snocInd with
  | h0 => decide
  | h1 l b ih =>
    rw [num_snoc, List.length_append, List.length_singleton, Nat.pow_succ]
    have := b.isLt
    omega

theorem be_length (k n : Nat) : (be k n).length = k := by
  induction k generalizing n with
  | zero => rfl
  | succ k ih => rw [be, List.length_append, ih]; rfl

theorem be_num (l : List Byte) : be l.length (num l) = l := by
  induction l using snocInd with
  | h0 => rfl
  | h1 l b ih =>
    rw [List.length_append, List.length_singleton, be, num_snoc]
    have := b.isLt
    rw [show (256 * num l + b.toNat) / 256 = num l by omega, ih]
    congr 2
    apply BitVec.eq_of_toNat_eq
    rw [BitVec.toNat_ofNat]; omega

theorem num_be (k n : Nat) : num (be k n) = n % 256 ^ k := by
  induction k generalizing n with
  | zero => rw [Nat.pow_zero, Nat.mod_one]; rfl
  | succ k ih =>
    rw [be, num_snoc, ih, BitVec.toNat_ofNat, Nat.pow_succ 256 k, Nat.mul_comm (256 ^ k), Nat.mod_mul, Nat.add_comm]

theorem be_inj {k a b : Nat} (ha : a < 256 ^ k) (hb : b < 256 ^ k) (h : be k a = be k b) : a = b := by
  have := congrArg num h
  rwa [num_be, num_be, Nat.mod_eq_of_lt ha, Nat.mod_eq_of_lt hb] at this

theorem incLoop_left (l r : List Byte) : ∀ n, n ≤ l.length → incLoop (l ++ r) n = incLoop l n ++ r := by
  intro n
  induction n generalizing l with
  | zero => intro _; rfl
  | succ n ih =>
    intro h
    have e : (l ++ r).getD n 0 = l.getD n 0 := by
      rw [List.getD_eq_getElem?_getD, List.getD_eq_getElem?_getD, List.getElem?_append_left (by omega)]
    have e2 : ∀ x, (l ++ r).set n x = l.set n x ++ r := fun x => List.set_append_left _ _ (by omega)
    rw [incLoop, incLoop, e, e2, e2]
    split
    · exact ih _ (by rw [List.length_set]; omega)
    · rfl

theorem incLoop_length (v : List Byte) (n : Nat) : (incLoop v n).length = v.length := by
  induction n generalizing v with
  | zero => rfl
  | succ n ih =>
    rw [incLoop]; split
    · rw [ih, List.length_set]
    · rw [List.length_set]

theorem incLoop_spec (v : List Byte) : num (incLoop v v.length) = (num v + 1) % 256 ^ v.length := by
  induction v using snocInd with
  | h0 => decide
  | h1 l b ih =>
    have hb := b.isLt
    have hl := num_lt l
    rw [List.length_append, List.length_singleton, incLoop]
    have e : (l ++ [b]).getD l.length 0 = b := by
      rw [List.getD_eq_getElem?_getD, List.getElem?_append_right (Nat.le_refl _), Nat.sub_self]; rfl
    have e2 : ∀ x, (l ++ [b]).set l.length x = l ++ [x] := fun x => by
      rw [List.set_append_right _ _ (Nat.le_refl _), Nat.sub_self]; rfl
    rw [e, e2, e2]
    by_cases h : b = 0xff
    · rw [if_pos h, incLoop_left l _ _ (Nat.le_refl _), num_snoc, ih, num_snoc, h,
        show (0 : Byte).toNat = 0 from rfl, show (0xff : Byte).toNat = 255 from rfl, Nat.pow_succ,
        show 256 * num l + 255 + 1 = 256 * (num l + 1) by omega, Nat.mul_comm (256 ^ l.length), Nat.mul_mod_mul_left, Nat.add_zero]
    · rw [if_neg h, num_snoc, num_snoc, Nat.pow_succ]
      have hb' : b.toNat ≠ 255 := fun e => h (BitVec.eq_of_toNat_eq e)
      rw [BitVec.toNat_add, show (1 : Byte).toNat = 1 from rfl, Nat.mod_eq_of_lt (by omega : b.toNat + 1 < 2 ^ 8), Nat.mod_eq_of_lt (by omega)]
      omega

theorem p128 : (256 : Nat) ^ 16 = 2 ^ 128 := by decide

theorem inc_be {v : List Byte} {n : Nat} (h : v = be 16 n) (_hn : n < 2 ^ 128) :
    incLoop v 16 = be 16 ((n + 1) % 2 ^ 128) := by
  have hl : v.length = 16 := by rw [h, be_length]
  have h1 := incLoop_spec v
  rw [hl] at h1
  have h2 := be_num (incLoop v 16)
  rw [incLoop_length, hl, h1, h, num_be, p128, Nat.mod_add_mod] at h2
  rw [h]; exact h2.symm

/-! ### The cipher object -/

/-- `SetKey` of 32 bytes works. -/
def Keyable : IAES → Prop
  | .soft _ => True
  | .asm c => AsmWf c

/-- The cipher holds key `k` of 32 bytes. -/
def Ready : IAES → List Byte → Prop
  | .soft c, k => k.length = 32 ∧ Holds c k
  | .asm c, k => AsmHolds c k

theorem Ready.keyable {b : IAES} {k : List Byte} (h : Ready b k) : Keyable b := by
  cases b with
  | soft c => trivial
  | asm c => exact h.1

theorem setKey_ready {b : IAES} (h : Keyable b) {k : List Byte} (hk : k.length = 32) :
    ∃ b', b.setKey k = some b' ∧ Ready b' k := by
  cases b with
  | soft c =>
    obtain ⟨c', h1, h2⟩ := setKey_ok c k (Or.inr (Or.inr hk))
    exact ⟨.soft c', by rw [IAES.setKey, h1]; rfl, hk, h2⟩
  | asm c =>
    obtain ⟨c', h1, h2⟩ := asm_setKey32 c h k hk
    exact ⟨.asm c', by rw [IAES.setKey, h1]; rfl, h2⟩

theorem Ready.encrypt {b : IAES} {k : List Byte} (h : Ready b k) (dst : List Byte) (hd : 16 ≤ dst.length) {src : List Byte} (hs : src.length = 16) :
    b.encrypt dst src = some (Spec.AES.encrypt k src ++ dst.drop 16) := by
  cases b with
  | soft c =>
    have := encrypt_holds h.2 dst src (by omega) hd
    rw [List.take_of_length_le (by omega)] at this
    exact this
  | asm c =>
    have := asm_encrypt_holds h dst src (by omega) hd
    rw [List.take_of_length_le (by omega)] at this
    exact this

theorem new_keyable (b : Bool) : Keyable (new b).blockEnc := by
  cases b
  · exact trivial
  · exact asm_new_wf

/-! ### The generator object -/

/-- The object stands for state `s`; array sizes. -/
structure Inv (c : CtrDrbg) (s : State) : Prop where
  key : c.key = s.key
  klen : s.key.length = 32
  v : c.v = be 16 s.v
  vlt : s.v < 2 ^ 128
  tmp : c.tmpBlk.length = 48
  able : Keyable c.blockEnc

theorem step_lt (s : State) : (step s).v < 2 ^ 128 := Nat.mod_lt _ (by decide)

theorem blocks_key (n : Nat) (s : State) : (blocks n s).2.key = s.key := by
  induction n generalizing s with
  | zero => rfl
  | succ n ih => rw [blocks]; exact ih _
theorem blocks_lt (n : Nat) (s : State) (h : s.v < 2 ^ 128) : (blocks n s).2.v < 2 ^ 128 := by
  induction n generalizing s with
  | zero => exact h
  | succ n ih => rw [blocks]; exact ih _ (step_lt s)
theorem blocks_v (n : Nat) (s : State) (h : s.v < 2 ^ 128) : (blocks n s).2.v = (s.v + n) % 2 ^ 128 := by
  induction n generalizing s with
  | zero => exact (Nat.mod_eq_of_lt h).symm
  | succ n ih =>
    rw [blocks]
    simp only
    rw [ih _ (step_lt s), step, Nat.mod_add_mod]
    congr 1; omega
theorem blocks_length (n : Nat) (s : State) : (blocks n s).1.length = 16 * n := by
  induction n generalizing s with
  | zero => rfl
  | succ n ih =>
    rw [blocks]
    simp only
    rw [List.length_append, ih, show (blockEncrypt (step s)).length = 16 from rfl]; omega

theorem inc_inv {c : CtrDrbg} {s : State} (h : Inv c s) : Inv (inc c) (step s) :=
  { key := h.key, klen := h.klen, v := inc_be h.v h.vlt, vlt := step_lt s, tmp := h.tmp, able := h.able }

/-- One iteration of either loop: increment, set the key, encrypt the counter. -/
theorem iter {c : CtrDrbg} {s : State} (h : Inv c s) :
    ∃ b, (inc c).blockEnc.setKey (inc c).key = some b ∧ Ready b s.key ∧
      ∀ dst : List Byte, 16 ≤ dst.length → b.encrypt dst (inc c).v = some (blockEncrypt (step s) ++ dst.drop 16) := by
  have hi := inc_inv h
  obtain ⟨b, b1, b2⟩ := setKey_ready hi.able (k := s.key) h.klen
  refine ⟨b, by rw [hi.key]; exact b1, b2, ?_⟩
  intro dst hd
  rw [hi.v, b2.encrypt dst hd (be_length _ _)]; rfl

theorem take_app (l t : List Byte) (k : Nat) (h : 16 * k + 16 ≤ l.length) (ht : t.length = 16) :
    (l.take (16 * k) ++ (t ++ (l.drop (16 * k)).drop 16)).length = l.length ∧
    (l.take (16 * k) ++ (t ++ (l.drop (16 * k)).drop 16)).take (16 * (k + 1)) = l.take (16 * k) ++ t ∧
    ∀ m, 16 * (k + 1) ≤ m → (l.take (16 * k) ++ (t ++ (l.drop (16 * k)).drop 16)).drop m = l.drop m := by
  have hl : (l.take (16 * k)).length = 16 * k := by rw [List.length_take]; omega
  have e : l.take (16 * k) ++ (t ++ (l.drop (16 * k)).drop 16) = (l.take (16 * k) ++ t) ++ l.drop (16 * (k + 1)) := by
    rw [List.append_assoc, List.drop_drop, show 16 * k + 16 = 16 * (k + 1) by omega]
  have hl' : (l.take (16 * k) ++ t).length = 16 * (k + 1) := by rw [List.length_append, hl, ht]; omega
  rw [e]
  refine ⟨?_, List.take_left' hl', ?_⟩
  · rw [List.length_append, hl', List.length_drop]; omega
  · intro m hm
    rw [List.drop_append, hl', List.drop_of_length_le (by omega), List.nil_append, List.drop_drop]
    congr 1; omega

theorem updateLoop_eq (n : Nat) : ∀ (c : CtrDrbg) (s : State) (k : Nat), Inv c s → 16 * (k + n) ≤ 48 →
    ∃ c', updateLoop c k n = some c' ∧ Inv c' (blocks n s).2 ∧
      c'.tmpBlk = c.tmpBlk.take (16 * k) ++ (blocks n s).1 ++ c.tmpBlk.drop (16 * (k + n)) ∧
      c'.counter = c.counter ∧ c'.strength = c.strength ∧ (0 < n → Ready c'.blockEnc s.key) := by
  induction n with
  | zero =>
    intro c s k h _
    exact ⟨c, rfl, h, by simp [blocks], rfl, rfl, fun h => absurd h (Nat.lt_irrefl _)⟩
  | succ n ih =>
    intro c s k h hk
    obtain ⟨b, b1, b2, b3⟩ := iter h
    have hd : 16 ≤ (c.tmpBlk.drop (16 * k)).length := by rw [List.length_drop, h.tmp]; omega
    have hb := b3 _ hd
    obtain ⟨t1, t2, t3⟩ := take_app c.tmpBlk (blockEncrypt (step s)) k (by rw [h.tmp]; omega) rfl
    have hi := inc_inv h
    let c1 : CtrDrbg := { inc c with blockEnc := b, tmpBlk := c.tmpBlk.take (16 * k) ++ (blockEncrypt (step s) ++ (c.tmpBlk.drop (16 * k)).drop 16) }
    obtain ⟨c', e1, e2, e3, e4, e5, e6⟩ := ih c1 (step s) (k + 1)
      { key := hi.key, klen := hi.klen, v := hi.v, vlt := hi.vlt, tmp := t1.trans h.tmp, able := b2.keyable } (by omega)
    refine ⟨c', ?_, e2, ?_, e4, e5, ?_⟩
    · rw [updateLoop]
      simp only [Option.bind_eq_bind, b1, Option.bind_some]
      rw [show (inc c).tmpBlk = c.tmpBlk from rfl, hb]
      simp only [Option.bind_some]
      exact e1
    · rw [e3, show c1.tmpBlk.take (16 * (k + 1)) = _ from t2, show c1.tmpBlk.drop (16 * (k + 1 + n)) = _ from t3 _ (by omega), blocks]
      simp only [List.append_assoc]
      rw [show k + 1 + n = k + (n + 1) by omega]
    · intro _
      by_cases hn : n = 0
      · subst hn
        rw [updateLoop, Option.some.injEq] at e1
        rw [← e1]; exact b2
      · exact e6 (by omega)

theorem readLoop_eq (n : Nat) : ∀ (c : CtrDrbg) (s : State) (out : List Byte) (k : Nat), Inv c s → 16 * (k + n) ≤ out.length →
    ∃ c', readLoop c out k n = some (c', out.take (16 * k) ++ (blocks n s).1 ++ out.drop (16 * (k + n))) ∧ Inv c' (blocks n s).2 ∧
      c'.counter = c.counter ∧ c'.strength = c.strength ∧ (0 < n → Ready c'.blockEnc s.key) ∧ (n = 0 → c'.blockEnc = c.blockEnc) := by
  induction n with
  | zero =>
    intro c s out k h _
    exact ⟨c, by simp [blocks, readLoop], h, rfl, rfl, fun h => absurd h (Nat.lt_irrefl _), fun _ => rfl⟩
  | succ n ih =>
    intro c s out k h hk
    obtain ⟨b, b1, b2, b3⟩ := iter h
    have hd : 16 ≤ (out.drop (16 * k)).length := by rw [List.length_drop]; omega
    have hb := b3 _ hd
    obtain ⟨t1, t2, t3⟩ := take_app out (blockEncrypt (step s)) k (by omega) rfl
    have hi := inc_inv h
    let c1 : CtrDrbg := { inc c with blockEnc := b }
    obtain ⟨c', e1, e2, e4, e5, e6, e7⟩ := ih c1 (step s) (out.take (16 * k) ++ (blockEncrypt (step s) ++ (out.drop (16 * k)).drop 16)) (k + 1)
      { key := hi.key, klen := hi.klen, v := hi.v, vlt := hi.vlt, tmp := h.tmp, able := b2.keyable } (by rw [t1]; omega)
    refine ⟨c', ?_, e2, e4, e5, ?_, fun h => absurd h (Nat.succ_ne_zero _)⟩
    · rw [readLoop]
      simp only [Option.bind_eq_bind, b1, Option.bind_some, hb]
      rw [show readLoop { inc c with blockEnc := b } _ (k + 1) n = _ from e1, t2, t3 _ (by omega), blocks]
      simp only [List.append_assoc]
      rw [show k + 1 + n = k + (n + 1) by omega]
    · intro _
      by_cases hn : n = 0
      · rw [e7 hn]; exact b2
      · exact e6 (by omega)

theorem spec_update (data : List Byte) (s : State) : Spec.DRBG.update data s =
    ⟨(List.zipWith (· ^^^ ·) (blocks 3 s).1 data).take 32, num ((List.zipWith (· ^^^ ·) (blocks 3 s).1 data).drop 32)⟩ := by
  rw [Spec.DRBG.update]

theorem update_eq {c : CtrDrbg} {s : State} (h : Inv c s) (data : List Byte) (hd : data.length = 48) :
    ∃ c', update c data = some c' ∧ Inv c' (Spec.DRBG.update data s) ∧ Ready c'.blockEnc s.key ∧
      c'.counter = c.counter ∧ c'.strength = c.strength := by
  obtain ⟨c1, e1, e2, e3, e4, e5, e6⟩ := updateLoop_eq 3 c s 0 h (by decide)
  have ht : c1.tmpBlk = (blocks 3 s).1 := by
    rw [e3, List.drop_of_length_le (by rw [h.tmp]; decide), List.append_nil, Nat.mul_zero, List.take_zero, List.nil_append]
  have hl : (List.zipWith (· ^^^ ·) c1.tmpBlk data).length = 48 := by
    rw [List.length_zipWith, e2.tmp, hd]; rfl
  rw [spec_update, ← ht]
  generalize hT : List.zipWith (· ^^^ ·) c1.tmpBlk data = T at hl ⊢
  refine ⟨{ c1 with tmpBlk := T, key := T.take 32, v := T.drop 32 }, ?_, ?_, e6 (by decide), e4, e5⟩
  · rw [update, if_neg (by omega), e1]
    simp only [Option.bind_eq_bind, Option.bind_some, hT]
  · have hd16 : (T.drop 32).length = 16 := by rw [List.length_drop, hl]
    have hv := be_num (T.drop 32)
    have hlt := num_lt (T.drop 32)
    rw [hd16] at hv hlt
    rw [p128] at hlt
    exact { key := rfl, klen := by simp only; rw [List.length_take, hl]; rfl, v := hv.symm, vlt := hlt, tmp := hl, able := e2.able }

theorem pad48_length (b : List Byte) : (pad48 b).length = 48 := by
  rw [pad48, List.length_append, List.length_take, List.length_replicate]; omega

theorem zipWith_zero (b : List Byte) : List.zipWith (· ^^^ ·) b (List.replicate b.length 0) = b := by
  induction b with
  | nil => rfl
  | cons a b ih => rw [List.length_cons, List.replicate_succ, List.zipWith_cons_cons, ih]; simp

theorem pad_take (e : List Byte) : e.take 48 ++ List.replicate (48 - (e.take 48).length) 0 = pad48 e := by
  rw [pad48, List.length_take]
  congr 2; omega

theorem seedBuf_eq (e o : List Byte) : seedBuf e o = Spec.DRBG.seed e o := by
  rw [seedBuf, Spec.DRBG.seed]
  simp only [pad_take]
  have hl := pad48_length e
  have ho : pad48 o = o.take 48 ++ List.replicate (48 - (o.take 48).length) 0 := (pad_take o).symm
  have hle : (o.take 48).length ≤ 48 := by rw [List.length_take]; omega
  rw [ho]
  conv => rhs; rw [← List.take_append_drop (o.take 48).length (pad48 e)]
  rw [List.zipWith_append (by rw [List.length_take, hl]; omega)]
  congr 1
  · generalize pad48 e = x at hl
    generalize o.take 48 = y at hle
    clear ho
    have : ∀ (x y : List Byte), List.zipWith (· ^^^ ·) x y = List.zipWith (· ^^^ ·) (x.take y.length) y := by
      intro x
      induction x with
      | nil => intro y; simp
      | cons a x ih => intro y; cases y with
        | nil => simp
        | cons b y => simp only [List.length_cons, List.take_succ_cons, List.zipWith_cons_cons]; rw [ih]
    exact this x y
  · have := zipWith_zero ((pad48 e).drop (o.take 48).length)
    rw [List.length_drop, hl] at this
    exact this.symm

theorem seed_length (e o : List Byte) : (Spec.DRBG.seed e o).length = 48 := by
  rw [Spec.DRBG.seed, List.length_zipWith, pad48_length, pad48_length]; rfl

theorem new_inv (b : Bool) : Inv (new b) ⟨List.replicate 32 0, 0⟩ :=
  { key := rfl, klen := rfl, v := rfl, vlt := by decide, tmp := rfl, able := new_keyable b }

theorem init_eq {c : CtrDrbg} {s : State} (h : Inv c s) (e p : List Byte) (he : c.strength / 8 ≤ e.length) :
    ∃ c', init c e p = some (c', true) ∧ Inv c' (Spec.DRBG.update (Spec.DRBG.seed e p) s) ∧ Ready c'.blockEnc s.key ∧ c'.strength = 256 := by
  obtain ⟨b, b1, b2⟩ := setKey_ready h.able (k := c.key) (by rw [h.key]; exact h.klen)
  obtain ⟨c', e1, e2, e3, e4, e5⟩ := update_eq (c := { c with strength := 256, blockEnc := b }) (s := s)
    { key := h.key, klen := h.klen, v := h.v, vlt := h.vlt, tmp := h.tmp, able := b2.keyable } (Spec.DRBG.seed e p) (seed_length e p)
  refine ⟨{ c' with counter := 1 }, ?_, ?_, e3, e5⟩
  · rw [init, if_neg (by omega)]
    simp only [Option.bind_eq_bind, b1, Option.bind_some, seedBuf_eq, e1]
  · exact { key := e2.key, klen := e2.klen, v := e2.v, vlt := e2.vlt, tmp := e2.tmp, able := e2.able }

theorem init_refused (c : CtrDrbg) (e p : List Byte) (he : e.length < c.strength / 8) : init c e p = some (c, false) := by
  rw [init, if_pos he]

theorem reseed_eq {c : CtrDrbg} {s : State} (h : Inv c s) (e p : List Byte) :
    ∃ c', reseed c e p = some c' ∧ Inv c' (Spec.DRBG.reseed s e p) ∧ Ready c'.blockEnc s.key ∧ c'.strength = c.strength := by
  obtain ⟨c', e1, e2, e3, e4, e5⟩ := update_eq h (Spec.DRBG.seed e p) (seed_length e p)
  refine ⟨{ c' with counter := 1 }, ?_, ?_, e3, e5⟩
  · rw [reseed, seedBuf_eq, e1]; rfl
  · exact { key := e2.key, klen := e2.klen, v := e2.v, vlt := e2.vlt, tmp := e2.tmp, able := e2.able }

/-- The state a read starts generating from. -/
def pre (s : State) (ad : List Byte) : State := if ad = [] then s else Spec.DRBG.update (pad48 ad) s

/-- The key the cipher object holds when generation starts. -/
def preKey (s : State) (k ad : List Byte) : List Byte := if ad = [] then k else s.key

theorem sb_eq (ad : List Byte) :
    (if 0 < ad.length then ad.take 48 ++ List.replicate (48 - (ad.take 48).length) 0 else List.replicate 48 0) = pad48 ad := by
  rw [pad_take]
  split
  · rfl
  · have : ad = [] := List.length_eq_zero_iff.mp (by omega)
    rw [this]; rfl

/-- What a read of any length returns and does. -/
theorem readAD_eq {c : CtrDrbg} {s : State} {k : List Byte} (h : Inv c s) (hr : Ready c.blockEnc k) (out ad : List Byte) :
    ∃ c', readAD c out ad = some (c', (blocks (out.length / 16) (pre s ad)).1 ++
        (Spec.AES.encrypt (if out.length / 16 = 0 then preKey s k ad else (pre s ad).key)
          (be 16 (blocks (out.length / 16) (pre s ad)).2.v)).take (out.length % 16), out.length) ∧
      Inv c' (Spec.DRBG.update (pad48 ad) (blocks (out.length / 16) (pre s ad)).2) ∧ Ready c'.blockEnc (pre s ad).key ∧
      c'.strength = c.strength := by
  obtain ⟨c1, f1, f2, f3, f4⟩ : ∃ c1, readPre c ad (pad48 ad) = some c1 ∧ Inv c1 (pre s ad) ∧
      Ready c1.blockEnc (preKey s k ad) ∧ c1.strength = c.strength := by
    rw [pre, preKey, readPre]
    by_cases ha : ad = []
    · rw [if_pos ha, if_pos ha, if_neg (by rw [ha]; decide)]
      exact ⟨c, rfl, h, hr, rfl⟩
    · have : 0 < ad.length := List.length_pos_iff.mpr ha
      rw [if_neg ha, if_neg ha, if_pos this]
      obtain ⟨c', e1, e2, e3, e4, e5⟩ := update_eq h (pad48 ad) (pad48_length ad)
      exact ⟨c', e1, e2, e3, e5⟩
  generalize pre s ad = s1 at *
  generalize preKey s k ad = k1 at *
  obtain ⟨c2, g1, g2, g3, g4, g5, g6⟩ := readLoop_eq (out.length / 16) c1 s1 out 0 f2 (by omega)
  rw [Nat.mul_zero, List.take_zero, List.nil_append, Nat.zero_add] at g1
  have hk2 : Ready c2.blockEnc (if out.length / 16 = 0 then k1 else s1.key) := by
    split
    · rename_i h0; rw [g6 h0]; exact f3
    · exact g5 (by omega)
  have henc := hk2.encrypt c2.tmpBlk (by rw [g2.tmp]; decide) (src := c2.v) (by rw [g2.v, be_length])
  rw [g2.v] at henc
  generalize hE : Spec.AES.encrypt (if out.length / 16 = 0 then k1 else s1.key) (be 16 (blocks (out.length / 16) s1).2.v) = E at henc ⊢
  have hEl : E.length = 16 := by rw [← hE]; exact spec_enc_length _ _
  obtain ⟨c3, u1, u2, u3, u4, u5⟩ := update_eq (c := { c2 with tmpBlk := E ++ c2.tmpBlk.drop 16 }) (s := (blocks (out.length / 16) s1).2)
    { key := g2.key, klen := g2.klen, v := g2.v, vlt := g2.vlt, tmp := by simp only; rw [List.length_append, hEl, List.length_drop, g2.tmp], able := g2.able }
    (pad48 ad) (pad48_length ad)
  have hB := blocks_length (out.length / 16) s1
  rw [blocks_key] at u3
  refine ⟨{ c3 with counter := c3.counter + 1 }, ?_,
    { key := u2.key, klen := u2.klen, v := u2.v, vlt := u2.vlt, tmp := u2.tmp, able := u2.able }, u3, by
      rw [show ({ c3 with counter := c3.counter + 1 } : CtrDrbg).strength = c3.strength from rfl, u5]; exact g4.trans f4⟩
  have hL : ((blocks (out.length / 16) s1).1 ++ out.drop (16 * (out.length / 16))).length = out.length := by
    rw [List.length_append, hB, List.length_drop]; omega
  have ho : ((blocks (out.length / 16) s1).1 ++ out.drop (16 * (out.length / 16))).take (out.length / 16 * 16) = (blocks (out.length / 16) s1).1 :=
    List.take_left' (by rw [hB]; omega)
  have ht : (E ++ c2.tmpBlk.drop 16).take (out.length % 16) = E.take (out.length % 16) :=
    List.take_append_of_le_length (by omega)
  rw [readAD]
  simp only [sb_eq]
  rw [f1]
  simp only [Option.bind_eq_bind, Option.bind_some, g1]
  rw [g2.v, henc]
  simp only [Option.bind_some]
  rw [g2.v] at u1
  rw [u1]
  simp only [Option.bind_some, hL, ho, ht]
  congr 3
  rw [List.length_append, hB, List.length_take, hEl]; omega

end Lemmas.DRBG
