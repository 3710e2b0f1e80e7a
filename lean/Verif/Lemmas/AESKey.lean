import Verif.Lemmas.AESCipher
/-! Key expansion of the portable cipher, and its object. -/
namespace Lemmas.AES
open Model Model.AES
open Spec.AES hiding Byte

theorem subw_eq (x : W32) : subw x = subWord x := by
  simp only [subw, pack_eq, sbox0_eq, b3_eq, b2_eq, b1_eq, b0_eq, subWord]

theorem rotw_eq (x : W32) : rotw x = rotWord x := by
  apply word_ext
  apply fin4 <;> simp only [rotWord, mk0, mk1, mk2, mk3] <;> apply BitVec.eq_of_getLsbD_eq <;> intro i hi <;>
    simp only [rotw, wordByte, BitVec.getLsbD_extractLsb', BitVec.getLsbD_or, BitVec.getLsbD_shiftLeft,
      BitVec.getLsbD_ushiftRight, hi, decide_true, Bool.true_and]
  · have h1 : ¬ 24 - 8 * (0 : Fin 4).val + i < 8 := by show ¬ 24 - 8 * 0 + i < 8; omega
    have h2 : 24 - 8 * (0 : Fin 4).val + i < 32 := by show 24 - 8 * 0 + i < 32; omega
    have h3 : 24 - 8 * (0 : Fin 4).val + i - 8 = 24 - 8 * (1 : Fin 4).val + i := by
      show 24 - 8 * 0 + i - 8 = 24 - 8 * 1 + i; omega
    have h4 : x.getLsbD (24 + (24 - 8 * (0 : Fin 4).val + i)) = false := BitVec.getLsbD_of_ge _ _ (by
      show 32 ≤ 24 + (24 - 8 * 0 + i); omega)
    rw [h4, h3, decide_eq_false h1, decide_eq_true h2]; simp
  · have h1 : ¬ 24 - 8 * (1 : Fin 4).val + i < 8 := by show ¬ 24 - 8 * 1 + i < 8; omega
    have h2 : 24 - 8 * (1 : Fin 4).val + i < 32 := by show 24 - 8 * 1 + i < 32; omega
    have h3 : 24 - 8 * (1 : Fin 4).val + i - 8 = 24 - 8 * (2 : Fin 4).val + i := by
      show 24 - 8 * 1 + i - 8 = 24 - 8 * 2 + i; omega
    have h4 : x.getLsbD (24 + (24 - 8 * (1 : Fin 4).val + i)) = false := BitVec.getLsbD_of_ge _ _ (by
      show 32 ≤ 24 + (24 - 8 * 1 + i); omega)
    rw [h4, h3, decide_eq_false h1, decide_eq_true h2]; simp
  · have h1 : ¬ 24 - 8 * (2 : Fin 4).val + i < 8 := by show ¬ 24 - 8 * 2 + i < 8; omega
    have h2 : 24 - 8 * (2 : Fin 4).val + i < 32 := by show 24 - 8 * 2 + i < 32; omega
    have h3 : 24 - 8 * (2 : Fin 4).val + i - 8 = 24 - 8 * (3 : Fin 4).val + i := by
      show 24 - 8 * 2 + i - 8 = 24 - 8 * 3 + i; omega
    have h4 : x.getLsbD (24 + (24 - 8 * (2 : Fin 4).val + i)) = false := BitVec.getLsbD_of_ge _ _ (by
      show 32 ≤ 24 + (24 - 8 * 2 + i); omega)
    rw [h4, h3, decide_eq_false h1, decide_eq_true h2]; simp
  · have h1 : 24 - 8 * (3 : Fin 4).val + i < 8 := by show 24 - 8 * 3 + i < 8; omega
    have h3 : 24 + (24 - 8 * (3 : Fin 4).val + i) = 24 - 8 * (0 : Fin 4).val + i := by
      show 24 + (24 - 8 * 3 + i) = 24 - 8 * 0 + i; omega
    rw [h3, decide_eq_true h1]; simp

theorem rcon_eq (b : Byte) : b.setWidth 32 <<< 24 = mkWord b 0 0 0 := by
  rw [← pack_eq, pack]; simp

theorem beUint32_eq (key : List Byte) (i : Nat) (h : 4 * i + 4 ≤ key.length) :
    beUint32 (key.drop (4 * i)) = some (keyWord key i) := by
  have hl : 4 ≤ (key.drop (4 * i)).length := by rw [List.length_drop]; omega
  have hd : ∀ t, (key.drop (4 * i)).getD t 0 = key.getD (4 * i + t) 0 := by
    intro t
    rw [List.getD_eq_getElem?_getD, List.getD_eq_getElem?_getD, List.getElem?_drop]
  rw [keyWord, ← Nat.add_zero (4 * i), ← hd 0, Nat.add_zero, ← hd 1, ← hd 2, ← hd 3]
  match key.drop (4 * i), hl with
  | a :: b :: c :: d :: r, _ => rw [beUint32, pack_eq]; rfl

/-- The first `i` words of `enc` are those of the schedule. -/
def Filled (enc : List W32) (f : Nat → Word) (n i : Nat) : Prop :=
  enc.length = n ∧ ∀ j, j < i → enc[j]? = some (f j)

theorem Filled.set {enc : List W32} {f : Nat → Word} {n i : Nat} (h : Filled enc f n i) (hi : i < n) :
    Filled (enc.set i (f i)) f n (i + 1) := by
  refine ⟨by rw [List.length_set, h.1], ?_⟩
  intro j hj
  rw [List.getElem?_set]
  by_cases e : i = j
  · subst e; rw [if_pos rfl, if_pos (by rw [h.1]; exact hi)]
  · rw [if_neg e]; exact h.2 j (by omega)

theorem loadKey_eq (key : List Byte) (nk n : Nat) (m : Nat) : ∀ (i : Nat) (enc : List W32), i + m = nk → nk ≤ n →
    4 * nk ≤ key.length → 0 < nk → Filled enc (w key nk) n i → ∃ e, loadKey key enc i m = some e ∧ Filled e (w key nk) n nk := by
  induction m with
  | zero => intro i enc h _ _ _ hf; exact ⟨enc, rfl, by rwa [show i = _ from h] at hf⟩
  | succ m ih =>
    intro i enc h hn hk h0 hf
    have hw : w key nk i = keyWord key i := by rw [w, dif_pos (by omega)]
    obtain ⟨e, e1, e2⟩ := ih (i + 1) (enc.set i (w key nk i)) (by omega) hn hk h0 (hf.set (by omega))
    refine ⟨e, ?_, e2⟩
    rw [loadKey, beUint32_eq key i (by omega)]
    simp only [Option.bind_eq_bind, Option.bind_some]
    rw [if_pos (by rw [hf.1]; omega), ← hw, e1]

theorem expandLoop_eq (key : List Byte) (nk n : Nat) (m : Nat) : ∀ (i : Nat) (enc : List W32), i + m = n → nk ≤ i →
    0 < nk → n ≤ nk * 11 → Filled enc (w key nk) n i →
    ∃ e, expandLoop nk enc i m = some e ∧ Filled e (w key nk) n n := by
  induction m with
  | zero => intro i enc h _ _ _ hf; exact ⟨enc, rfl, by rwa [show i = _ from h] at hf⟩
  | succ m ih =>
    intro i enc h hn h0 hmax hf
    obtain ⟨e, e1, e2⟩ := ih (i + 1) (enc.set i (w key nk i)) (by omega) (by omega) h0 hmax (hf.set (by omega))
    refine ⟨e, ?_, e2⟩
    have hw := w.eq_def key nk i
    rw [dif_neg (by omega)] at hw
    rw [expandLoop, hf.2 (i - 1) (by omega)]
    simp only [Option.bind_eq_bind, Option.bind_some]
    have ht : expandTemp nk i (w key nk (i - 1)) =
        some (if i % nk = 0 then subWord (rotWord (w key nk (i - 1))) ^^^ rcon (i / nk)
        else if nk > 6 ∧ i % nk = 4 then subWord (w key nk (i - 1)) else w key nk (i - 1)) := by
      rw [expandTemp]
      by_cases h1 : i % nk = 0
      · rw [if_pos h1, if_pos h1]
        have hq1 : 1 ≤ i / nk := by rw [Nat.le_div_iff_mul_le h0]; omega
        have hq2 : i / nk < 11 := by rw [Nat.div_lt_iff_lt_mul h0, Nat.mul_comm]; omega
        have hp := powx_eq ⟨i / nk - 1, by omega⟩
        simp only at hp
        rw [hp, show i / nk - 1 + 1 = i / nk by omega, Option.map_some, subw_eq, rotw_eq, rcon_eq, rcon]
      · rw [if_neg h1, if_neg h1]
        by_cases h2 : 6 < nk ∧ i % nk = 4
        · rw [if_pos h2, if_pos h2, subw_eq]
        · rw [if_neg h2, if_neg h2]
    rw [ht]
    simp only [Option.bind_some]
    rw [hf.2 (i - nk) (by omega)]
    simp only [Option.bind_some]
    rw [if_pos (by rw [hf.1]; omega)]
    simp only [] at hw
    rw [← hw, e1]

theorem imc_eq (x : W32) (r : Fin 4) : wordByte (imc x) r =
    mul 0xe (wordByte x r) ^^^ mul 0xb (wordByte x (r + 1)) ^^^ mul 0xd (wordByte x (r + 2)) ^^^ mul 0x9 (wordByte x (r + 3)) := by
  revert r
  simp only [imc, td0_eq, td1_eq, td2_eq, td3_eq, sbox0_eq, invSbox_sbox, b3_eq, b2_eq, b1_eq, b0_eq]
  apply fin4 <;> simp only [wordByte_xor, mk0, mk1, mk2, mk3, fadd] <;> ac_rfl

theorem decKey_eq {enc : List W32} {f : Nat → Word} {nr q : Nat} (h : Sched enc f nr) (hq : q ≤ nr) :
    ∃ k : Quad, decKey enc (nr + 1) q = some [k.s0, k.s1, k.s2, k.s3] ∧
      st k = (if 0 < q ∧ q < nr then invMixColumns else id) (fun r c => wordByte (f (4 * (nr - q) + c.val)) r) := by
  obtain ⟨k, k1, k2⟩ := keyQuad_eq h (j := nr - q) (by omega)
  rw [decKey, show nr + 1 - q - 1 = nr - q by omega, k1]
  simp only [Option.bind_eq_bind, Option.bind_some]
  by_cases hc : 0 < q ∧ q < nr
  · rw [if_pos (by omega), if_pos hc]
    refine ⟨⟨imc k.s0, imc k.s1, imc k.s2, imc k.s3⟩, rfl, ?_⟩
    have : (fun (r c : Fin 4) => wordByte (f (4 * (nr - q) + c.val)) r) = st k := by funext r c; rw [k2]
    rw [this]
    funext r c
    revert c
    apply fin4 <;> exact imc_eq _ r
  · rw [if_neg (by omega), if_neg hc]
    exact ⟨k, rfl, by funext r c; exact k2 r c⟩

theorem flatten4_get (g : Nat → List W32) (n : Nat) (hg : ∀ i, i < n → (g i).length = 4) :
    ((List.range n).map g).flatten.length = 4 * n ∧
    ∀ q t, q < n → t < 4 → ((List.range n).map g).flatten[4 * q + t]? = (g q)[t]? := by
  induction n with
  | zero => exact ⟨rfl, fun q t h => absurd h (Nat.not_lt_zero _)⟩
  | succ n ih =>
    obtain ⟨h1, h2⟩ := ih (fun i hi => hg i (by omega))
    rw [List.range_succ, List.map_append, List.flatten_append]
    simp only [List.map_cons, List.map_nil, List.flatten_cons, List.flatten_nil, List.append_nil]
    refine ⟨by rw [List.length_append, h1, hg n (by omega)]; omega, ?_⟩
    intro q t hq ht
    rcases Nat.lt_or_ge q n with h | h
    · rw [List.getElem?_append_left (by omega), h2 q t h ht]
    · rw [List.getElem?_append_right (by omega), h1, show q = n by omega, show 4 * n + t - 4 * n = t by omega]

theorem mapM_some {α β : Type} {f : α → Option β} {g : α → β} (l : List α) (h : ∀ x ∈ l, f x = some (g x)) :
    l.mapM f = some (l.map g) := by
  induction l with
  | nil => rfl
  | cons a l ih =>
    rw [List.mapM_cons, h a (by simp), ih (fun x hx => h x (by simp [hx]))]; rfl

theorem expandKey_eq (key : List Byte) (nk : Nat) (hk : key.length = 4 * nk) (hnk : nk = 4 ∨ nk = 6 ∨ nk = 8) :
    ∃ e d, expandKeyGo key (4 * nk + 28) = some (e, d) ∧ Sched e (w key nk) (nk + 6) ∧ DecSched d (w key nk) (nk + 6) := by
  have h4 : key.length / 4 = nk := by omega
  obtain ⟨e0, a1, a2⟩ := loadKey_eq key nk (4 * nk + 28) nk 0 (List.replicate (4 * nk + 28) 0) (by omega) (by omega)
    (by omega) (by omega) ⟨List.length_replicate, fun j h => absurd h (Nat.not_lt_zero _)⟩
  obtain ⟨e, b1, b2⟩ := expandLoop_eq key nk (4 * nk + 28) (4 * nk + 28 - nk) nk e0 (by omega) (by omega) (by omega) (by omega) a2
  have hs : Sched e (w key nk) (nk + 6) := ⟨by rw [b2.1]; omega, fun i hi => b2.2 i (by omega)⟩
  have hd : ∀ q, ∃ k : Quad, q ≤ nk + 6 → decKey e (nk + 6 + 1) q = some [k.s0, k.s1, k.s2, k.s3] ∧
      st k = (if 0 < q ∧ q < nk + 6 then invMixColumns else id) (fun r c => wordByte (w key nk (4 * (nk + 6 - q) + c.val)) r) := by
    intro q
    by_cases hq : q ≤ nk + 6
    · obtain ⟨k, h1, h2⟩ := decKey_eq hs hq
      exact ⟨k, fun _ => ⟨h1, h2⟩⟩
    · exact ⟨⟨0, 0, 0, 0⟩, fun h => absurd h hq⟩
  let k := fun q => Classical.choose (hd q)
  have hk' : ∀ q, q ≤ nk + 6 → _ := fun q => Classical.choose_spec (hd q)
  let g := fun q => [(k q).s0, (k q).s1, (k q).s2, (k q).s3]
  have hm : (List.range (nk + 6 + 1)).mapM (decKey e (nk + 6 + 1)) = some ((List.range (nk + 6 + 1)).map g) :=
    mapM_some _ (fun q hq => (hk' q (by rw [List.mem_range] at hq; omega)).1)
  obtain ⟨f1, f2⟩ := flatten4_get g (nk + 6 + 1) (fun i _ => rfl)
  refine ⟨e, ((List.range (nk + 6 + 1)).map g).flatten, ?_, hs, ?_⟩
  · rw [expandKeyGo]
    simp only [Option.bind_eq_bind, h4, a1, b1, Option.bind_some, show (4 * nk + 28) / 4 = nk + 6 + 1 by omega, hm]
  · refine ⟨f1, fun q hq => ⟨k q, ?_, (hk' q hq).2⟩⟩
    have := f2 q
    rw [keyQuad, show (4 * q) = 4 * q + 0 from rfl, f2 q 0 (by omega) (by omega), f2 q 1 (by omega) (by omega),
      f2 q 2 (by omega) (by omega), f2 q 3 (by omega) (by omega)]
    rfl

/-- The object holds key `key`. -/
def Holds (c : AES) (key : List Byte) : Prop :=
  ∃ nk, key.length = 4 * nk ∧ (nk = 4 ∨ nk = 6 ∨ nk = 8) ∧ c.keyLen = 4 * nk ∧
    Sched (c.enc.take (c.keyLen + 28)) (w key nk) (nk + 6) ∧ DecSched (c.dec.take (c.keyLen + 28)) (w key nk) (nk + 6)

theorem setKey_ok (c : AES) (key : List Byte) (h : key.length = 16 ∨ key.length = 24 ∨ key.length = 32) :
    ∃ c', c.setKey key = some (c', none) ∧ Holds c' key := by
  obtain ⟨nk, h1, h2⟩ : ∃ nk, key.length = 4 * nk ∧ (nk = 4 ∨ nk = 6 ∨ nk = 8) := by
    rcases h with h | h | h
    · exact ⟨4, h, by decide⟩
    · exact ⟨6, h, by decide⟩
    · exact ⟨8, h, by decide⟩
  obtain ⟨e, d, e1, e2, e3⟩ := expandKey_eq key nk h1 h2
  rw [AES.setKey, if_pos h, h1, e1]
  simp only [Option.bind_eq_bind, Option.bind_some]
  refine ⟨_, rfl, nk, h1, h2, rfl, ?_, ?_⟩
  · simp only; rw [List.take_left' (by rw [e2.1]; omega)]; exact e2
  · simp only; rw [List.take_left' (by rw [e3.1]; omega)]; exact e3

theorem setKey_bad (c : AES) (key : List Byte) (h : ¬(key.length = 16 ∨ key.length = 24 ∨ key.length = 32)) :
    c.setKey key = some (c, some key.length) := by
  rw [AES.setKey, if_neg h]

theorem encrypt_holds {c : AES} {key : List Byte} (h : Holds c key) (dst src : List Byte) (hs : 16 ≤ src.length) (hd : 16 ≤ dst.length) :
    c.encrypt dst src = some (Spec.AES.encrypt key (src.take 16) ++ dst.drop 16) := by
  obtain ⟨nk, h1, h2, h3, h4, h5⟩ := h
  rw [AES.encrypt, if_neg (by omega), encrypt_sched h4 (by omega) src hs, Spec.AES.encrypt, toState_take, h1,
    show 4 * nk / 4 = nk by omega]; rfl

theorem decrypt_holds {c : AES} {key : List Byte} (h : Holds c key) (dst src : List Byte) (hs : 16 ≤ src.length) (hd : 16 ≤ dst.length) :
    c.decrypt dst src = some (Spec.AES.decrypt key (src.take 16) ++ dst.drop 16) := by
  obtain ⟨nk, h1, h2, h3, h4, h5⟩ := h
  rw [AES.decrypt, if_neg (by omega), decrypt_sched h5 (by omega) src hs, Spec.AES.decrypt, toState_take, h1,
    show 4 * nk / 4 = nk by omega]; rfl

theorem spec_dec_enc (key b : List Byte) (h : b.length = 16) : Spec.AES.decrypt key (Spec.AES.encrypt key b) = b := by
  rw [Spec.AES.decrypt, Spec.AES.encrypt, toState_ofState, invCipher_cipher, ofState_toState b h]

theorem spec_enc_dec (key b : List Byte) (h : b.length = 16) : Spec.AES.encrypt key (Spec.AES.decrypt key b) = b := by
  rw [Spec.AES.decrypt, Spec.AES.encrypt, toState_ofState, cipher_invCipher, ofState_toState b h]

theorem spec_enc_length (key b : List Byte) : (Spec.AES.encrypt key b).length = 16 := rfl
theorem spec_dec_length (key b : List Byte) : (Spec.AES.decrypt key b).length = 16 := rfl

end Lemmas.AES
