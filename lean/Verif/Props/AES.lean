import Verif.Lemmas.AESAsm
/-!
Properties of drbg/internal/aes (C20-C23).  Model: `Verif/Model/AES.lean`, `Verif/Model/AESAsm.lean`;
specification: `Verif/Spec/AES.lean` (FIPS 197).
-/
namespace Props.AES
open Model Model.AES Lemmas.AES

/-- The key sizes of FIPS 197. -/
def Legal (key : List Byte) : Prop := key.length = 16 ∨ key.length = 24 ∨ key.length = 32

/-- The portable object, whatever it was used for before, with a key of a legal size enciphers every
block as FIPS 197 says, and touches only the first sixteen bytes of the destination. -/
theorem c20_encrypt (c : AES) (key : List Byte) (hk : Legal key) :
    ∃ c', c.setKey key = some (c', none) ∧
      ∀ dst src : List Byte, 16 ≤ dst.length → 16 ≤ src.length →
        c'.encrypt dst src = some (Spec.AES.encrypt key (src.take 16) ++ dst.drop 16) := by
  obtain ⟨c', h1, h2⟩ := setKey_ok c key hk
  exact ⟨c', h1, fun dst src hd hs => encrypt_holds h2 dst src hs hd⟩

/-- Buffers shorter than a block panic; nothing is written. -/
theorem c20_short (c : AES) (dst src : List Byte) (h : dst.length < 16 ∨ src.length < 16) :
    c.encrypt dst src = none ∧ c.decrypt dst src = none := by
  rw [AES.encrypt, AES.decrypt, if_pos h.symm, if_pos h.symm]; exact ⟨rfl, rfl⟩

theorem spec_of_run {key block out : List Byte} (hk : Legal key) (hb : block.length = 16)
    (h : (AES.new.setKey key).bind (fun (c, _) => c.encrypt (List.replicate 16 0) block) = some out) :
    Spec.AES.encrypt key block = out := by
  obtain ⟨c', h1, h2⟩ := c20_encrypt AES.new key hk
  rw [h1] at h
  have h : c'.encrypt (List.replicate 16 0) block = some out := h
  rw [h2 _ _ (by decide) (by omega), Option.some.injEq, List.take_of_length_le (by omega)] at h
  rw [← h]
  exact (List.append_nil _).symm

/-- The specification gives the example of FIPS 197 appendix C.1 … -/
example : Spec.AES.encrypt [0x00, 0x01, 0x02, 0x03, 0x04, 0x05, 0x06, 0x07, 0x08, 0x09, 0x0a, 0x0b, 0x0c, 0x0d, 0x0e, 0x0f]
    [0x00, 0x11, 0x22, 0x33, 0x44, 0x55, 0x66, 0x77, 0x88, 0x99, 0xaa, 0xbb, 0xcc, 0xdd, 0xee, 0xff] =
    [0x69, 0xc4, 0xe0, 0xd8, 0x6a, 0x7b, 0x04, 0x30, 0xd8, 0xcd, 0xb7, 0x80, 0x70, 0xb4, 0xc5, 0x5a] :=
  spec_of_run (Or.inl rfl) rfl (by decide +kernel)
/-- … and of C.3. -/
example : Spec.AES.encrypt [0x00, 0x01, 0x02, 0x03, 0x04, 0x05, 0x06, 0x07, 0x08, 0x09, 0x0a, 0x0b, 0x0c, 0x0d, 0x0e, 0x0f,
    0x10, 0x11, 0x12, 0x13, 0x14, 0x15, 0x16, 0x17, 0x18, 0x19, 0x1a, 0x1b, 0x1c, 0x1d, 0x1e, 0x1f]
    [0x00, 0x11, 0x22, 0x33, 0x44, 0x55, 0x66, 0x77, 0x88, 0x99, 0xaa, 0xbb, 0xcc, 0xdd, 0xee, 0xff] =
    [0x8e, 0xa2, 0xb7, 0xca, 0x51, 0x67, 0x45, 0xbf, 0xea, 0xfc, 0x49, 0x90, 0x4b, 0x49, 0x60, 0x89] :=
  spec_of_run (Or.inr (Or.inr rfl)) rfl (by decide +kernel)

/-! ### C21 -/

/-- Decrypting what was encrypted gives the block back, and the other way round. -/
theorem c21_inverse (c : AES) (key : List Byte) (hk : Legal key) :
    ∃ c', c.setKey key = some (c', none) ∧
      ∀ b dst dst' : List Byte, b.length = 16 → dst.length = 16 → dst'.length = 16 →
        (c'.encrypt dst b).bind (fun e => c'.decrypt dst' e) = some b ∧
        (c'.decrypt dst b).bind (fun e => c'.encrypt dst' e) = some b := by
  obtain ⟨c', h1, h2⟩ := setKey_ok c key hk
  refine ⟨c', h1, ?_⟩
  intro b dst dst' hb hd hd'
  rw [encrypt_holds h2 dst b (by omega) (by omega), decrypt_holds h2 dst b (by omega) (by omega)]
  simp only [Option.bind_some]
  rw [List.take_of_length_le (by omega), List.drop_of_length_le (by omega), List.append_nil, List.append_nil,
    decrypt_holds h2 dst' _ (by rw [spec_enc_length]; omega) (by omega), encrypt_holds h2 dst' _ (by rw [spec_dec_length]; omega) (by omega),
    List.drop_of_length_le (by omega), List.append_nil, List.append_nil, List.take_of_length_le (by rw [spec_enc_length]; omega),
    List.take_of_length_le (by rw [spec_dec_length]; omega), spec_dec_enc _ _ hb, spec_enc_dec _ _ hb]
  exact ⟨rfl, rfl⟩

/-- Decryption is the inverse cipher of FIPS 197. -/
theorem c21_decrypt (c : AES) (key : List Byte) (hk : Legal key) :
    ∃ c', c.setKey key = some (c', none) ∧
      ∀ dst src : List Byte, 16 ≤ dst.length → 16 ≤ src.length →
        c'.decrypt dst src = some (Spec.AES.decrypt key (src.take 16) ++ dst.drop 16) := by
  obtain ⟨c', h1, h2⟩ := setKey_ok c key hk
  exact ⟨c', h1, fun dst src hd hs => decrypt_holds h2 dst src hs hd⟩

example : Legal (List.replicate 24 (0x5a : Byte)) := Or.inr (Or.inl rfl)

/-! ### C22 -/

/-- A history of SetKey calls: the object and the errors returned. -/
def setKeys (c : AES) : List (List Byte) → Option (AES × List (Option Nat))
  | [] => some (c, [])
  | k :: ks => do
    let (c, e) ← c.setKey k
    let (c, es) ← setKeys c ks
    some (c, e :: es)

instance (key : List Byte) : Decidable (Legal key) := inferInstanceAs (Decidable (_ ∨ _))

/-- The last key of a legal size. -/
def lastLegal : List (List Byte) → Option (List Byte)
  | [] => none
  | k :: ks => (lastLegal ks).or (if Legal k then some k else none)

/-- After any history of SetKey calls: exactly the keys of other sizes were refused, with an error that
carries the length, and the object enciphers and deciphers under the last accepted key.  (Without an
accepted key nothing is claimed about it.) -/
theorem c22_history (ks : List (List Byte)) (c : AES) :
    ∃ c', setKeys c ks = some (c', ks.map fun k => if Legal k then none else some k.length) ∧
      (lastLegal ks = none → c' = c) ∧
      ∀ key, lastLegal ks = some key → ∀ dst src : List Byte, 16 ≤ dst.length → 16 ≤ src.length →
        c'.encrypt dst src = some (Spec.AES.encrypt key (src.take 16) ++ dst.drop 16) ∧
        c'.decrypt dst src = some (Spec.AES.decrypt key (src.take 16) ++ dst.drop 16) := by
  suffices H : ∀ (ks : List (List Byte)) (c : AES),
      ∃ c', setKeys c ks = some (c', ks.map fun k => if Legal k then none else some k.length) ∧
        (lastLegal ks = none → c' = c) ∧ ∀ key, lastLegal ks = some key → Holds c' key by
    obtain ⟨c', h1, h2, h3⟩ := H ks c
    exact ⟨c', h1, h2, fun key hk dst src hd hs => ⟨encrypt_holds (h3 key hk) dst src hs hd, decrypt_holds (h3 key hk) dst src hs hd⟩⟩
  intro ks
  induction ks with
  | nil => intro c; exact ⟨c, rfl, fun _ => rfl, fun _ h => by simp [lastLegal] at h⟩
  | cons k ks ih =>
    intro c
    by_cases hl : Legal k
    · obtain ⟨c1, a1, a2⟩ := setKey_ok c k hl
      obtain ⟨c', b1, b2, b3⟩ := ih c1
      refine ⟨c', ?_, ?_, ?_⟩
      · rw [setKeys, a1]; simp only [Option.bind_eq_bind, Option.bind_some, b1, List.map_cons, if_pos hl]
      · intro h; rw [lastLegal, if_pos hl, Option.or_eq_none_iff] at h; simp at h
      · intro key h
        rw [lastLegal, if_pos hl] at h
        cases hks : lastLegal ks with
        | none => rw [hks] at h; simp only [Option.none_or, Option.some.injEq] at h; rw [b2 hks, ← h]; exact a2
        | some x => rw [hks] at h; simp only [Option.some_or] at h; exact b3 key (hks.trans h)
    · obtain ⟨c', b1, b2, b3⟩ := ih c
      refine ⟨c', ?_, ?_, ?_⟩
      · rw [setKeys, setKey_bad c k hl]; simp only [Option.bind_eq_bind, Option.bind_some, b1, List.map_cons, if_neg hl]
      · intro h; rw [lastLegal, if_neg hl, Option.or_none] at h; exact b2 h
      · intro key h; rw [lastLegal, if_neg hl, Option.or_none] at h; exact b3 key h

example : lastLegal [List.replicate 32 1, [], List.replicate 16 2, List.replicate 31 3] = some (List.replicate 16 2) := by decide

/-! ### C23 -/

/-- What the hardware object must do: with any key the portable object accepts, both compute the same. -/
def HardwareAgrees (key : List Byte) : Prop :=
  ∀ (c : AESAsm) (s : AES), AsmWf c → ∃ c' s', c.setKey key = some c' ∧ s.setKey key = some (s', none) ∧
    ∀ dst src : List Byte, 16 ≤ dst.length → 16 ≤ src.length →
      c'.encrypt dst src = s'.encrypt dst src ∧ c'.decrypt dst src = s'.decrypt dst src

/-- The hardware object has this shape at creation and after every SetKey with a legal key. -/
theorem c23_wf : AsmWf AESAsm.new ∧ ∀ (c : AESAsm) (key : List Byte), AsmWf c → Legal key → ∃ c', c.setKey key = some c' ∧ AsmWf c' := by
  refine ⟨asm_new_wf, ?_⟩
  intro c key hc hk
  rcases hk with hk | hk | hk
  · exact ⟨_, asm_setKey c hc key 4 hk (by decide)⟩
  · exact ⟨_, asm_setKey c hc key 6 hk (by decide)⟩
  · exact ⟨_, asm_setKey c hc key 8 hk (by decide)⟩

/-- The part of C23 that holds: 32-byte keys (the only ones the DRBG uses).  Missing: 16 and 24 bytes,
for which the claim is false, see `c23_full_false`. -/
theorem c23_agree_partial (key : List Byte) (hk : key.length = 32) : HardwareAgrees key := by
  intro c s hc
  obtain ⟨c', h1, h2⟩ := asm_setKey32 c hc key hk
  obtain ⟨s', g1, g2⟩ := setKey_ok s key (Or.inr (Or.inr hk))
  refine ⟨c', s', h1, g1, ?_⟩
  intro dst src hd hs
  rw [asm_encrypt_holds h2 dst src hs hd, encrypt_holds g2 dst src hs hd, asm_decrypt_holds h2 dst src hs hd, decrypt_holds g2 dst src hs hd]
  exact ⟨rfl, rfl⟩

/-- The assembly routines themselves are right for all three key sizes: it is the Go wrapper that passes
them the wrong number of rounds. -/
theorem c23_routines (key : List Byte) (nk : Nat) (hk : key.length = 4 * nk) (hnk : nk = 4 ∨ nk = 6 ∨ nk = 8)
    (src : List Byte) (hs : src.length = 16) :
    ∃ e d, expandKeyAsm (nk + 6) key (List.replicate 15 Xmm.zero) (List.replicate 15 Xmm.zero) = some (e, d) ∧
      ((do let s ← Xmm.load src; let x ← encryptBlockAsm (nk + 6) (e.take (nk + 7)) s; some x.bytes) = some (Spec.AES.encrypt key src)) ∧
      ((do let s ← Xmm.load src; let x ← decryptBlockAsm (nk + 6) (d.take (nk + 7)) s; some x.bytes) = some (Spec.AES.decrypt key src)) :=
  asm_routines key nk hk hnk src hs

theorem sched_unique {a b : List W32} {f : Nat → Spec.AES.Word} {nr : Nat} (ha : Sched a f nr) (hb : Sched b f nr) : a = b := by
  apply List.ext_getElem?
  intro i
  rcases Nat.lt_or_ge i (4 * (nr + 1)) with h | h
  · rw [ha.2 i h, hb.2 i h]
  · rw [List.getElem?_eq_none (by rw [ha.1]; exact h), List.getElem?_eq_none (by rw [hb.1]; exact h)]

theorem words_append (a b : List Xmm) : words (a ++ b) = words a ++ words b := List.flatMap_append

/-- With a 16-byte key the hardware object runs fourteen rounds over the schedule and zero words. -/
theorem asm16 (key src : List Byte) (hk : key.length = 16) (hs : src.length = 16) :
    ∃ c', AESAsm.new.setKey key = some c' ∧ c'.encrypt (List.replicate 16 0) src =
      (expandKeyGo key 44).bind fun (e, _) => encryptBlockGo (e ++ List.replicate 16 0) src := by
  obtain ⟨h1, h2⟩ := asm_setKey AESAsm.new asm_new_wf key 4 hk (by decide)
  obtain ⟨e, d, e1, e2, e3⟩ := expandKey_eq key 4 hk (by decide)
  refine ⟨_, h1, ?_⟩
  rw [encrypt_asm_go _ h2.1 _ _ (by omega) (by decide), show 44 = 4 * 4 + 28 from rfl, e1]
  have : words (asmAfter AESAsm.new key 4).enc = e ++ List.replicate 16 0 := by
    simp only [asmAfter]
    rw [words_append, sched_unique (sched_blks key 4 (4 + 6)) e2]
    congr 1
  rw [this]
  simp only [Option.bind_some]
  cases encryptBlockGo (e ++ List.replicate 16 0) src with
  | none => rfl
  | some x =>
    rw [Option.map_some, List.drop_of_length_le (by decide), List.append_nil]

/-- C23 is false: for this 16-byte key the two objects give different ciphertexts. -/
theorem c23_full_false : ∃ key : List Byte, Legal key ∧ ¬ HardwareAgrees key := by
  refine ⟨List.replicate 16 0, Or.inl rfl, ?_⟩
  intro h
  obtain ⟨c', s', h1, h2, h3⟩ := h AESAsm.new AES.new asm_new_wf
  obtain ⟨c'', g1, g2⟩ := asm16 (List.replicate 16 0) (List.replicate 16 0) rfl rfl
  rw [h1, Option.some.injEq] at g1
  rw [← g1, (h3 _ _ (by decide) (by decide)).1] at g2
  have h4 : (AES.new.setKey (List.replicate 16 0)).bind (fun (s, _) => s.encrypt (List.replicate 16 0) (List.replicate 16 0)) =
      (expandKeyGo (List.replicate 16 0) 44).bind fun (e, _) => encryptBlockGo (e ++ List.replicate 16 0) (List.replicate 16 0) := by
    rw [h2]; exact g2
  exact absurd h4 (by decide +kernel)

/-- For a key of another size the hardware object has no error to return: `SetKey` crashes. -/
theorem c23_illegal (c : AESAsm) (key : List Byte) (h : ¬ Legal key) : c.setKey key = none := by
  have h' : ¬ key.length = 16 ∧ ¬ key.length = 24 ∧ ¬ key.length = 32 := by
    simp only [Legal] at h; omega
  rw [AESAsm.setKey, if_neg h'.1, if_neg h'.2.1, if_neg h'.2.2, expandKeyAsm]
  cases expandEncAsm 0 key with
  | none => rfl
  | some e =>
    simp only [Option.bind_eq_bind, Option.bind_some]
    cases storeBlocks c.enc e with
    | none => rfl
    | some m =>
      simp only [Option.bind_some]
      cases m[e.length - 1]? with
      | none => rfl
      | some l => rfl

end Props.AES
