import Verif.Lemmas.AESArm
import Verif.Model.AESMem
/-! Overlap of slices and the block methods on memory. -/
namespace Lemmas.AES
open Model Model.AES Model.AES.Xmm

/-- A slice lies in the address space: `ptr + len` does not wrap around. -/
def Fits (s : Slice) : Prop := s.ptr.toNat + s.len ≤ 2 ^ 64

theorem addr_toNat {s : Slice} (h : Fits s) {i : Nat} (hi : i < s.len) : (s.addr i).toNat = s.ptr.toNat + i := by
  unfold Fits at h
  rw [Slice.addr, BitVec.toNat_add, BitVec.toNat_ofNat, Nat.add_mod_mod, Nat.mod_eq_of_lt (by omega)]

theorem addr_eq {x y : Slice} (hx : Fits x) (hy : Fits y) {i j : Nat} (hi : i < x.len) (hj : j < y.len) :
    x.addr i = y.addr j ↔ x.ptr.toNat + i = y.ptr.toNat + j := by
  rw [← addr_toNat hx hi, ← addr_toNat hy hj, BitVec.toNat_inj]

theorem anyOverlap_iff {x y : Slice} (hx : Fits x) (hy : Fits y) :
    anyOverlap x y = true ↔ ∃ i j, i < x.len ∧ j < y.len ∧ x.addr i = y.addr j := by
  simp only [anyOverlap, Bool.and_eq_true, decide_eq_true_eq]
  constructor
  · rintro ⟨⟨⟨h1, h2⟩, h3⟩, h4⟩
    rw [BitVec.le_def, addr_toNat hx h1, addr_toNat hy (by omega)] at h3
    rw [BitVec.le_def, addr_toNat hy h2, addr_toNat hx (by omega)] at h4
    by_cases h : x.ptr.toNat ≤ y.ptr.toNat
    · refine ⟨y.ptr.toNat - x.ptr.toNat, 0, by omega, h2, ?_⟩
      rw [addr_eq hx hy (by omega) h2]; omega
    · refine ⟨0, x.ptr.toNat - y.ptr.toNat, h1, by omega, ?_⟩
      rw [addr_eq hx hy h1 (by omega)]; omega
  · rintro ⟨i, j, hi, hj, h⟩
    rw [addr_eq hx hy hi hj] at h
    refine ⟨⟨⟨by omega, by omega⟩, ?_⟩, ?_⟩
    · rw [BitVec.le_def, addr_toNat hx (by omega), addr_toNat hy (by omega)]; omega
    · rw [BitVec.le_def, addr_toNat hy (by omega), addr_toNat hx (by omega)]; omega

theorem inexactOverlap_iff {x y : Slice} (hx : Fits x) (hy : Fits y) :
    inexactOverlap x y = true ↔ ∃ i j, i < x.len ∧ j < y.len ∧ i ≠ j ∧ x.addr i = y.addr j := by
  rw [inexactOverlap]
  by_cases h : x.len = 0 ∨ y.len = 0 ∨ x.addr 0 = y.addr 0
  · rw [if_pos h]
    refine ⟨fun h => absurd h (by decide), ?_⟩
    rintro ⟨i, j, hi, hj, hne, e⟩
    rcases h with h | h | h
    · omega
    · omega
    · rw [addr_eq hx hy hi hj] at e
      rw [addr_eq hx hy (by omega) (by omega)] at h
      omega
  · rw [if_neg h, anyOverlap_iff hx hy]
    constructor
    · rintro ⟨i, j, hi, hj, e⟩
      refine ⟨i, j, hi, hj, ?_, e⟩
      rintro rfl
      apply h
      right; right
      rw [addr_eq hx hy hi hj] at e
      rw [addr_eq hx hy (by omega) (by omega)]
      omega
    · rintro ⟨i, j, hi, hj, _, e⟩
      exact ⟨i, j, hi, hj, e⟩

/-! ### Writing -/

theorem write_out (bs : List Byte) : ∀ (m : Mem) (a p : W64), (∀ i, i < bs.length → p ≠ a + BitVec.ofNat 64 i) → m.write a bs p = m p := by
  induction bs with
  | nil => intro m a p _; rfl
  | cons b bs ih =>
    intro m a p h
    rw [Mem.write, ih _ _ _ (fun i hi e => h (i + 1) (by rw [List.length_cons]; omega) (by
      rw [e, BitVec.add_assoc, Nat.add_comm i 1, BitVec.ofNat_add]; rfl))]
    have := h 0 (by rw [List.length_cons]; omega)
    rw [show a + BitVec.ofNat 64 0 = a from BitVec.add_zero a] at this
    exact if_neg this

theorem write_in (bs : List Byte) : ∀ (m : Mem) (a : W64) (i : Nat), bs.length ≤ 2 ^ 64 → (h : i < bs.length) →
    m.write a bs (a + BitVec.ofNat 64 i) = bs[i] := by
  induction bs with
  | nil => intro m a i _ h; exact absurd h (by rw [List.length_nil]; omega)
  | cons b bs ih =>
    intro m a i hl h
    rw [List.length_cons] at h hl
    rw [Mem.write]
    cases i with
    | zero =>
      rw [write_out, List.getElem_cons_zero]
      · exact if_pos (BitVec.add_zero a)
      · intro j hj e
        have e1 : a + BitVec.ofNat 64 0 = a + BitVec.ofNat 64 (1 + j) := by
          rw [e, BitVec.add_assoc, BitVec.ofNat_add]; rfl
        rw [BitVec.add_right_inj] at e1
        have e2 := congrArg BitVec.toNat e1
        rw [BitVec.toNat_ofNat, BitVec.toNat_ofNat, Nat.mod_eq_of_lt (by omega : 1 + j < 2 ^ 64)] at e2
        omega
    | succ i =>
      rw [List.getElem_cons_succ, ← ih _ (a + 1) i (by omega) (by omega), BitVec.add_assoc, Nat.add_comm i 1, BitVec.ofNat_add]
      rfl

theorem read_length (m : Mem) (s : Slice) : (m.read s).length = s.len := by
  rw [Mem.read, List.length_map, List.length_range]
theorem read_get (m : Mem) (s : Slice) (i : Nat) (h : i < s.len) : (m.read s)[i]'(by rw [read_length]; exact h) = m (s.addr i) := by
  simp only [Mem.read, List.getElem_map, List.getElem_range]
theorem read_take (m : Mem) (s : Slice) (n : Nat) (h : n ≤ s.len) : (m.read s).take n = m.read (s.upto n) := by
  rw [Mem.read, ← List.map_take, List.take_range, Nat.min_eq_left h]; rfl

/-- What a block method does: `F` is the function of the block. -/
theorem blockMem_spec (f : List Byte → Option (List Byte)) (F : List Byte → List Byte) (hF : ∀ b, (F b).length = 16)
    (hf : ∀ s, 16 ≤ s.length → f s = some (F (s.take 16))) (m : Mem) (dst src : Slice) (hd : Fits dst) (hs : Fits src) :
    (blockMem f m dst src = none ↔ (dst.len < 16 ∨ src.len < 16 ∨ ∃ i j, i < 16 ∧ j < 16 ∧ i ≠ j ∧ dst.addr i = src.addr j)) ∧
    ∀ m', blockMem f m dst src = some m' →
      (∀ i (h : i < 16), m' (dst.addr i) = (F (m.read (src.upto 16)))[i]'(by rw [hF]; exact h)) ∧
      ∀ p, (∀ i, i < 16 → p ≠ dst.addr i) → m' p = m p := by
  rw [blockMem]
  by_cases h1 : src.len < 16
  · rw [if_pos h1]; exact ⟨⟨fun _ => Or.inr (Or.inl h1), fun _ => rfl⟩, fun _ h => by simp at h⟩
  by_cases h2 : dst.len < 16
  · rw [if_neg h1, if_pos h2]; exact ⟨⟨fun _ => Or.inl h2, fun _ => rfl⟩, fun _ h => by simp at h⟩
  rw [if_neg h1, if_neg h2]
  have fd : Fits (dst.upto 16) := by unfold Fits at *; simp only [Slice.upto]; omega
  have fs : Fits (src.upto 16) := by unfold Fits at *; simp only [Slice.upto]; omega
  have ov := inexactOverlap_iff fd fs
  by_cases h3 : inexactOverlap (dst.upto 16) (src.upto 16) = true
  · rw [if_pos h3]
    exact ⟨⟨fun _ => Or.inr (Or.inr (ov.1 h3)), fun _ => rfl⟩, fun _ h => by simp at h⟩
  · rw [if_neg h3, hf _ (by rw [read_length]; omega), read_take _ _ _ (by omega)]
    simp only [Option.bind_eq_bind, Option.bind_some]
    refine ⟨⟨fun h => by simp at h, ?_⟩, ?_⟩
    · rintro (h | h | h)
      · omega
      · omega
      · exact absurd (ov.2 h) h3
    · intro m' e
      rw [Option.some.injEq] at e
      subst e
      refine ⟨?_, ?_⟩
      · intro i hi
        exact write_in _ m dst.ptr i (by rw [hF]; decide) (by rw [hF]; exact hi)
      · intro p hp
        exact write_out _ m dst.ptr p (by rw [hF]; exact hp)

theorem go_block {f g : List Byte → Option (List Byte)} {F : List Byte → List Byte}
    (h : ∀ s, 16 ≤ s.length → g s = some (F (s.take 16) ++ (List.replicate 16 (0 : Byte)).drop 16))
    (hg : ∀ s, 16 ≤ s.length → g s = (f s).map (· ++ (List.replicate 16 (0 : Byte)).drop 16)) (s : List Byte) (hs : 16 ≤ s.length) :
    f s = some (F (s.take 16)) := by
  have e := (hg s hs).symm.trans (h s hs)
  rw [show (List.replicate 16 (0 : Byte)).drop 16 = [] from rfl] at e
  simp only [List.append_nil, Option.map_id'] at e
  exact e

theorem aes_enc_block {c : AES} {key : List Byte} (h : Holds c key) (s : List Byte) (hs : 16 ≤ s.length) :
    encryptBlockGo (c.enc.take (c.keyLen + 28)) s = some (Spec.AES.encrypt key (s.take 16)) := by
  refine go_block (g := fun s => c.encrypt (List.replicate 16 0) s) (fun s hs => encrypt_holds h _ s hs (by decide)) (fun s hs => ?_) s hs
  show c.encrypt _ s = _
  rw [AES.encrypt, if_neg (by rw [List.length_replicate]; omega)]
  cases encryptBlockGo (c.enc.take (c.keyLen + 28)) s <;> rfl
theorem aes_dec_block {c : AES} {key : List Byte} (h : Holds c key) (s : List Byte) (hs : 16 ≤ s.length) :
    decryptBlockGo (c.dec.take (c.keyLen + 28)) s = some (Spec.AES.decrypt key (s.take 16)) := by
  refine go_block (g := fun s => c.decrypt (List.replicate 16 0) s) (fun s hs => decrypt_holds h _ s hs (by decide)) (fun s hs => ?_) s hs
  show c.decrypt _ s = _
  rw [AES.decrypt, if_neg (by rw [List.length_replicate]; omega)]
  cases decryptBlockGo (c.dec.take (c.keyLen + 28)) s <;> rfl

theorem asm_enc_block {c : AESAsm} {key : List Byte} (h : AsmHolds c key) (s : List Byte) (hs : 16 ≤ s.length) :
    (do let s ← load s; let x ← encryptBlockAsm (60 / 4 - 1) c.enc s; some x.bytes) = some (Spec.AES.encrypt key (s.take 16)) := by
  refine go_block (f := fun s => do let s ← load s; let x ← encryptBlockAsm (60 / 4 - 1) c.enc s; some x.bytes)
    (g := fun s => c.encrypt (List.replicate 16 0) s) (fun s hs => asm_encrypt_holds h _ s hs (by decide)) (fun s hs => ?_) s hs
  show c.encrypt _ s = _
  rw [AESAsm.encrypt, if_neg (by rw [List.length_replicate]; omega)]
  simp only [Option.bind_eq_bind]
  cases load s with
  | none => rfl
  | some x => simp only [Option.bind_some]; cases encryptBlockAsm (60 / 4 - 1) c.enc x <;> rfl
theorem asm_dec_block {c : AESAsm} {key : List Byte} (h : AsmHolds c key) (s : List Byte) (hs : 16 ≤ s.length) :
    (do let s ← load s; let x ← decryptBlockAsm (60 / 4 - 1) c.dec s; some x.bytes) = some (Spec.AES.decrypt key (s.take 16)) := by
  refine go_block (f := fun s => do let s ← load s; let x ← decryptBlockAsm (60 / 4 - 1) c.dec s; some x.bytes)
    (g := fun s => c.decrypt (List.replicate 16 0) s) (fun s hs => asm_decrypt_holds h _ s hs (by decide)) (fun s hs => ?_) s hs
  show c.decrypt _ s = _
  rw [AESAsm.decrypt, if_neg (by rw [List.length_replicate]; omega)]
  simp only [Option.bind_eq_bind]
  cases load s with
  | none => rfl
  | some x => simp only [Option.bind_some]; cases decryptBlockAsm (60 / 4 - 1) c.dec x <;> rfl

theorem encMemArm_eq (c : AESAsm) : c.encryptMemArm = c.encryptMem := by
  unfold AESAsm.encryptMemArm AESAsm.encryptMem
  simp only [enc_arm_asm (60 / 4 - 1) (by decide)]
theorem decMemArm_eq (c : AESAsm) : c.decryptMemArm = c.decryptMem := by
  unfold AESAsm.decryptMemArm AESAsm.decryptMem
  simp only [dec_arm_asm (60 / 4 - 1) (by decide)]

end Lemmas.AES
