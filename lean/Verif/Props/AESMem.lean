import Verif.Lemmas.AESMem
import Verif.Props.AES
/-!
Overlapping buffers (C93) and the arm64 assembly (C94) of drbg/internal/aes.  Models: `Verif/Model/AESMem.lean`,
`Verif/Model/AESArm.lean`; specification: `Verif/Spec/AES.lean` (FIPS 197).
-/
namespace Props.AESMem
open Model Model.AES Lemmas.AES Props.AES

/-! ### C93 -/

/-- `AnyOverlap`: the slices have a byte in common. -/
theorem c93_any {x y : Slice} (hx : Fits x) (hy : Fits y) :
    anyOverlap x y = true ↔ ∃ i j, i < x.len ∧ j < y.len ∧ x.addr i = y.addr j := anyOverlap_iff hx hy

/-- `InexactOverlap`: a byte is in both slices, at different indices. -/
theorem c93_inexact {x y : Slice} (hx : Fits x) (hy : Fits y) :
    inexactOverlap x y = true ↔ ∃ i j, i < x.len ∧ j < y.len ∧ i ≠ j ∧ x.addr i = y.addr j := inexactOverlap_iff hx hy

/-- Slices at the very end of the address space meet the hypothesis. -/
example : Fits ⟨0xfffffffffffffff0, 16⟩ ∧ Fits ⟨0xffffffffffffffff, 1⟩ := by constructor <;> (unfold Fits; decide)
example : anyOverlap ⟨0xfffffffffffffff0, 16⟩ ⟨0xffffffffffffffff, 1⟩ = true ∧ inexactOverlap ⟨0x1000, 16⟩ ⟨0x1000, 8⟩ = false ∧
    inexactOverlap ⟨0x1000, 16⟩ ⟨0x100f, 8⟩ = true ∧ anyOverlap ⟨0x1000, 16⟩ ⟨0x1010, 16⟩ = false := by decide

/-- What `Encrypt` and `Decrypt` must do on memory, for the function `F` of a block: a panic exactly if a buffer is shorter than a block or
the two blocks share a byte at different indices; otherwise the destination block holds `F` of what the source block held
before the call, and no other byte changes. -/
def BlockMethod (meth : Mem → Slice → Slice → Option Mem) (F : List Byte → List Byte) : Prop :=
  ∀ (m : Mem) (dst src : Slice), Fits dst → Fits src →
    (meth m dst src = none ↔ (dst.len < 16 ∨ src.len < 16 ∨ ∃ i j, i < 16 ∧ j < 16 ∧ i ≠ j ∧ dst.addr i = src.addr j)) ∧
    ∀ m', meth m dst src = some m' →
      m'.read (dst.upto 16) = F (m.read (src.upto 16)) ∧ ∀ p, (∀ i, i < 16 → p ≠ dst.addr i) → m' p = m p

theorem blockMethod_of {f : List Byte → Option (List Byte)} {F : List Byte → List Byte} (hF : ∀ b, (F b).length = 16)
    (hf : ∀ s, 16 ≤ s.length → f s = some (F (s.take 16))) : BlockMethod (blockMem f) F := by
  intro m dst src hd hs
  obtain ⟨h1, h2⟩ := blockMem_spec f F hF hf m dst src hd hs
  refine ⟨h1, fun m' e => ⟨?_, (h2 m' e).2⟩⟩
  apply List.ext_getElem
  · rw [read_length, hF]; rfl
  · intro i hi _
    rw [read_length] at hi
    rw [read_get _ _ _ hi]
    exact (h2 m' e).1 i hi

/-- The portable object with any legal key, whatever it was used for before. -/
theorem c93_portable (c : AES) (key : List Byte) (hk : Legal key) :
    ∃ c', c.setKey key = some (c', none) ∧
      BlockMethod c'.encryptMem (Spec.AES.encrypt key) ∧ BlockMethod c'.decryptMem (Spec.AES.decrypt key) := by
  obtain ⟨c', h1, h2⟩ := setKey_ok c key hk
  exact ⟨c', h1, blockMethod_of (spec_enc_length key) (aes_enc_block h2), blockMethod_of (spec_dec_length key) (aes_dec_block h2)⟩

/-- The hardware object with a 32-byte key, on amd64 and on arm64. -/
theorem c93_hardware (c : AESAsm) (hc : AsmWf c) (key : List Byte) (hk : key.length = 32) :
    ∃ c', c.setKey key = some c' ∧ (∀ v2, c.setKeyArm v2 key = some c') ∧
      BlockMethod c'.encryptMem (Spec.AES.encrypt key) ∧ BlockMethod c'.decryptMem (Spec.AES.decrypt key) ∧
      BlockMethod c'.encryptMemArm (Spec.AES.encrypt key) ∧ BlockMethod c'.decryptMemArm (Spec.AES.decrypt key) := by
  obtain ⟨c', h1, h2⟩ := asm_setKey32 c hc key hk
  have e := blockMethod_of (spec_enc_length key) (asm_enc_block h2)
  have d := blockMethod_of (spec_dec_length key) (asm_dec_block h2)
  refine ⟨c', h1, fun v2 => (arm_setKey v2 c hc key 8 hk (by decide)).trans h1, e, d, ?_, ?_⟩
  · rw [encMemArm_eq]; exact e
  · rw [decMemArm_eq]; exact d

theorem mem_ext {m m' : Mem} {s : Slice} (hs : Fits s) (hl : s.len = 16) (h : m'.read s = m.read s)
    (ho : ∀ p, (∀ i, i < 16 → p ≠ s.addr i) → m' p = m p) : m' = m := by
  funext p
  by_cases hp : ∀ i, i < 16 → p ≠ s.addr i
  · exact ho p hp
  · obtain ⟨i, hi, e⟩ : ∃ i, i < 16 ∧ p = s.addr i := by
      refine Classical.byContradiction fun hc => ?_
      exact hp fun i hi e => hc ⟨i, hi, e⟩
    have h1 := read_get m' s i (by omega)
    have h2 := read_get m s i (by omega)
    rw [e, ← h1, ← h2]
    simp only [h]

/-- A pair of such methods with inverse block functions used in place: the call returns, and the two calls one after the other leave the whole
memory as it was. -/
theorem inplace_of {E D : Mem → Slice → Slice → Option Mem} {F G : List Byte → List Byte} (hE : BlockMethod E F) (hD : BlockMethod D G)
    (inv : ∀ b : List Byte, b.length = 16 → G (F b) = b) (m : Mem) (s : Slice) (hs : Fits s) (hl : 16 ≤ s.len) :
    ∃ m', E m s s = some m' ∧ D m' s s = some m := by
  have nov : ¬ (s.len < 16 ∨ s.len < 16 ∨ ∃ i j, i < 16 ∧ j < 16 ∧ i ≠ j ∧ s.addr i = s.addr j) := by
    rintro (h | h | ⟨i, j, hi, hj, hne, e⟩)
    · omega
    · omega
    · rw [addr_eq hs hs (by omega) (by omega)] at e; omega
  obtain ⟨n1, s1⟩ := hE m s s hs hs
  cases h1 : E m s s with
  | none => exact absurd (n1.1 h1) nov
  | some m' =>
    refine ⟨m', rfl, ?_⟩
    obtain ⟨r1, o1⟩ := s1 m' h1
    obtain ⟨n2, s2⟩ := hD m' s s hs hs
    cases h2 : D m' s s with
    | none => exact absurd (n2.1 h2) nov
    | some m'' =>
      obtain ⟨r2, o2⟩ := s2 m'' h2
      have hu : Fits (s.upto 16) := by unfold Fits at *; simp only [Slice.upto]; omega
      rw [Option.some.injEq]
      apply mem_ext hu rfl
      · rw [r2, r1, inv _ (by rw [read_length]; rfl)]
      · intro p hp
        rw [o2 p hp, o1 p hp]

/-- Encrypting a buffer in place and decrypting it again restores all of memory: portable object, any legal key. -/
theorem c93_inplace (c : AES) (key : List Byte) (hk : Legal key) :
    ∃ c', c.setKey key = some (c', none) ∧ ∀ (m : Mem) (s : Slice), Fits s → 16 ≤ s.len →
      (∃ m', c'.encryptMem m s s = some m' ∧ c'.decryptMem m' s s = some m) ∧
      ∃ m', c'.decryptMem m s s = some m' ∧ c'.encryptMem m' s s = some m := by
  obtain ⟨c', h1, h2, h3⟩ := c93_portable c key hk
  exact ⟨c', h1, fun m s hs hl => ⟨inplace_of h2 h3 (fun b hb => spec_dec_enc _ _ hb) m s hs hl,
    inplace_of h3 h2 (fun b hb => spec_enc_dec _ _ hb) m s hs hl⟩⟩

/-- A memory, two blocks that overlap by one byte and two that are next to each other. -/
example : AES.new.encryptMem (fun _ => 0) ⟨0x1000, 16⟩ ⟨0x100f, 16⟩ = none ∧
    (AES.new.encryptMem (fun _ => 0) ⟨0x1000, 16⟩ ⟨0x1010, 16⟩).isSome = true := by decide +kernel

/-! ### C94 -/

/-- On arm64 `SetKey` with a legal key leaves the object as on amd64, whatever the vector register V2 held. -/
theorem c94_setKey (v2 : Xmm) (c : AESAsm) (hc : AsmWf c) (key : List Byte) (hk : Legal key) :
    c.setKeyArm v2 key = c.setKey key ∧ (c.setKeyArm v2 key).isSome = true := by
  rcases hk with hk | hk | hk
  · rw [arm_setKey v2 c hc key 4 hk (by decide), (asm_setKey c hc key 4 hk (by decide)).1]; exact ⟨rfl, rfl⟩
  · rw [arm_setKey v2 c hc key 6 hk (by decide), (asm_setKey c hc key 6 hk (by decide)).1]; exact ⟨rfl, rfl⟩
  · rw [arm_setKey v2 c hc key 8 hk (by decide), (asm_setKey c hc key 8 hk (by decide)).1]; exact ⟨rfl, rfl⟩

/-- `Encrypt` and `Decrypt` are the same function of any object and any buffers on both architectures. -/
theorem c94_blocks (c : AESAsm) (dst src : List Byte) :
    c.encryptArm dst src = c.encrypt dst src ∧ c.decryptArm dst src = c.decrypt dst src := ⟨arm_encrypt c dst src, arm_decrypt c dst src⟩

/-- With a 32-byte key the arm64 object is FIPS 197, and so what the portable object computes. -/
theorem c94_fips (v2 : Xmm) (c : AESAsm) (hc : AsmWf c) (key : List Byte) (hk : key.length = 32) :
    ∃ c', c.setKeyArm v2 key = some c' ∧ AsmWf c' ∧ ∀ dst src : List Byte, 16 ≤ dst.length → 16 ≤ src.length →
      c'.encryptArm dst src = some (Spec.AES.encrypt key (src.take 16) ++ dst.drop 16) ∧
      c'.decryptArm dst src = some (Spec.AES.decrypt key (src.take 16) ++ dst.drop 16) := by
  obtain ⟨c', h1, h2⟩ := asm_setKey32 c hc key hk
  refine ⟨c', (arm_setKey v2 c hc key 8 hk (by decide)).trans h1, h2.1, fun dst src hd hs => ?_⟩
  rw [arm_encrypt, arm_decrypt]
  exact ⟨asm_encrypt_holds h2 dst src hs hd, asm_decrypt_holds h2 dst src hs hd⟩

/-- The arm64 routines themselves are right for all three key sizes, given the right number of rounds. -/
theorem c94_routines (v2 : Xmm) (key : List Byte) (nk : Nat) (hk : key.length = 4 * nk) (hnk : nk = 4 ∨ nk = 6 ∨ nk = 8)
    (src : List Byte) (hs : src.length = 16) :
    ∃ e d, expandKeyArm v2 (nk + 6) key (List.replicate 15 Xmm.zero) (List.replicate 15 Xmm.zero) = some (e, d) ∧
      ((do let s ← Xmm.load src; let x ← encryptBlockArm (nk + 6) (e.take (nk + 7)) s; some x.bytes) = some (Spec.AES.encrypt key src)) ∧
      ((do let s ← Xmm.load src; let x ← decryptBlockArm (nk + 6) (d.take (nk + 7)) s; some x.bytes) = some (Spec.AES.decrypt key src)) := by
  obtain ⟨e, d, h1, h2, h3⟩ := asm_routines key nk hk hnk src hs
  rw [expandAsm_eq key nk hk hnk _ _ rfl rfl, ← expandArm_eq v2 key nk hk hnk _ _ rfl rfl] at h1
  refine ⟨e, d, h1, ?_, ?_⟩
  · rw [← h2]; simp only [enc_arm_asm (nk + 6) (by omega)]
  · rw [← h3]; simp only [dec_arm_asm (nk + 6) (by omega)]

/-- Keys of other sizes crash `SetKey` on arm64 too. -/
theorem c94_illegal (v2 : Xmm) (c : AESAsm) (key : List Byte) (h : ¬ Legal key) : c.setKeyArm v2 key = none := by
  have h' : ¬ key.length = 16 ∧ ¬ key.length = 24 ∧ ¬ key.length = 32 := by
    simp only [Legal] at h; omega
  have e : expandEncArm v2 0 key = none := by
    rw [expandEncArm, if_pos (by decide)]
    simp only [Option.bind_eq_bind]
    cases Xmm.leDw key with
    | none => rfl
    | some _ =>
      cases Xmm.leDw (key.drop 4) with
      | none => rfl
      | some _ =>
        cases Xmm.leDw (key.drop 8) with
        | none => rfl
        | some _ =>
          cases Xmm.leDw (key.drop 12) with
          | none => rfl
          | some _ =>
            cases Xmm.leDw (key.drop 16) with
            | none => rfl
            | some _ => cases Xmm.leDw (key.drop 20) <;> rfl
  rw [AESAsm.setKeyArm, if_neg h'.1, if_neg h'.2.1, if_neg h'.2.2, expandKeyArm, e]
  rfl

example : AsmWf AESAsm.new ∧ (List.replicate 32 (0x5a : Byte)).length = 32 ∧ ¬ Legal (List.replicate 20 0) := by
  refine ⟨asm_new_wf, rfl, by decide⟩

end Props.AESMem
