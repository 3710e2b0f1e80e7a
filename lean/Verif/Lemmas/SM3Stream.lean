import Verif.Lemmas.SM3Compress
import Verif.Lemmas.LeftEncode
/-! The SM3 object as a stream. -/
namespace Lemmas.SM3
open Model Model.SM3

theorem mapM_some {α β : Type} {f : α → Option β} {g : α → β} (l : List α) (h : ∀ x ∈ l, f x = some (g x)) :
    l.mapM f = some (l.map g) := by
  induction l with
  | nil => rfl
  | cons a l ih =>
    rw [List.mapM_cons, h a (by simp), ih (fun x hx => h x (by simp [hx]))]; rfl

theorem load_word (a b c d : Byte) :
    (d.setWidth 32 ||| (c.setWidth 32 <<< 8) ||| (b.setWidth 32 <<< 16) ||| (a.setWidth 32 <<< 24) : W32) =
      a ++ b ++ c ++ d := by
  apply BitVec.eq_of_getLsbD_eq
  intro i hi
  simp only [BitVec.getLsbD_or, BitVec.getLsbD_append, BitVec.getLsbD_shiftLeft, BitVec.getLsbD_setWidth, hi,
    decide_true, Bool.true_and]
  rcases Nat.lt_or_ge i 8 with h | h
  · have h1 : i < 16 := by omega
    have h2 : i < 24 := by omega
    simp [h, h1, h2]
  · have e0 : d.getLsbD i = false := BitVec.getLsbD_of_ge _ _ h
    rcases Nat.lt_or_ge i 16 with h' | h'
    · have : ¬ i < 8 := by omega
      have h2 : i < 24 := by omega
      have h3 : i - 8 < 8 := by omega
      have h4 : i - 8 < 32 := by omega
      simp [e0, h', this, h2, h3, h4]
    · have e1 : c.getLsbD (i - 8) = false := BitVec.getLsbD_of_ge _ _ (by omega)
      have n1 : ¬ i < 8 := by omega
      have n2 : ¬ i - 8 < 8 := by omega
      have n3 : ¬ i < 16 := by omega
      rcases Nat.lt_or_ge i 24 with h'' | h''
      · have h3 : i - 8 - 8 < 8 := by omega
        have h4 : i - 16 < 32 := by omega
        simp [e0, e1, n1, n2, n3, h'', h4, show i - 8 - 8 = i - 16 by omega, show i - 16 < 8 by omega]
      · have e2 : b.getLsbD (i - 16) = false := BitVec.getLsbD_of_ge _ _ (by omega)
        have n4 : ¬ i < 24 := by omega
        simp [e0, e1, e2, n1, n2, n3, n4, show ¬ i - 8 - 8 < 8 by omega, show i - 8 - 8 - 8 = i - 24 by omega,
          show i - 24 < 32 by omega, show i - 24 < 8 by omega]

theorem loadBe32_spec (x : List Byte) (h : 4 ≤ x.length) :
    loadBe32 x = some (x.getD 0 0 ++ x.getD 1 0 ++ x.getD 2 0 ++ x.getD 3 0) := by
  match x, h with
  | a :: b :: c :: d :: r, _ => rw [loadBe32, load_word]; rfl

theorem loadBlock_spec (blk : List Byte) (h : 64 ≤ blk.length) :
    ∃ w, loadBlock blk = some w ∧ ∀ i (hi : i < 16), w[i] = Spec.SM3.blockWord (blk.take 64) i := by
  have hm : (List.range 16).mapM (fun k => (sliceFrom blk (4 * k)).bind loadBe32) =
      some ((List.range 16).map (Spec.SM3.blockWord (blk.take 64))) := by
    apply mapM_some
    intro k hk
    rw [List.mem_range] at hk
    rw [sliceFrom, if_pos (by omega), Option.bind_some, loadBe32_spec _ (by rw [List.length_drop]; omega)]
    have hd : ∀ t, t < 4 → (blk.drop (4 * k)).getD t 0 = (blk.take 64).getD (4 * k + t) 0 := by
      intro t ht
      rw [List.getD_eq_getElem?_getD, List.getD_eq_getElem?_getD, List.getElem?_drop, List.getElem?_take_of_lt (by omega)]
    rw [hd 0 (by decide), hd 1 (by decide), hd 2 (by decide), hd 3 (by decide)]; rfl
  rw [loadBlock]
  simp only [Option.bind_eq_bind]
  rw [hm]
  simp only [Option.bind_some]
  refine ⟨_, dif_pos (by simp), ?_⟩
  intro i hi
  simp

theorem compressFrom_spec (p : List Byte) (n : Nat) : ∀ (h : Vector W32 8) (input : List Byte) (i k : Nat),
    (i + n) * 64 ≤ input.length → toRegs h = Spec.SM3.iterate p k →
    (∀ t, t < n → (input.drop ((i + t) * 64)).take 64 = (p.drop (64 * (k + t))).take 64) →
    ∃ h', compressFrom h input i n = some h' ∧ toRegs h' = Spec.SM3.iterate p (k + n) := by
  induction n with
  | zero => intro h input i k _ h1 _; exact ⟨h, rfl, h1⟩
  | succ n ih =>
    intro h input i k hl h1 h2
    rw [Nat.add_mul] at hl
    obtain ⟨w, hw1, hw2⟩ := loadBlock_spec (input.drop (i * 64)) (by rw [List.length_drop]; omega)
    obtain ⟨h', g1, g2⟩ := ih (compress1 h w) input (i + 1) (k + 1) (by omega) (by
      rw [compress1_eq h w _ hw2, h1, Spec.SM3.iterate]
      have := h2 0 (by omega)
      rw [Nat.add_zero, Nat.add_zero] at this
      rw [this]) (by
      intro t ht
      have := h2 (t + 1) (by omega)
      rwa [show i + 1 + t = i + (t + 1) by omega, show k + 1 + t = k + (t + 1) by omega])
    refine ⟨h', ?_, by rw [g2]; congr 1; omega⟩
    rw [compressFrom, sliceFrom, if_pos (by omega)]
    simp [hw1, g1]

theorem iterate_append (p x : List Byte) (n : Nat) (h : 64 * n ≤ p.length) :
    Spec.SM3.iterate (p ++ x) n = Spec.SM3.iterate p n := by
  induction n with
  | zero => rfl
  | succ n ih =>
    rw [Spec.SM3.iterate, Spec.SM3.iterate, ih (by omega), List.drop_append_of_le_length (by omega),
      List.take_append_of_le_length (by rw [List.length_drop]; omega)]

/-- The object after absorbing `m`. -/
structure Absorbed (d : Digest) (m : List Byte) : Prop where
  len : d.len = BitVec.ofNat 64 m.length
  bLen : d.b.length = 64
  pending : d.b.take (m.length % 64) = m.drop (m.length / 64 * 64)
  chain : toRegs d.h = Spec.SM3.iterate m (m.length / 64)

theorem idx_eq (n : Nat) : ((BitVec.ofNat 64 n : W64) &&& 63).toNat = n % 64 := by
  rw [BitVec.toNat_and, BitVec.toNat_ofNat]
  show n % 2 ^ 64 &&& (2 ^ 6 - 1) = n % 64
  rw [Nat.and_two_pow_sub_one_eq_mod]; omega

theorem toRegs_init : toRegs init = Spec.SM3.IV := by decide

theorem absorbed_reset {d : Digest} (h : d.b.length = 64) : Absorbed (reset d) [] := by
  refine ⟨rfl, h, by simp, ?_⟩
  exact toRegs_init

theorem absorbed_new : Absorbed new [] := absorbed_reset (by decide)

/-- The count `Write` returns for `n` bytes when `k` bytes are pending. -/
def writeCount (k n : Nat) : Nat := if n + k < 64 then 0 else n - (64 - k)

theorem write_spec {d : Digest} {m : List Byte} (h : Absorbed d m) (x : List Byte) :
    ∃ d', write d x = some (d', writeCount (m.length % 64) x.length) ∧ Absorbed d' (m ++ x) := by
  have hk := Nat.mod_lt m.length (show 0 < 64 by decide)
  have hmod := Nat.div_add_mod m.length 64
  have hlen' : d.len + BitVec.ofNat 64 x.length = BitVec.ofNat 64 (m ++ x).length := by
    rw [h.len, List.length_append, BitVec.ofNat_add]
  have hpl : (m.drop (m.length / 64 * 64)).length = m.length % 64 := by rw [List.length_drop]; omega
  have hpend := h.pending
  rw [write]
  simp only [h.len, idx_eq]
  generalize hk' : m.length % 64 = k at *
  generalize hq : m.length / 64 = q at *
  by_cases hs : x.length + k < 64
  · rw [if_pos hs]
    have hb := h.bLen
    rw [copyFrom, if_pos (by omega)]
    simp only [Option.bind_eq_bind, Option.bind_some]
    refine ⟨_, by rw [writeCount, if_pos hs], ?_⟩
    have e1 : (m ++ x).length / 64 = q := by rw [List.length_append]; omega
    have e2 : (m ++ x).length % 64 = k + x.length := by rw [List.length_append]; omega
    constructor
    · rw [← hlen', h.len]
    · simp only [goCopy, List.length_append, List.length_take, List.length_drop]; omega
    · rw [e1, e2]
      simp only [goCopy, List.length_drop]
      have ht : x.take (d.b.length - k) = x := List.take_of_length_le (by omega)
      rw [ht, List.take_append, List.length_take]
      rw [show min k d.b.length = k by omega, show k + x.length - k = x.length by omega,
        List.take_left' rfl, List.take_take, show min (k + x.length) k = k by omega, hpend,
        List.drop_append_of_le_length (by omega)]
    · rw [e1]
      simp only
      rw [iterate_append _ _ _ (by omega), h.chain, hq]
  · rw [if_neg hs]
    have hb := h.bLen
    have hc : 64 - k ≤ x.length := by omega
    rw [sliceTo, if_pos hc]
    simp only [Option.bind_eq_bind, Option.bind_some]
    rw [copyFrom, if_pos (by omega)]
    simp only [Option.bind_some]
    -- the first block
    have hblk : d.b.take k ++ goCopy (d.b.drop k) (x.take (64 - k)) = ((m ++ x).drop (64 * q)).take 64 := by
      rw [goCopy, List.length_drop, hb, List.take_take, Nat.min_self, hpend,
        show 64 * q = q * 64 by omega, List.drop_append_of_le_length (by omega), List.take_append, hpl,
        List.take_of_length_le (l := m.drop (q * 64)) (by omega)]
      congr 1
      rw [List.length_take, show min (64 - k) x.length = 64 - k by omega, List.drop_drop,
        show k + (64 - k) = 64 by omega, List.drop_of_length_le (by omega), List.append_nil]
    rw [hblk]
    have hbl : (((m ++ x).drop (64 * q)).take 64).length = 64 := by
      rw [List.length_take, List.length_drop, List.length_append]; omega
    obtain ⟨h1, g1, g2⟩ := compressFrom_spec (m ++ x) 1 d.h (((m ++ x).drop (64 * q)).take 64) 0 q (by omega)
      (by rw [iterate_append _ _ _ (by omega), h.chain, hq])
      (by intro t ht; rw [show t = 0 by omega]; simp [List.take_take])
    rw [compress]
    simp only [Option.bind_eq_bind, g1, Option.bind_some]
    rw [sliceFrom, if_pos hc]
    simp only [Option.bind_some]
    -- whole blocks
    have hdl : (x.drop (64 - k)).length = x.length - (64 - k) := List.length_drop
    have hdd : ∀ t, (x.drop (64 - k)).drop t = (m ++ x).drop (64 * (q + 1) + t) := by
      intro t
      rw [List.drop_drop, List.drop_append, List.drop_of_length_le (l := m) (by omega), List.nil_append]
      congr 1; omega
    obtain ⟨h2, g3, g4⟩ := compressFrom_spec (m ++ x) ((x.drop (64 - k)).length / 64) h1 (x.drop (64 - k)) 0 (q + 1)
      (by rw [Nat.zero_add]; exact Nat.div_mul_le_self _ _) g2 (by
        intro t ht
        rw [hdd]; congr 2; omega)
    rw [compress]
    simp only [Option.bind_eq_bind, g3, Option.bind_some]
    rw [sliceFrom, if_pos (Nat.div_mul_le_self _ _)]
    simp only [Option.bind_some]
    rw [copyFrom, if_pos (Nat.zero_le _)]
    simp only [Option.bind_some]
    have e1 : (m ++ x).length / 64 = q + 1 + (x.drop (64 - k)).length / 64 := by
      rw [List.length_append, hdl]; omega
    have e2 : (m ++ x).length % 64 = (x.drop (64 - k)).length % 64 := by
      rw [List.length_append, hdl]; omega
    have hwc : writeCount k x.length = (x.drop (64 - k)).length := by rw [writeCount, if_neg hs, hdl]
    rw [hwc]
    refine ⟨_, rfl, ?_⟩
    have hrl : ((x.drop (64 - k)).drop ((x.drop (64 - k)).length / 64 * 64)).length = (x.drop (64 - k)).length % 64 := by
      rw [List.length_drop]; omega
    constructor
    · simp only; rw [← hlen', h.len]
    · simp only [List.take_zero, List.nil_append, List.drop_zero, goCopy, List.length_append, List.length_take,
        hbl, List.length_drop]
      omega
    · simp only [List.take_zero, List.nil_append, List.drop_zero, goCopy]
      rw [e2, hbl, List.take_of_length_le (l := (x.drop (64 - k)).drop _) (by rw [hrl]; omega),
        List.take_left' hrl, hdd, e1]
      congr 1; omega
    · rw [e1]; exact g4

theorem be64_eq (n : Nat) : store64Be (BitVec.ofNat 64 n * 8) = Spec.SM3.be64 (8 * n) := by
  have e : (BitVec.ofNat 64 n * 8 : W64).toNat = 8 * n % 2 ^ 64 := by
    rw [BitVec.toNat_mul, BitVec.toNat_ofNat]
    show n % 2 ^ 64 * 8 % 2 ^ 64 = 8 * n % 2 ^ 64
    omega
  rw [store64Be, Lemmas.Sha3.beBytes64_eq, e]
  have key : ∀ k, k < 8 → (BitVec.ofNat 8 (8 * n % 2 ^ 64 / 256 ^ k)) = BitVec.ofNat 8 (8 * n / 256 ^ k) := by
    intro k hk
    apply BitVec.eq_of_toNat_eq
    rw [BitVec.toNat_ofNat, BitVec.toNat_ofNat]
    match k, hk with
    | 0, _ | 1, _ | 2, _ | 3, _ | 4, _ | 5, _ | 6, _ | 7, _ => omega
  simp only [Spec.CShake.bigEndian]
  rw [key 7 (by decide), key 6 (by decide), key 5 (by decide), key 4 (by decide), key 3 (by decide), key 2 (by decide),
    key 1 (by decide), key 0 (by decide)]
  rfl

theorem out_eq (h : Vector W32 8) : h.toList.flatMap store32Be = (toRegs h).bytes := by
  have : h.toList = [h.get 0, h.get 1, h.get 2, h.get 3, h.get 4, h.get 5, h.get 6, h.get 7] := by
    apply List.ext_getElem
    · simp
    · intro i h1 h2
      simp only [List.length_cons, List.length_nil] at h2
      match i, h2 with
      | 0, _ | 1, _ | 2, _ | 3, _ | 4, _ | 5, _ | 6, _ | 7, _ => rfl
  rw [this]
  simp only [List.flatMap_cons, List.flatMap_nil, List.append_nil, ← List.append_assoc]
  rfl

theorem compress_one {d : Digest} {p : List Byte} {k : Nat} (hb : d.b = (p.drop (64 * k)).take 64) (hl : d.b.length = 64)
    (hc : toRegs d.h = Spec.SM3.iterate p k) :
    ∃ h', compress d d.b 1 = some { d with h := h' } ∧ toRegs h' = Spec.SM3.iterate p (k + 1) := by
  obtain ⟨h', g1, g2⟩ := compressFrom_spec p 1 d.h d.b 0 k (by omega) hc
    (by intro t ht; rw [show t = 0 by omega, hb]; simp [List.take_take])
  exact ⟨h', by rw [compress, g1]; rfl, g2⟩

theorem be64_length (n : Nat) : (Spec.SM3.be64 n).length = 8 := rfl

theorem pad_short (m : List Byte) (h : m.length % 64 < 56) :
    (Spec.SM3.pad m).length / 64 = m.length / 64 + 1 ∧
    ((Spec.SM3.pad m).drop (64 * (m.length / 64))).take 64 =
      m.drop (m.length / 64 * 64) ++ [0x80] ++ List.replicate (55 - m.length % 64) 0 ++ Spec.SM3.be64 (8 * m.length) := by
  rw [Spec.SM3.pad, show (119 - m.length % 64) % 64 = 55 - m.length % 64 by omega]
  constructor
  · simp only [List.length_append, List.length_replicate, be64_length, List.length_cons, List.length_nil]; omega
  · rw [List.append_assoc, List.append_assoc, List.drop_append_of_le_length (by omega), List.take_of_length_le,
      Nat.mul_comm, List.append_assoc, List.append_assoc]
    simp only [List.length_append, List.length_replicate, be64_length, List.length_cons, List.length_nil, List.length_drop]
    omega

theorem pad_long (m : List Byte) (h : 56 ≤ m.length % 64) :
    (Spec.SM3.pad m).length / 64 = m.length / 64 + 2 ∧
    ((Spec.SM3.pad m).drop (64 * (m.length / 64))).take 64 =
      m.drop (m.length / 64 * 64) ++ [0x80] ++ List.replicate (63 - m.length % 64) 0 ∧
    ((Spec.SM3.pad m).drop (64 * (m.length / 64 + 1))).take 64 =
      List.replicate 56 0 ++ Spec.SM3.be64 (8 * m.length) := by
  have hlt := Nat.mod_lt m.length (show 0 < 64 by decide)
  have hz : (119 - m.length % 64) % 64 = (63 - m.length % 64) + 56 := by omega
  rw [Spec.SM3.pad, hz, ← List.replicate_append_replicate]
  refine ⟨?_, ?_, ?_⟩
  · simp only [List.length_append, List.length_replicate, be64_length, List.length_cons, List.length_nil]; omega
  · rw [← List.append_assoc, List.append_assoc (_ ++ List.replicate _ 0), Nat.mul_comm, List.append_assoc,
      List.append_assoc, List.drop_append_of_le_length (by omega), ← List.append_assoc, ← List.append_assoc,
      List.take_left']
    simp only [List.length_append, List.length_replicate, List.length_cons, List.length_nil, List.length_drop]
    omega
  · rw [← List.append_assoc, List.append_assoc (_ ++ List.replicate _ 0), List.drop_left', List.take_of_length_le]
    · simp only [List.length_append, List.length_replicate, be64_length]; omega
    · simp only [List.length_append, List.length_replicate, List.length_cons, List.length_nil]
      omega

theorem iterate_pad (m : List Byte) : Spec.SM3.iterate (Spec.SM3.pad m) (m.length / 64) = Spec.SM3.iterate m (m.length / 64) := by
  rw [Spec.SM3.pad, List.append_assoc, List.append_assoc, iterate_append _ _ _ (by omega)]

theorem sum_spec {d : Digest} {m : List Byte} (h : Absorbed d m) (x : List Byte) :
    sum d x = some (Spec.SM3.hash (m ++ x)) := by
  obtain ⟨dc, g1, g2⟩ := write_spec h x
  generalize m ++ x = M at *
  have hk := Nat.mod_lt M.length (show 0 < 64 by decide)
  have hbl := g2.bLen
  have hpend := g2.pending
  have hpl : (M.drop (M.length / 64 * 64)).length = M.length % 64 := by rw [List.length_drop]; omega
  have hchain := g2.chain
  rw [← iterate_pad] at hchain
  rw [sum]
  simp only [Option.bind_eq_bind, g1, Option.bind_some, g2.len, idx_eq]
  generalize hk' : M.length % 64 = k at *
  rw [copyFrom, if_pos (by omega)]
  simp only [Option.bind_some]
  have hb1 : (dc.b.take (k + 1) ++ goCopy (dc.b.drop (k + 1)) (List.replicate (64 - (k + 1)) 0)) =
      dc.b.take (k + 1) ++ List.replicate (63 - k) 0 := by
    rw [goCopy, List.take_of_length_le (l := List.replicate _ _) (by rw [List.length_replicate, List.length_drop]; omega),
      List.drop_of_length_le (l := dc.b.drop _) (by rw [List.length_replicate, List.length_drop]; omega), List.append_nil,
      show 64 - (k + 1) = 63 - k by omega]
  rw [hb1, setAt, if_pos (by simp only [List.length_append, List.length_take]; omega)]
  simp only [Option.bind_some]
  have hb2 : (dc.b.take (k + 1) ++ List.replicate (63 - k) 0).set k 0x80 =
      M.drop (M.length / 64 * 64) ++ [0x80] ++ List.replicate (63 - k) (0 : Byte) := by
    rw [List.set_append_left _ _ (by rw [List.length_take]; omega)]
    congr 1
    rw [List.take_add_one, List.getElem?_eq_getElem (by omega), Option.toList_some, hpend,
      List.set_append_right _ _ (by omega), hpl, Nat.sub_self]; rfl
  rw [hb2]
  by_cases hs : 56 ≤ k
  · rw [if_pos hs]
    obtain ⟨p1, p2, p3⟩ := pad_long M (by omega)
    obtain ⟨h1, c1, c2⟩ := compress_one (d := { dc with b := M.drop (M.length / 64 * 64) ++ [0x80] ++ List.replicate (63 - k) (0 : Byte) })
      (p := Spec.SM3.pad M) (k := M.length / 64) (by rw [p2, hk'])
      (by simp only [List.length_append, List.length_replicate, List.length_cons, List.length_nil, hpl]; omega) hchain
    simp only [] at c1
    rw [← g2.len]
    simp only [c1, Option.bind_some]
    rw [copyFrom, if_pos (by simp), g2.len, be64_eq]
    simp only [Option.bind_some]
    have hb3 : (List.replicate 64 (0 : Byte)).take 56 ++ goCopy ((List.replicate 64 0).drop 56) (Spec.SM3.be64 (8 * M.length)) =
        List.replicate 56 0 ++ Spec.SM3.be64 (8 * M.length) := by
      rw [goCopy, List.take_replicate, List.drop_replicate, List.length_replicate, List.take_of_length_le (by simp [be64_length]),
        be64_length, List.drop_replicate]
      simp
    rw [hb3]
    obtain ⟨h2, c3, c4⟩ := compress_one (d := { h := h1, len := BitVec.ofNat 64 M.length, b := List.replicate 56 0 ++ Spec.SM3.be64 (8 * M.length) })
      (p := Spec.SM3.pad M) (k := M.length / 64 + 1) p3.symm (by simp [be64_length]) c2
    simp only [] at c3
    simp only [c3, Option.bind_some]
    rw [out_eq, c4, Spec.SM3.hash, p1]
  · rw [if_neg hs]
    obtain ⟨p1, p2⟩ := pad_short M (by omega)
    rw [← g2.len]
    rw [copyFrom, if_pos (by simp only [List.length_append, List.length_replicate, List.length_cons, List.length_nil, hpl]; omega), g2.len, be64_eq]
    simp only [Option.bind_some]
    have hb3 : (M.drop (M.length / 64 * 64) ++ [0x80] ++ List.replicate (63 - k) (0 : Byte)).take 56 ++
        goCopy ((M.drop (M.length / 64 * 64) ++ [0x80] ++ List.replicate (63 - k) (0 : Byte)).drop 56) (Spec.SM3.be64 (8 * M.length)) =
        M.drop (M.length / 64 * 64) ++ [0x80] ++ List.replicate (55 - k) (0 : Byte) ++ Spec.SM3.be64 (8 * M.length) := by
      have e1 : (M.drop (M.length / 64 * 64) ++ [0x80]).length = k + 1 := by
        simp only [List.length_append, List.length_cons, List.length_nil, hpl]
      rw [List.take_append, List.drop_append, e1, List.take_of_length_le (by omega), List.drop_of_length_le (l := _ ++ [_]) (by omega),
        List.nil_append, List.take_replicate, List.drop_replicate, goCopy, List.length_replicate, List.take_of_length_le (by rw [be64_length]; omega),
        be64_length, List.drop_replicate, show 63 - k - (56 - (k + 1)) - 8 = 0 by omega, List.replicate_zero, List.append_nil,
        show min (56 - (k + 1)) (63 - k) = 55 - k by omega]
    rw [hb3]
    obtain ⟨h2, c3, c4⟩ := compress_one (d := { h := dc.h, len := BitVec.ofNat 64 M.length, b := M.drop (M.length / 64 * 64) ++ [0x80] ++ List.replicate (55 - k) (0 : Byte) ++ Spec.SM3.be64 (8 * M.length) })
      (p := Spec.SM3.pad M) (k := M.length / 64) (by rw [p2, hk'])
      (by simp only [List.length_append, List.length_replicate, List.length_cons, List.length_nil, be64_length, hpl]; omega) hchain
    simp only [] at c3
    simp only [c3, Option.bind_some]
    rw [out_eq, c4, Spec.SM3.hash, p1]

end Lemmas.SM3
