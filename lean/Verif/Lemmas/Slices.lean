import Verif.Model.Slices
import Verif.Lemmas.Sha3More
import Verif.Lemmas.DRBG
/-
Lemmas for Props/Slices.
-/
namespace Lemmas.Slices
open Model Model.Slices

theorem putAt_length {mem b : List Byte} {i : Nat} (h : i + b.length ≤ mem.length) : (putAt mem i b).length = mem.length := by
  unfold putAt
  simp only [List.length_append, List.length_take, List.length_drop]
  omega

theorem putAt_window {mem : List Byte} {o n : Nat} : putAt mem o (window mem o n) = mem := by
  unfold putAt window
  rw [List.length_take, List.length_drop, List.append_assoc]
  have : mem.drop (o + min n (mem.length - o)) = (mem.drop o).drop n := by
    rw [List.drop_drop]
    by_cases h : n ≤ mem.length - o
    · rw [Nat.min_eq_left h]
    · rw [Nat.min_eq_right (by omega), List.drop_eq_nil_of_le (by omega), List.drop_eq_nil_of_le (by omega)]
  rw [this, List.take_append_drop, List.take_append_drop]

theorem getElem?_putAt {mem b : List Byte} {i : Nat} (h : i + b.length ≤ mem.length) (j : Nat) :
    (putAt mem i b)[j]? = if i ≤ j ∧ j < i + b.length then b[j - i]? else mem[j]? := by
  unfold putAt
  have hl : (mem.take i).length = i := by rw [List.length_take]; omega
  by_cases h1 : j < i
  · rw [if_neg (by omega), List.append_assoc, List.getElem?_append_left (by omega), List.getElem?_take, if_pos h1]
  · by_cases h2 : j < i + b.length
    · rw [if_pos (by omega), List.getElem?_append_left (by rw [List.length_append]; omega), List.getElem?_append_right (by omega), hl]
    · rw [if_neg (by omega), List.getElem?_append_right (by rw [List.length_append]; omega), List.length_append, hl, List.getElem?_drop]
      congr 1
      omega

theorem window_putAt {mem out : List Byte} {o i : Nat} (h : o + out.length ≤ mem.length) (hi : i ≤ out.length) :
    window (putAt mem o out) (o + i) (out.length - i) = out.drop i := by
  apply List.ext_getElem?
  intro j
  unfold window
  rw [List.getElem?_take]
  split
  · rw [List.getElem?_drop, getElem?_putAt h, if_pos (by omega), List.getElem?_drop]
    congr 1
    omega
  · rw [List.getElem?_eq_none]
    rw [List.length_drop]
    omega

theorem putAt_putAt {mem out t : List Byte} {o i : Nat} (h : o + out.length ≤ mem.length) (hi : i + t.length = out.length) :
    putAt (putAt mem o out) (o + i) t = putAt mem o (out.take i ++ t) := by
  have hl : (out.take i ++ t).length = out.length := by rw [List.length_append, List.length_take]; omega
  have hti : (out.take i).length = i := by rw [List.length_take]; omega
  apply List.ext_getElem?
  intro j
  rw [getElem?_putAt (by rw [putAt_length h]; omega), getElem?_putAt h, getElem?_putAt (by rw [hl]; exact h), hl]
  by_cases h1 : o + i ≤ j ∧ j < o + i + t.length
  · rw [if_pos h1, if_pos (by omega), List.getElem?_append_right (by omega), hti]
    congr 1
    omega
  · rw [if_neg h1]
    by_cases h2 : o ≤ j ∧ j < o + out.length
    · rw [if_pos h2, if_pos h2, List.getElem?_append_left (by omega), List.getElem?_take, if_pos (by omega)]
    · rw [if_neg h2, if_neg h2]

/-! ### drbg -/
section
open Model.AES Model.DRBG

theorem cryptBlock_length {mid last xk src t} (h : cryptBlock mid last xk src = some t) : t.length = 16 := by
  unfold cryptBlock at h
  simp only [Option.bind_eq_bind, Option.bind_eq_some_iff, Option.some.injEq] at h
  obtain ⟨-, -, -, -, -, -, -, -, rfl⟩ := h
  rfl

theorem encrypt_length {b : IAES} {dst src t : List Byte} (h : b.encrypt dst src = some t) : t.length = dst.length := by
  cases b with
  | soft c =>
    simp only [IAES.encrypt, AES.encrypt] at h
    split at h
    · cases h
    · rename_i hn
      simp only [Option.bind_eq_bind, Option.bind_eq_some_iff, Option.some.injEq] at h
      obtain ⟨x, h1, rfl⟩ := h
      rw [List.length_append, cryptBlock_length h1, List.length_drop]
      omega
  | asm c =>
    simp only [IAES.encrypt, AESAsm.encrypt] at h
    split at h
    · cases h
    · rename_i hn
      simp only [Option.bind_eq_bind, Option.bind_eq_some_iff, Option.some.injEq] at h
      obtain ⟨s, -, x, -, rfl⟩ := h
      have : x.bytes.length = 16 := rfl
      rw [List.length_append, this, List.length_drop]
      omega

theorem readLoopM_eq (mem : List Byte) (o len : Nat) (hm : o + len ≤ mem.length) (n : Nat) : ∀ (c : CtrDrbg) (out : List Byte) (i : Nat),
    out.length = len → 16 * (i + n) ≤ len →
    readLoopM c (putAt mem o out) o len i n = (readLoop c out i n).map (fun r => (r.1, putAt mem o r.2)) ∧
    ∀ r, readLoop c out i n = some r → r.2.length = len ∧ r.1.tmpBlk = c.tmpBlk := by
  induction n with
  | zero =>
    intro c out i hl _
    refine ⟨rfl, ?_⟩
    intro r hr
    cases hr
    exact ⟨hl, rfl⟩
  | succ n ih =>
    intro c out i hl hi
    simp only [readLoopM, readLoop, Option.bind_eq_bind]
    cases (inc c).blockEnc.setKey (inc c).key with
    | none => exact ⟨rfl, fun r hr => by cases hr⟩
    | some b =>
      simp only [Option.bind_some]
      have hw := window_putAt (mem := mem) (out := out) (o := o) (i := 16 * i) (by omega) (by omega)
      rw [hl] at hw
      rw [hw]
      cases ht : b.encrypt (out.drop (16 * i)) (inc c).v with
      | none => exact ⟨rfl, fun r hr => by cases hr⟩
      | some t =>
        simp only [Option.bind_some]
        have hlt := encrypt_length ht
        rw [List.length_drop] at hlt
        rw [putAt_putAt (by omega) (by omega)]
        have := ih { inc c with blockEnc := b } (out.take (16 * i) ++ t) (i + 1) (by rw [List.length_append, List.length_take]; omega) (by omega)
        exact ⟨this.1, fun r hr => this.2 r hr⟩

theorem readADM_eq {c : CtrDrbg} {st : Spec.DRBG.State} (h : Lemmas.DRBG.Inv c st) (mem : List Byte) (o n a k : Nat) (hm : o + n ≤ mem.length) :
    readADM c mem o n a k = (readAD c (window mem o n) (window mem a k)).map (fun r => (r.1, putAt mem o r.2.1)) := by
  have hlen : (window mem o n).length = n := by unfold window; rw [List.length_take, List.length_drop]; omega
  unfold readADM readAD
  simp only [hlen, Option.bind_eq_bind]
  generalize hsb : (if 0 < (window mem a k).length then (window mem a k).take 48 ++ List.replicate (48 - ((window mem a k).take 48).length) 0
    else List.replicate 48 0) = sb
  have hsb' : sb.length = 48 := by rw [← hsb, Lemmas.DRBG.sb_eq, Lemmas.DRBG.pad48_length]
  obtain ⟨c1, s1, f1, f2⟩ : ∃ c1 s1, readPre c (window mem a k) sb = some c1 ∧ Lemmas.DRBG.Inv c1 s1 := by
    rw [readPre]
    split
    · obtain ⟨c', e1, e2, -⟩ := Lemmas.DRBG.update_eq h sb hsb'
      exact ⟨c', _, e1, e2⟩
    · exact ⟨c, _, rfl, h⟩
  rw [f1]
  simp only [Option.bind_some]
  obtain ⟨g1, g2⟩ := readLoopM_eq mem o n hm (n / 16) c1 (window mem o n) 0 hlen (by omega)
  rw [putAt_window] at g1
  rw [g1]
  cases hl : readLoop c1 (window mem o n) 0 (n / 16) with
  | none => rfl
  | some r =>
    obtain ⟨c2, out⟩ := r
    obtain ⟨l1, l2⟩ := g2 _ hl
    simp only [Option.map_some, Option.bind_some] at l1 l2 ⊢
    cases ht : c2.blockEnc.encrypt c2.tmpBlk c2.v with
    | none => rfl
    | some t =>
      have hlt : t.length = 48 := by rw [encrypt_length ht, l2, f2.tmp]
      simp only [Option.bind_some]
      have e : putAt (putAt mem o out) (o + n / 16 * 16) (t.take (n % 16)) = putAt mem o (out.take (n / 16 * 16) ++ t.take (n % 16)) :=
        putAt_putAt (by omega) (by rw [List.length_take]; omega)
      rw [e, l1]
      cases update { c2 with tmpBlk := t } sb <;> rfl

end

/-! ### dh/sidh -/
section
open Model.Sidh

theorem exportParts_eq (sz bytelen : Nat) (hz : 0 < sz) (enc : Fp2 → List Byte) : ∀ (xs : List Fp2) (i : Nat) (mem : List Byte),
    (∀ x ∈ xs, (enc x).length = sz ∧ ∀ out : List Byte, out.length = sz → fp2ToBytes out x bytelen = some (enc x)) → i * sz ≤ mem.length →
    exportParts sz bytelen xs i mem =
      (putAt mem (i * sz) ((xs.take (mem.length / sz - i)).map enc).flatten, decide ((i + xs.length) * sz ≤ mem.length)) := by
  intro xs
  induction xs with
  | nil =>
    intro i mem _ hi
    simp only [exportParts, List.take_nil, List.map_nil, List.flatten_nil, putAt, List.append_nil, List.length_nil, Nat.add_zero, hi, decide_true,
      List.take_append_drop]
  | cons x xs ih =>
    intro i mem h hi
    obtain ⟨h1, h2⟩ := h x (by simp)
    rw [exportParts]
    split
    · rename_i hs
      have hd : mem.length / sz - i = 0 := by
        have : mem.length / sz < i + 1 := (Nat.div_lt_iff_lt_mul hz).mpr hs
        omega
      have : ¬ (i + (x :: xs).length) * sz ≤ mem.length := by
        rw [List.length_cons]
        have : (i + 1) * sz ≤ (i + (xs.length + 1)) * sz := Nat.mul_le_mul_right _ (by omega)
        omega
      rw [hd, decide_eq_false this]
      simp only [List.take_zero, List.map_nil, List.flatten_nil, putAt, List.append_nil, List.length_nil, Nat.add_zero, List.take_append_drop]
    · rename_i hs
      have hs' : i * sz + sz ≤ mem.length := by rw [Nat.add_mul, Nat.one_mul] at hs; omega
      rw [h2 _ (by rw [List.length_take, List.length_drop]; omega)]
      simp only
      have hl : (putAt mem (i * sz) (enc x)).length = mem.length := putAt_length (by omega)
      rw [ih (i + 1) _ (fun y hy => h y (by simp [hy])) (by rw [hl]; omega), hl]
      have hd : mem.length / sz - i = (mem.length / sz - (i + 1)) + 1 := by
        have : i + 1 ≤ mem.length / sz := (Nat.le_div_iff_mul_le hz).mpr (by omega)
        omega
      rw [hd, List.take_succ_cons, List.map_cons, List.flatten_cons, Prod.mk.injEq]
      constructor
      · generalize ((xs.take (mem.length / sz - (i + 1))).map enc).flatten = t
        unfold putAt
        rw [Nat.add_mul, Nat.one_mul, List.append_assoc (mem.take _), List.length_append, h1]
        have ha : (mem.take (i * sz) ++ enc x).length = i * sz + sz := by rw [List.length_append, List.length_take, h1]; omega
        rw [List.append_assoc (mem.take _), ← List.append_assoc, List.take_left' ha, List.drop_append, ha,
          List.drop_eq_nil_of_le (by omega : (mem.take (i * sz) ++ enc x).length ≤ _), List.nil_append, List.drop_drop]
        simp only [List.append_assoc]
        congr 4
        omega
      · rw [List.length_cons]
        congr 3
        omega

end

/-! ### hash/sha3 -/
section
open Model.Sha3 Spec.Sponge Lemmas.Sha3

theorem sumC_eq {P : Plat} (hP : Good P) {c : State} {o : Obj} (h : Sim c o) (s : Option Slice) (D : List Byte)
    (hD : D = Spec.Keccak.spongeBytes Spec.Keccak.keccakF c.rate c.sfx o.pos.1 o.pos.2 c.dsize) :
    ∃ c', Squeezing c' o.pos.1 (o.pos.2 + c.dsize) ∧ SameParams c c' ∧
      sumC P c s = some (match s with
        | none => ⟨c', D, []⟩
        | some s => ⟨c', s.bytes ++ D, if s.mem.length < s.len + c.dsize then s.mem else s.bytes ++ D ++ s.mem.drop (s.len + c.dsize)⟩) := by
  have hDl : D.length = c.dsize := by rw [hD, spongeBytes_length]
  have core : ∀ (buf : List Byte) (l : Nat), l + c.dsize ≤ buf.length → ∃ c', Squeezing c' o.pos.1 (o.pos.2 + c.dsize) ∧ SameParams c c' ∧
      Model.Sha3.read P c ((buf.drop l).take c.dsize) = some (c', D, c.dsize) ∧
      putAt buf l D = buf.take l ++ D ++ buf.drop (l + c.dsize) ∧ (putAt buf l D).take (l + c.dsize) = buf.take l ++ D := by
    intro buf l hl
    have e : ((buf.drop l).take c.dsize).length = c.dsize := by rw [List.length_take, List.length_drop]; omega
    obtain ⟨c', h1, h2, h3⟩ := read_sim hP h ((buf.drop l).take c.dsize)
    rw [e] at h1 h2
    refine ⟨c', h2, h3, by rw [h1, hD], by rw [putAt, hDl], ?_⟩
    rw [putAt]
    exact List.take_left' (by rw [List.length_append, List.length_take, hDl]; omega)
  cases s with
  | none =>
    obtain ⟨c', h1, h2, h3, h4, h5⟩ := core (List.replicate c.dsize 0) 0 (by simp)
    refine ⟨c', h1, h2, ?_⟩
    simp only [sumC, List.length_replicate, Nat.zero_add, Nat.lt_irrefl, if_false, Option.bind_eq_bind, h3, Option.bind_some] at h5 ⊢
    rw [h5]
    rfl
  | some s =>
    by_cases hs : s.mem.length < s.len + c.dsize
    · obtain ⟨c', h1, h2, h3, h4, h5⟩ := core (s.mem ++ List.replicate (s.len + c.dsize - s.mem.length) 0) s.len (by simp; omega)
      refine ⟨c', h1, h2, ?_⟩
      simp only [sumC, hs, if_true, Option.bind_eq_bind, h3, Option.bind_some]
      rw [h5, List.take_append_of_le_length s.fits]
      rfl
    · obtain ⟨c', h1, h2, h3, h4, h5⟩ := core s.mem s.len (by omega)
      refine ⟨c', h1, h2, ?_⟩
      simp only [sumC, hs, if_false, Option.bind_eq_bind, h3, Option.bind_some]
      rw [h5, h4]
      rfl

end

end Lemmas.Slices
