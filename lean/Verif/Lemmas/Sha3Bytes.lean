import Verif.Model.Sha3
import Verif.Spec.Keccak
import Verif.Lemmas.KeccakBits
/-! Byte images of the permutation state; the platform functions. -/
namespace Lemmas.Sha3
open Model Model.Sha3

theorem leBytes64_getElem? (w : W64) (k : Nat) (hk : k < 8) :
    (leBytes64 w)[k]? = some (w.extractLsb' (8 * k) 8) := by
  match k, hk with
  | 0, _ | 1, _ | 2, _ | 3, _ | 4, _ | 5, _ | 6, _ | 7, _ => rfl

theorem leBytes64_length (w : W64) : (leBytes64 w).length = 8 := rfl

theorem flatMap_getElem? (l : List W64) (k : Nat) :
    (l.flatMap leBytes64)[k]? = (l[k / 8]?).map (fun w => w.extractLsb' (8 * (k % 8)) 8) := by
  induction l generalizing k with
  | nil => simp
  | cons w l ih =>
    rw [List.flatMap_cons]
    by_cases hk : k < 8
    · rw [List.getElem?_append_left (by rw [leBytes64_length]; exact hk), leBytes64_getElem? w k hk]
      have h1 : k / 8 = 0 := by omega
      have h2 : k % 8 = k := by omega
      simp [h1, h2]
    · rw [List.getElem?_append_right (by rw [leBytes64_length]; omega), leBytes64_length, ih]
      have h1 : k / 8 = (k - 8) / 8 + 1 := by omega
      have h2 : k % 8 = (k - 8) % 8 := by omega
      simp [h1, h2]

theorem flatMap_length (l : List W64) : (l.flatMap leBytes64).length = 8 * l.length := by
  induction l with
  | nil => rfl
  | cons w l ih => rw [List.flatMap_cons, List.length_append, ih, leBytes64_length, List.length_cons]; omega

theorem laneBytes_length (a : Vector W64 25) : (laneBytes a).length = 200 := by
  rw [laneBytes, flatMap_length]; simp

theorem laneBytes_getElem? (a : Vector W64 25) (k : Nat) (hk : k < 200) :
    (laneBytes a)[k]? = some ((a[k / 8]'(by omega)).extractLsb' (8 * (k % 8)) 8) := by
  rw [laneBytes, flatMap_getElem?]
  have h : k / 8 < 25 := by omega
  rw [Vector.getElem?_toList]
  rw [Vector.getElem?_eq_getElem h]; rfl

theorem laneBytes_getElem (a : Vector W64 25) (k : Nat) (hk : k < (laneBytes a).length) :
    (laneBytes a)[k] =
      (a[k / 8]'(by rw [laneBytes_length] at hk; omega)).extractLsb' (8 * (k % 8)) 8 := by
  have := laneBytes_getElem? a k (by rw [laneBytes_length] at hk; exact hk)
  rw [List.getElem?_eq_getElem hk] at this
  exact Option.some.inj this

/-- Word `j` of a byte string (missing bytes are 0). -/
def wordAt (b : List Byte) (j : Nat) : W64 :=
  b.getD (8*j+7) 0 ++ b.getD (8*j+6) 0 ++ b.getD (8*j+5) 0 ++ b.getD (8*j+4) 0 ++
  b.getD (8*j+3) 0 ++ b.getD (8*j+2) 0 ++ b.getD (8*j+1) 0 ++ b.getD (8*j) 0

theorem leUint64_eq (b : List Byte) (h : 8 ≤ b.length) : leUint64 b = some (wordAt b 0) := by
  match b, h with
  | b0 :: b1 :: b2 :: b3 :: b4 :: b5 :: b6 :: b7 :: r, _ => rfl

theorem getD_drop (b : List Byte) (n k : Nat) : (b.drop n).getD k 0 = b.getD (n + k) 0 := by
  simp [List.getD_eq_getElem?_getD, List.getElem?_drop]

theorem wordAt_drop (b : List Byte) (n j : Nat) : wordAt (b.drop (8 * n)) j = wordAt b (n + j) := by
  simp only [wordAt, getD_drop]
  have h : ∀ t, 8 * n + (8 * j + t) = 8 * (n + j) + t := by intro t; omega
  simp only [h]
  have h0 : 8 * n + 8 * j = 8 * (n + j) := by omega
  rw [h0]

theorem wordAt_extract (b : List Byte) (j t : Nat) (ht : t < 8) :
    (wordAt b j).extractLsb' (8 * t) 8 = b.getD (8 * j + t) 0 := by
  have key : ∀ (x7 x6 x5 x4 x3 x2 x1 x0 : Byte),
      ((x7 ++ x6 ++ x5 ++ x4 ++ x3 ++ x2 ++ x1 ++ x0 : BitVec 64)).extractLsb' (8 * t) 8
        = match t with | 0 => x0 | 1 => x1 | 2 => x2 | 3 => x3 | 4 => x4 | 5 => x5 | 6 => x6 | _ => x7 := by
    intro x7 x6 x5 x4 x3 x2 x1 x0
    match t, ht with
    | 0, _ | 1, _ | 2, _ | 3, _ | 4, _ | 5, _ | 6, _ | 7, _ =>
      apply BitVec.eq_of_getLsbD_eq
      intro i hi
      simp only [BitVec.getLsbD_extractLsb', BitVec.getLsbD_append, hi, decide_true, Bool.true_and]
      repeat (first | rw [if_pos (by omega)] | rw [if_neg (by omega)])
      try congr 1
      try omega
  rw [wordAt, key]
  match t, ht with
  | 0, _ | 1, _ | 2, _ | 3, _ | 4, _ | 5, _ | 6, _ | 7, _ => rfl

/-! ### absorbing a block -/

theorem xorInLoop_spec (a : Vector W64 25) (buf : List Byte) (i n : Nat)
    (hn : 8 * n ≤ buf.length) (hi : i + n ≤ 25) :
    ∃ a', xorInLoop a buf i n = some a' ∧
      ∀ j (hj : j < 25), a'[j] = if i ≤ j ∧ j < i + n then a[j] ^^^ wordAt buf (j - i) else a[j] := by
  induction n generalizing a buf i with
  | zero => exact ⟨a, rfl, by intro j hj; rw [if_neg (by omega)]⟩
  | succ n ih =>
    have h8 : 8 ≤ buf.length := by omega
    have hi25 : i < 25 := by omega
    obtain ⟨a', h1, h2⟩ := ih (a.set i (a[i] ^^^ wordAt buf 0)) (buf.drop 8) (i + 1)
      (by rw [List.length_drop]; omega) (by omega)
    refine ⟨a', ?_, ?_⟩
    · simp only [xorInLoop, leUint64_eq buf h8, sliceFrom, h8, hi25, if_true, dite_true, Option.bind_eq_bind,
        Option.bind_some]
      exact h1
    · intro j hj
      rw [h2 j hj]
      have hw : wordAt (buf.drop 8) (j - (i + 1)) = wordAt buf (1 + (j - (i + 1))) := wordAt_drop buf 1 _
      rw [hw]
      by_cases hji : j = i
      · subst hji
        rw [if_neg (by omega), if_pos (by omega)]
        simp
      · rw [Vector.getElem_set_ne _ _ (by omega)]
        by_cases hr : i + 1 ≤ j ∧ j < i + 1 + n
        · rw [if_pos hr, if_pos (by omega)]
          congr 2; omega
        · rw [if_neg hr, if_neg (by omega)]

theorem xorInGeneric_spec (a : Vector W64 25) (buf : List Byte) (h : buf.length / 8 ≤ 25) :
    ∃ a', xorInGeneric a buf = some a' ∧
      ∀ j (hj : j < 25), a'[j] = if j < buf.length / 8 then a[j] ^^^ wordAt buf j else a[j] := by
  obtain ⟨a', h1, h2⟩ := xorInLoop_spec a buf 0 (buf.length / 8) (by omega) (by omega)
  refine ⟨a', h1, ?_⟩
  intro j hj
  rw [h2 j hj]
  simp

theorem xorWord_spec (buf : List Byte) (a : Vector W64 25) (i : Nat) (h1 : i < buf.length / 8) (h2 : i < 25) :
    xorWord buf a i = some (a.set i (a[i] ^^^ wordAt buf i)) := by
  have : leUint64 (buf.drop (8 * i)) = some (wordAt buf i) := by
    rw [leUint64_eq _ (by rw [List.length_drop]; omega), wordAt_drop]; rfl
  simp only [xorWord, bw, h1, if_true, this, Option.bind_eq_bind, Option.bind_some, h2, dite_true]

theorem foldlM_xorWord (buf : List Byte) (is : List Nat) (a : Vector W64 25) (hnd : is.Nodup)
    (h : ∀ i ∈ is, i < buf.length / 8 ∧ i < 25) :
    ∃ a', is.foldlM (xorWord buf) a = some a' ∧
      ∀ j (hj : j < 25), a'[j] = if j ∈ is then a[j] ^^^ wordAt buf j else a[j] := by
  induction is generalizing a with
  | nil => exact ⟨a, rfl, by simp⟩
  | cons i is ih =>
    obtain ⟨hi1, hi2⟩ := h i (by simp)
    rw [List.nodup_cons] at hnd
    obtain ⟨a', h1, h2⟩ := ih (a.set i (a[i] ^^^ wordAt buf i)) hnd.2 (fun k hk => h k (by simp [hk]))
    refine ⟨a', ?_, ?_⟩
    · rw [List.foldlM_cons, xorWord_spec buf a i hi1 hi2]; exact h1
    · intro j hj
      rw [h2 j hj]
      by_cases hji : j = i
      · subst hji
        rw [if_neg hnd.1, if_pos (by simp)]
        simp
      · rw [Vector.getElem_set_ne _ _ (by omega)]
        simp [hji]

/-- The block lengths the package passes to `xorIn`/`copyOut`: the five rates (168 is also the
buffer length). -/
def IsRate (r : Nat) : Prop := r = 72 ∨ r = 104 ∨ r = 136 ∨ r = 144 ∨ r = 168

theorem xorGroup_spec (buf : List Byte) (m : Nat) (is : List Nat) (a : Vector W64 25) (hnd : is.Nodup)
    (h : ∀ i ∈ is, 8 * i + 8 ≤ m ∧ i < 25) :
    ∃ a', xorGroup buf m is a = some a' ∧
      ∀ j (hj : j < 25), a'[j] = if m ≤ buf.length ∧ j ∈ is then a[j] ^^^ wordAt buf j else a[j] := by
  by_cases hm : m ≤ buf.length
  · obtain ⟨a', h1, h2⟩ := foldlM_xorWord buf is a hnd (fun i hi => by have := h i hi; omega)
    exact ⟨a', by rw [xorGroup, if_pos hm]; exact h1, by intro j hj; rw [h2 j hj]; simp [hm]⟩
  · exact ⟨a, by rw [xorGroup, if_neg hm], by intro j hj; simp [hm]⟩

theorem xorInUnaligned_spec (a : Vector W64 25) (buf : List Byte) (h : IsRate buf.length) :
    ∃ a', xorInUnaligned a buf = some a' ∧
      ∀ j (hj : j < 25), a'[j] = if j < buf.length / 8 then a[j] ^^^ wordAt buf j else a[j] := by
  obtain ⟨a1, e1, f1⟩ := xorGroup_spec buf 72 [0, 1, 2, 3, 4, 5, 6, 7, 8] a (by decide) (by decide)
  obtain ⟨a2, e2, f2⟩ := xorGroup_spec buf 104 [9, 10, 11, 12] a1 (by decide) (by decide)
  obtain ⟨a3, e3, f3⟩ := xorGroup_spec buf 136 [13, 14, 15, 16] a2 (by decide) (by decide)
  obtain ⟨a4, e4, f4⟩ := xorGroup_spec buf 144 [17] a3 (by decide) (by decide)
  obtain ⟨a5, e5, f5⟩ := xorGroup_spec buf 168 [18, 19, 20] a4 (by decide) (by decide)
  refine ⟨a5, ?_, ?_⟩
  · have hne : buf.length ≠ 0 := by rcases h with h | h | h | h | h <;> omega
    simp only [xorInUnaligned, hne, if_false, e1, e2, e3, e4, e5, Option.bind_eq_bind, Option.bind_some]
  · intro j hj
    rw [f5 j hj, f4 j hj, f3 j hj, f2 j hj, f1 j hj]
    simp only [List.mem_cons, List.not_mem_nil, or_false]
    rcases h with h | h | h | h | h <;> rw [h] <;> simp <;>
      (repeat' split) <;> first | rfl | omega


/-! ### byte-level effect -/

theorem ext200 {x y : List Byte} (hx : x.length = 200) (hy : y.length = 200)
    (h : ∀ k (hk : k < 200), x[k] = y[k]) : x = y := by
  apply List.ext_getElem (by omega)
  intro k h1 h2
  exact h k (by omega)

theorem laneBytes_xor (a a' : Vector W64 25) (b : List Byte) (h8 : b.length % 8 = 0) (hl : b.length ≤ 200)
    (h : ∀ j (hj : j < 25), a'[j] = if j < b.length / 8 then a[j] ^^^ wordAt b j else a[j]) :
    laneBytes a' = Spec.Keccak.xorBytes (laneBytes a) (b ++ List.replicate (200 - b.length) 0) := by
  have hlen : (Spec.Keccak.xorBytes (laneBytes a) (b ++ List.replicate (200 - b.length) 0)).length = 200 := by
    simp [Spec.Keccak.xorBytes, laneBytes_length]; omega
  apply ext200 (laneBytes_length a') hlen
  intro k hk
  rw [laneBytes_getElem]
  simp only [Spec.Keccak.xorBytes, List.getElem_zipWith]
  rw [laneBytes_getElem, h _ (by omega)]
  by_cases hkb : k < b.length
  · rw [if_pos (by omega), BitVec.extractLsb'_xor, wordAt_extract _ _ _ (by omega)]
    congr 1
    rw [List.getElem_append_left hkb]
    have : 8 * (k / 8) + k % 8 = k := by omega
    rw [this, List.getD_eq_getElem?_getD, List.getElem?_eq_getElem hkb]; rfl
  · rw [if_neg (by omega), List.getElem_append_right (by omega)]
    simp

theorem copyOutLoop_spec (a : Vector W64 25) (b : List Byte) (i fuel : Nat) (h8 : b.length % 8 = 0)
    (hi : 8 * i + b.length ≤ 200) (hf : b.length ≤ fuel) :
    copyOutLoop a b i fuel = some (((laneBytes a).drop (8 * i)).take b.length) := by
  induction fuel generalizing b i with
  | zero =>
    have : b = [] := List.length_eq_zero_iff.mp (by omega)
    subst this; simp [copyOutLoop]
  | succ fuel ih =>
    by_cases hb : 8 ≤ b.length
    · have hi25 : i < 25 := by omega
      rw [copyOutLoop, if_pos hb, dif_pos hi25, ih (b.drop 8) (i + 1) (by rw [List.length_drop]; omega)
        (by rw [List.length_drop]; omega) (by rw [List.length_drop]; omega)]
      simp only [Option.bind_eq_bind, Option.bind_some, Option.some.injEq]
      have hdl : (laneBytes a).drop (8 * i) = leBytes64 a[i] ++ (laneBytes a).drop (8 * (i + 1)) := by
        apply List.ext_getElem?
        intro k
        rw [List.getElem?_drop]
        by_cases hk : k < 8
        · rw [List.getElem?_append_left (by rw [leBytes64_length]; exact hk), leBytes64_getElem? _ _ hk,
            laneBytes_getElem? a _ (by omega)]
          have h1 : (8 * i + k) / 8 = i := by omega
          have h2 : (8 * i + k) % 8 = k := by omega
          simp only [h1, h2]
        · rw [List.getElem?_append_right (by rw [leBytes64_length]; omega), leBytes64_length, List.getElem?_drop]
          congr 1; omega
      rw [hdl, List.take_append, leBytes64_length, List.length_drop]
      congr 1
      rw [List.take_of_length_le (by rw [leBytes64_length]; exact hb)]
    · have : b = [] := List.length_eq_zero_iff.mp (by omega)
      subst this; simp [copyOutLoop]

theorem copyOutGeneric_spec (a : Vector W64 25) (b : List Byte) (h8 : b.length % 8 = 0) (h : b.length ≤ 200) :
    copyOutGeneric a b = some ((laneBytes a).take b.length) := by
  rw [copyOutGeneric, copyOutLoop_spec a b 0 _ h8 (by omega) (by omega)]; simp

theorem copyOutUnaligned_spec (a : Vector W64 25) (b : List Byte) (h : b.length ≤ 168) :
    copyOutUnaligned a b = some ((laneBytes a).take b.length) := by
  rw [copyOutUnaligned, goCopy]
  have h1 : ((laneBytes a).take maxRate).length = 168 := by
    rw [List.length_take, laneBytes_length]; rfl
  rw [h1, List.drop_of_length_le h, List.append_nil, List.take_take, maxRate, Nat.min_eq_left h]

/-! ### the permutation on byte strings -/

theorem bitOf_laneBytes (a : Vector W64 25) (x y : Fin 5) (z : Fin 64) :
    Spec.Keccak.bitOf (laneBytes a) (64 * (5 * y.val + x.val) + z.val) =
      (a[5 * y.val + x.val]).getLsbD z.val := by
  have hx := x.isLt; have hy := y.isLt; have hz := z.isLt
  rw [Spec.Keccak.bitOf, List.getD_eq_getElem?_getD, laneBytes_getElem? a _ (by omega), Option.getD_some]
  have h1 : (64 * (5 * y.val + x.val) + z.val) / 8 / 8 = 5 * y.val + x.val := by omega
  have h2 : (64 * (5 * y.val + x.val) + z.val) / 8 % 8 = z.val / 8 := by omega
  have h3 : (64 * (5 * y.val + x.val) + z.val) % 8 = z.val % 8 := by omega
  simp only [h1, h2, h3, BitVec.getLsbD_extractLsb']
  have h4 : z.val % 8 < 8 := by omega
  have h5 : 8 * (z.val / 8) + z.val % 8 = z.val := by omega
  simp [h4, h5]

theorem sig0_fin : ∀ j : Fin 25, (Lemmas.Keccak.sig0[j.val]).val = j.val := by decide

theorem sig0_get (i : Nat) (h : i < 25) : (Lemmas.Keccak.sig0[i]).val = i := sig0_fin ⟨i, h⟩

theorem view_sig0 (a : Vector W64 25) (x y : Fin 5) :
    Lemmas.Keccak.view Lemmas.Keccak.sig0 a x y = a[5 * y.val + x.val] := by
  simp only [Lemmas.Keccak.view, Fin.getElem_fin, sig0_get]

theorem ofBytes_laneBytes (a : Vector W64 25) :
    Spec.Keccak.ofBytes (laneBytes a) = Lemmas.Keccak.bitsOf (Lemmas.Keccak.view Lemmas.Keccak.sig0 a) := by
  funext x y z
  rw [Spec.Keccak.ofBytes, bitOf_laneBytes, Lemmas.Keccak.bitsOf, view_sig0]

theorem boolList8 : ∀ (b0 b1 b2 b3 b4 b5 b6 b7 : Bool) (j : Fin 8),
    (BitVec.ofBoolListLE [b0, b1, b2, b3, b4, b5, b6, b7]).getLsbD j.val =
      [b0, b1, b2, b3, b4, b5, b6, b7].getD j.val false := by decide +kernel

theorem byteOfBits_getLsbD (f : Nat → Bool) (j : Nat) (hj : j < 8) :
    (Spec.Keccak.byteOfBits f).getLsbD j = f j := by
  rw [Spec.Keccak.byteOfBits]
  refine (boolList8 _ _ _ _ _ _ _ _ ⟨j, hj⟩).trans ?_
  match j, hj with
  | 0, _ | 1, _ | 2, _ | 3, _ | 4, _ | 5, _ | 6, _ | 7, _ => rfl

theorem toBytes_bitsOf (a : Vector W64 25) :
    Spec.Keccak.toBytes (Lemmas.Keccak.bitsOf (Lemmas.Keccak.view Lemmas.Keccak.sig0 a)) = laneBytes a := by
  apply ext200 (by simp [Spec.Keccak.toBytes]) (laneBytes_length a)
  intro k hk
  rw [laneBytes_getElem]
  simp only [Spec.Keccak.toBytes, List.getElem_map, List.getElem_range]
  apply BitVec.eq_of_getLsbD_eq
  intro j hj
  rw [byteOfBits_getLsbD _ _ hj]
  simp only [BitVec.getLsbD_extractLsb', hj, decide_true, Bool.true_and]
  simp only [Lemmas.Keccak.bitsOf, view_sig0, Fin.val_ofNat]
  have h1 : 5 * ((8 * k + j) / 320 % 5) + (8 * k + j) / 64 % 5 = k / 8 := by omega
  have h2 : (8 * k + j) % 64 = 8 * (k % 8) + j := by omega
  simp only [h1, h2]

theorem laneBytes_keccakF1600 (a : Vector W64 25) :
    laneBytes (keccakF1600 a) = Spec.Keccak.keccakF (laneBytes a) := by
  rw [Spec.Keccak.keccakF, ofBytes_laneBytes, ← Lemmas.Keccak.bits_keccakF1600, toBytes_bitsOf]

/-- What the sponge code needs from a platform. -/
structure Good (P : Plat) : Prop where
  xorIn : ∀ a b, IsRate b.length → ∃ a', P.xorIn a b = some a' ∧
    laneBytes a' = Spec.Keccak.xorBytes (laneBytes a) (b ++ List.replicate (200 - b.length) 0)
  copyOut : ∀ a b, IsRate b.length → P.copyOut a b = some ((laneBytes a).take b.length)
  keccakF : ∀ a, laneBytes (P.keccakF a) = Spec.Keccak.keccakF (laneBytes a)

theorem IsRate.bounds {r : Nat} (h : IsRate r) : r % 8 = 0 ∧ r ≤ 168 ∧ 72 ≤ r := by
  rcases h with h | h | h | h | h <;> omega

theorem good_generic : Good platGeneric where
  xorIn a b h := by
    have := h.bounds
    obtain ⟨a', h1, h2⟩ := xorInGeneric_spec a b (by omega)
    exact ⟨a', h1, laneBytes_xor a a' b this.1 (by omega) h2⟩
  copyOut a b h := by have := h.bounds; exact copyOutGeneric_spec a b this.1 (by omega)
  keccakF := laneBytes_keccakF1600

theorem good_unaligned : Good platUnaligned where
  xorIn a b h := by
    have := h.bounds
    obtain ⟨a', h1, h2⟩ := xorInUnaligned_spec a b h
    exact ⟨a', h1, laneBytes_xor a a' b this.1 (by omega) h2⟩
  copyOut a b h := by have := h.bounds; exact copyOutUnaligned_spec a b (by omega)
  keccakF := laneBytes_keccakF1600

end Lemmas.Sha3
