import Verif.Lemmas.AsmCsidh
import Verif.Props.CsidhField
import Verif.Props.Sha3
/-!
More amd64 assembly: the CSIDH field (C84), the conditional swaps of CSIDH and SIDH (C85), and the Keccak permutation (C86).

`Returns R data args data'`: whatever registers and stack hold before, a call of `R` ends with the caller's arrays `data'` and the
caller's BP.
-/
namespace Props.AsmCsidh
open Model Model.Asm Model.Limb Model.Csidh Spec Spec.Asm Lemmas.CsidhArith Lemmas.AsmCsidh

local notation "𝕡" => Spec.Csidh.p

variable {z x y : List W64}

/-! ### C84: CSIDH multiplications -/

/-- `mul512` computes the portable product modulo 2^512 on every CPU, into another array or in place. -/
theorem c84_mul512 (c : Cpu) (m : W64) (lz : z.length = 8) (lx : x.length = 8) :
    Returns (AsmCsidh.mul512On c) [z, x] [.arr 0, .arr 1, .num m] [mul512 x m, x] ∧
    Returns (AsmCsidh.mul512On c) [x] [.arr 0, .arr 0, .num m] [mul512 x m] ∧
    (mul512 x m).length = 8 ∧ val (mul512 x m) = val x * m.toNat % 2 ^ 512 := by
  refine ⟨?_, ?_, mul512_spec x m lx⟩
  · cases c
    · exact mul512_base m lz lx
    · exact mul512_b m lz lx
    · exact mul512_b m lz lx
  · cases c
    · exact mul512_base_zx m lx
    · exact mul512_b_zx m lx
    · exact mul512_b_zx m lx

/-- `mul576` computes the portable product. -/
theorem c84_mul576 (m : W64) (lz : z.length = 9) (lx : x.length = 8) :
    Returns AsmCsidh.mul576 [z, x] [.arr 0, .arr 1, .num m] [mul576 x m, x] ∧
    (mul576 x m).length = 9 ∧ val (mul576 x m) = val x * m.toNat :=
  ⟨mul576_ret m lz lx, mul576_spec x m lx⟩

/-- `mulBmiAsm` computes the words of the portable `mulGeneric`, for all words, however the arguments alias. -/
theorem c84_mulBmi (a : Alias) (lz : z.length = 8) (lx : x.length = 8) (ly : y.length = 8) :
    Returns AsmCsidh.mulBmi (a.data z x y) (a.args.map .arr) ((a.data z x y).set 0 (mulGeneric x (a.snd x y))) :=
  bmi_all a lz lx ly

/-- The `mulRdc` of the amd64 build does, on every CPU and for all words, what the portable `mulRdc` does. -/
theorem c84_mulRdc (c : Cpu) (a : Alias) (lz : z.length = 8) (lx : x.length = 8) (ly : y.length = 8)
    (junk : Nat → Val) (fr : List Val) (bp fp : W64) (hf : fr.length = 1) :
    CsidhAmd64.mulRdc c junk fr bp fp (a.data z x y) (a.args.getD 0 0) (a.args.getD 1 0) (a.args.getD 2 0) =
      some ((a.data z x y).set 0 (mulRdc x (a.snd x y))) := by
  have hadx : CsidhAmd64.mulRdc .adx junk fr bp fp (a.data z x y) (a.args.getD 0 0) (a.args.getD 1 0) (a.args.getD 2 0) =
      some ((a.data z x y).set 0 (mulRdc x (a.snd x y))) := by
    have h := bmi_all a lz lx ly junk fr bp fp hf
    have ha : a.args.map Arg.arr = [.arr (a.args.getD 0 0), .arr (a.args.getD 1 0), .arr (a.args.getD 2 0)] := by cases a <;> rfl
    rw [ha] at h
    unfold CsidhAmd64.mulRdc
    simp only
    rw [h]
    simp only [arrays_w]
    cases a <;> rfl
  cases c
  · cases a <;> rfl
  · cases a <;> rfl
  · exact hadx

/-- So on every CPU it multiplies in F_p. -/
theorem c84_field (c : Cpu) (a : Alias) {u v : ZMod 𝕡} (lz : z.length = 8) (hx : Csidh.IsElt x u) (hy : Csidh.IsElt y v)
    (junk : Nat → Val) (fr : List Val) (bp fp : W64) (hf : fr.length = 1) :
    ∃ r, CsidhAmd64.mulRdc c junk fr bp fp (a.data z x y) (a.args.getD 0 0) (a.args.getD 1 0) (a.args.getD 2 0) =
      some ((a.data z x y).set 0 r) ∧ Csidh.IsElt r (u * match a with | .xy | .all => u | _ => v) := by
  refine ⟨_, c84_mulRdc c a lz hx.len hy.len junk fr bp fp hf, ?_⟩
  cases a
  · exact (Props.CsidhField.c64_field _ _ _ _ hx hy).2.2.1
  · exact (Props.CsidhField.c64_field _ _ _ _ hx hy).2.2.1
  · exact (Props.CsidhField.c64_field _ _ _ _ hx hy).2.2.1
  · exact (Props.CsidhField.c64_field _ _ _ _ hx hx).2.2.1
  · exact (Props.CsidhField.c64_field _ _ _ _ hx hx).2.2.1

/-! ### C85: conditional swaps -/

/-- The argument slot of `choice` is a word of the stack of which only the low byte is the argument. -/
def choiceOf (c : W64) : Byte := c.setWidth 8

open Lemmas.AsmSwap in
theorem swap_zero (n : Nat) (h : x.length = y.length) : swap1 0 n x y = x ∧ swap2 0 n x y = y := by
  have key : ∀ a b : List W64, a.length = b.length → cswapWords 0 a b = (a, b) := by
    intro a
    induction a with
    | nil => intro b h; cases b <;> first | rfl | simp at h
    | cons u a ih =>
      intro b h
      cases b with
      | nil => simp at h
      | cons v b => rw [cswapWords, ih b (by simpa using h)]; simp
  rw [swap1, swap2, key _ _ (by rw [List.length_take, List.length_take, h])]
  exact ⟨List.take_append_drop _ _, List.take_append_drop _ _⟩

open Lemmas.AsmSwap in
theorem swap_ones (n : Nat) (h : x.length = y.length) :
    swap1 0xffffffffffffffff n x y = y.take n ++ x.drop n ∧ swap2 0xffffffffffffffff n x y = x.take n ++ y.drop n := by
  have key : ∀ a b : List W64, a.length = b.length → cswapWords 0xffffffffffffffff a b = (b, a) := by
    intro a
    induction a with
    | nil => intro b h; cases b <;> first | rfl | simp at h
    | cons u a ih =>
      intro b h
      cases b with
      | nil => simp at h
      | cons v b =>
        rw [cswapWords, ih b (by simpa using h)]
        have e : ∀ w : W64, 0xffffffffffffffff &&& w = w := fun w => BitVec.allOnes_and
        simp only [e]
        rw [show u ^^^ v ^^^ u = v by rw [BitVec.xor_comm u v, BitVec.xor_assoc, BitVec.xor_self, BitVec.xor_zero],
          BitVec.xor_assoc, BitVec.xor_self, BitVec.xor_zero]
  rw [swap1, swap2, key _ _ (by rw [List.length_take, List.length_take, h])]
  exact ⟨rfl, rfl⟩

theorem mask_of {c : W64} (h : choiceOf c = 0 ∨ choiceOf c = 1) :
    (0 : W64) - (choiceOf c).setWidth 64 = (if choiceOf c = 1 then 0xffffffffffffffff else 0) := by
  rcases h with h | h <;> rw [h] <;> decide

/-- The swap of each SIDH field. -/
def cswapOf : Spec.Sidh.Fld → Routine
  | .p434 => AsmCsidh.cswapP434
  | .p503 => AsmCsidh.cswapP503
  | .p751 => AsmCsidh.cswapP751

/-- The assembly swap of the SIDH fields does what the portable one does, for every choice byte. -/
theorem c85_sidh_portable (f : Spec.Sidh.Fld) (c : W64) (lx : x.length = 12) (ly : y.length = 12) :
    Returns (cswapOf f) [x, y] [.arr 0, .arr 1, .num c]
      [(Sidh.cswapP (x.take f.words) (y.take f.words) (choiceOf c)).1 ++ x.drop f.words,
       (Sidh.cswapP (x.take f.words) (y.take f.words) (choiceOf c)).2 ++ y.drop f.words] := by
  intro junk fr bp fp _
  cases f
  · exact Lemmas.AsmSwap.cswap434 junk fr bp fp x y c lx ly
  · exact Lemmas.AsmSwap.cswap503 junk fr bp fp x y c lx ly
  · exact Lemmas.AsmSwap.cswap751 junk fr bp fp x y c lx ly

/-- It exchanges the words of the two field elements if choice is 1 and does nothing if choice is 0. -/
theorem c85_sidh (f : Spec.Sidh.Fld) (c : W64) (h : choiceOf c = 0 ∨ choiceOf c = 1) (lx : x.length = 12) (ly : y.length = 12) :
    Returns (cswapOf f) [x, y] [.arr 0, .arr 1, .num c]
      (if choiceOf c = 1 then [y.take f.words ++ x.drop f.words, x.take f.words ++ y.drop f.words] else [x, y]) := by
  have h1 := c85_sidh_portable f c lx ly
  have e : [(Sidh.cswapP (x.take f.words) (y.take f.words) (choiceOf c)).1 ++ x.drop f.words,
      (Sidh.cswapP (x.take f.words) (y.take f.words) (choiceOf c)).2 ++ y.drop f.words] =
      (if choiceOf c = 1 then [y.take f.words ++ x.drop f.words, x.take f.words ++ y.drop f.words] else [x, y]) := by
    change [Lemmas.AsmSwap.swap1 (0 - (choiceOf c).setWidth 64) f.words x y, Lemmas.AsmSwap.swap2 (0 - (choiceOf c).setWidth 64) f.words x y] = _
    rw [mask_of h]
    by_cases h0 : choiceOf c = 1
    · rw [if_pos h0, if_pos h0, (swap_ones f.words (lx.trans ly.symm)).1, (swap_ones f.words (lx.trans ly.symm)).2]
    · rw [if_neg h0, if_neg h0, (swap_zero f.words (lx.trans ly.symm)).1, (swap_zero f.words (lx.trans ly.symm)).2]
  rw [← e]; exact h1

theorem mask512_of {c : W64} (h : choiceOf c = 0 ∨ choiceOf c = 1) :
    Lemmas.AsmSwap.mask512 c = (if choiceOf c = 1 then 0xffffffffffffffff else 0) := by
  rw [Lemmas.AsmSwap.mask512]
  change (((0 : W64) - (choiceOf c).setWidth 64) &&& _) ||| (((0 : W64) - (choiceOf c).setWidth 64) <<< 32) = _
  rcases h with h | h <;> rw [h] <;> decide

/-- The assembly swap of CSIDH exchanges its arguments if choice is 1 and does nothing if choice is 0, as the portable one does. -/
theorem c85_csidh (c : W64) (h : choiceOf c = 0 ∨ choiceOf c = 1) (lx : x.length = 8) (ly : y.length = 8) :
    Returns AsmCsidh.cswap512 [x, y] [.arr 0, .arr 1, .num c] (if choiceOf c = 1 then [y, x] else [x, y]) ∧
    cswap512 x y (choiceOf c) = (if choiceOf c = 1 then (y, x) else (x, y)) := by
  have hx : x.take 8 = x := List.take_of_length_le (by omega)
  have hy : y.take 8 = y := List.take_of_length_le (by omega)
  have dx : x.drop 8 = [] := List.drop_of_length_le (by omega)
  have dy : y.drop 8 = [] := List.drop_of_length_le (by omega)
  constructor
  · intro junk fr bp fp _
    rw [Lemmas.AsmSwap.cswap512_gives junk fr bp fp x y c lx ly, mask512_of h]
    by_cases h0 : choiceOf c = 1
    · rw [if_pos h0, if_pos h0, (swap_ones 8 (lx.trans ly.symm)).1, (swap_ones 8 (lx.trans ly.symm)).2, hx, hy, dx, dy, List.append_nil, List.append_nil]
      rfl
    · rw [if_neg h0, if_neg h0, (swap_zero 8 (lx.trans ly.symm)).1, (swap_zero 8 (lx.trans ly.symm)).2]
      rfl
  · have e : cswap512 x y (choiceOf c) = (Lemmas.AsmSwap.swap1 (0 - (choiceOf c).setWidth 64) 8 x y, Lemmas.AsmSwap.swap2 (0 - (choiceOf c).setWidth 64) 8 x y) := by
      rw [Lemmas.AsmSwap.swap1, Lemmas.AsmSwap.swap2, hx, hy, dx, dy, List.append_nil, List.append_nil]; rfl
    rw [e, mask_of h]
    by_cases h0 : choiceOf c = 1
    · rw [if_pos h0, if_pos h0, (swap_ones 8 (lx.trans ly.symm)).1, (swap_ones 8 (lx.trans ly.symm)).2, hx, hy, dx, dy, List.append_nil, List.append_nil]
    · rw [if_neg h0, if_neg h0, (swap_zero 8 (lx.trans ly.symm)).1, (swap_zero 8 (lx.trans ly.symm)).2]

/-- For another choice, of which the comment at fp511_generic.go:84 says that the behaviour is undefined, the two builds differ:
the assembly copies the low half of the mask. -/
theorem c85_other : ∃ (c : W64) (x y : List W64), x.length = 8 ∧ y.length = 8 ∧
    ¬ Returns AsmCsidh.cswap512 [x, y] [.arr 0, .arr 1, .num c] [(cswap512 x y (choiceOf c)).1, (cswap512 x y (choiceOf c)).2] := by
  refine ⟨2, List.replicate 8 0, List.replicate 8 0xffffffffffffffff, rfl, rfl, fun h => ?_⟩
  have h1 := h (fun _ => .w 0) [] 0 0 rfl
  rw [Lemmas.AsmSwap.cswap512_gives _ _ _ _ _ _ _ rfl rfl] at h1
  have h2 : ((Lemmas.AsmSwap.swap1 (Lemmas.AsmSwap.mask512 2) 8 (List.replicate 8 0) (List.replicate 8 0xffffffffffffffff)).map Val.w) =
      (cswap512 (List.replicate 8 0) (List.replicate 8 0xffffffffffffffff) (choiceOf 2)).1.map Val.w := by
    have := congrArg (fun r => r.map fun p => p.1.headD []) h1
    exact Option.some.inj this
  have h3 := congrArg (fun l => (l.map fun | Val.w w => w.toNat | .ptr b => b)) h2
  revert h3
  decide +kernel

/-! ### C86: the Keccak permutation -/

/-- The assembly permutation does to the 25 lanes what the portable Go code does. -/
theorem c86_portable (a : Vector W64 25) :
    Returns AsmKeccak.keccakF1600 [a.toList] [.arr 0] [(Sha3.keccakF1600 a).toList] :=
  fun junk fr bp fp hf => Lemmas.AsmKeccak.keccak_gives a junk fr bp fp hf

/-- So it is Keccak-p[1600, 24] of FIPS 202. -/
theorem c86_fips (a : Vector W64 25) : ∃ b : Vector W64 25,
    Returns AsmKeccak.keccakF1600 [a.toList] [.arr 0] [b.toList] ∧ Sha3.laneBytes b = Spec.Keccak.keccakF (Sha3.laneBytes a) :=
  ⟨_, c86_portable a, Props.Sha3.c02_keccakF a⟩

/-! ### Examples: the hypotheses are met -/

example : ∃ c : W64, choiceOf c = 1 ∧ c ≠ 1 := ⟨0xffffffffffffff01, by decide, by decide⟩

/-- Elements as `c84_field` wants them, and the product of 2 with itself on the machine: 4 on every CPU. -/
example : Csidh.IsElt two 2 ∧ Csidh.IsElt four 4 ∧ ∀ c, (CsidhAmd64.mulRdc c (fun _ => .w 7) [.w 8] 5 9 [two, one] 1 0 0) = some [two, four] := by
  refine ⟨Lemmas.CsidhField.two_elt, Lemmas.CsidhField.four_elt, fun c => ?_⟩
  have e : ((CsidhAmd64.mulRdc c (fun _ => .w 7) [.w 8] 5 9 [two, one] 1 0 0).map fun l => l.map fun d => d.map BitVec.toNat) =
      some ([two, four].map fun d => d.map BitVec.toNat) := by
    cases c <;> decide +kernel
  have inj : Function.Injective (Option.map fun l : List (List W64) => l.map fun d => d.map BitVec.toNat) :=
    Option.map_injective (List.map_injective_iff.mpr (List.map_injective_iff.mpr fun a b h => BitVec.eq_of_toNat_eq h))
  exact inj e

/-- The machine runs the permutation: the first lane of Keccak-f[1600](0). -/
example : ((AsmKeccak.keccakF1600.call (fun _ => .w 7) (List.replicate 25 (.w 3)) 5 9 [List.replicate 25 0] [.arr 0]).map fun r =>
    ((r.1.headD []).headD (.w 0) |> fun | .w w => w.toNat | .ptr _ => 0)) = some 0xF1258F7940E1DDE7 := by decide +kernel

end Props.AsmCsidh
