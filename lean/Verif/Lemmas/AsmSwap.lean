import Verif.Model.AsmCsidh
import Verif.Lemmas.AsmBit
import Verif.Model.SidhArith
import Mathlib.Tactic.IntervalCases
/-
The conditional swaps in assembly: `cswap512` of dh/csidh and `cswapP434`, `cswapP503`, `cswapP751` of dh/sidh.
-/
namespace Lemmas.AsmSwap
open Model Model.Asm Model.Limb Model.AsmCsidh Lemmas.AsmBit

/-- Inputs: words of x from 0, of y from l, the mask 2l and the caller's BP 2l + 1. -/
def env (l : Nat) (x y : List W64) (m bp : W64) (v : Nat) : W64 :=
  if v < l then x.getD v 0 else if v < 2 * l then y.getD (v - l) 0 else if v = 2 * l then m else bp

def words (a n : Nat) : List TV := (List.range n).map fun i => .vars [a + i]

/-- The blocks: the arguments, an empty frame, x and y. -/
def memL (l : Nat) : List (List TV) := [[.ptr 2, .ptr 3, .any], [], words 0 l, words l l]

/-- After the mask has been computed: in AX, or in both halves of X15. -/
def layA (l : Nat) : Lay := ⟨[.vars [2 * l], .any, .any, .any, .ptr 1, .vars [2 * l + 1], .ptr 3, .ptr 2, .any, .any, .any, .any, .any, .any, .any, .any, .ptr 0] ++
  List.replicate 32 .any, memL l⟩
def layX (l : Nat) : Lay := ⟨[.any, .any, .any, .any, .ptr 1, .vars [2 * l + 1], .ptr 3, .ptr 2, .any, .any, .any, .any, .any, .any, .any, .any, .ptr 0] ++
  (List.replicate 30 .any ++ [.vars [2 * l], .vars [2 * l]]), memL l⟩
/-- At the end. -/
def layE (l : Nat) : Lay := ⟨[.any, .any, .any, .any, .any, .vars [2 * l + 1], .any, .any, .any, .any, .any, .any, .any, .any, .any, .any, .any] ++
  List.replicate 32 .any, memL l⟩

/-- The first n words of x and y after the swap. -/
def swapQ (l n : Nat) : List Ex :=
  ((List.range l).map fun i => if i < n then .xor (.and (.var (2 * l)) (.xor (.var i) (.var (l + i)))) (.var i) else .var i) ++
  (((List.range l).map fun i => if i < n then .xor (.and (.var (2 * l)) (.xor (.var i) (.var (l + i)))) (.var (l + i)) else .var (l + i)) ++
  [.var (2 * l), .var (2 * l + 1)])

set_option maxRecDepth 100000 in
theorem hop434 : hop (layA 12) (cswapP434Code.drop 5) (layE 12) (swapQ 12 7) = true := by decide +kernel
set_option maxRecDepth 100000 in
theorem hop503 : hop (layA 12) (cswapP503Code.drop 5) (layE 12) (swapQ 12 8) = true := by decide +kernel
set_option maxRecDepth 100000 in
theorem hop751 : hop (layA 12) (cswapP751Code.drop 5) (layE 12) (swapQ 12 12) = true := by decide +kernel
set_option maxRecDepth 100000 in
theorem hop512 : hop (layX 8) (cswap512Code.drop 8) (layE 8) (swapQ 8 8) = true := by decide +kernel

/-! ### The portable swap, word by word -/

theorem cswap_len (m : W64) : ∀ (x y : List W64), x.length = y.length →
    (cswapWords m x y).1.length = x.length ∧ (cswapWords m x y).2.length = x.length := by
  intro x
  induction x with
  | nil => intro y h; cases y with
    | nil => exact ⟨rfl, rfl⟩
    | cons _ _ => simp at h
  | cons a x ih => intro y h; cases y with
    | nil => simp at h
    | cons b y =>
      obtain ⟨h1, h2⟩ := ih y (by simpa using h)
      simp [cswapWords, h1, h2]

theorem cswap_get (m : W64) : ∀ (x y : List W64) (i : Nat), x.length = y.length → i < x.length →
    (cswapWords m x y).1.getD i 0 = (m &&& (x.getD i 0 ^^^ y.getD i 0)) ^^^ x.getD i 0 ∧
    (cswapWords m x y).2.getD i 0 = (m &&& (x.getD i 0 ^^^ y.getD i 0)) ^^^ y.getD i 0 := by
  intro x
  induction x with
  | nil => intro y i _ h; simp at h
  | cons a x ih => intro y i h hi; cases y with
    | nil => simp at h
    | cons b y =>
      cases i with
      | zero => exact ⟨rfl, rfl⟩
      | succ i =>
        have := ih y i (by simpa using h) (by simpa using hi)
        simpa [cswapWords] using this

/-- The two arrays after swapping their first n words under a mask. -/
def swap1 (m : W64) (n : Nat) (x y : List W64) : List W64 := (cswapWords m (x.take n) (y.take n)).1 ++ x.drop n
def swap2 (m : W64) (n : Nat) (x y : List W64) : List W64 := (cswapWords m (x.take n) (y.take n)).2 ++ y.drop n

theorem getD_app (a b : List W64) (i : Nat) : (a ++ b).getD i 0 = if i < a.length then a.getD i 0 else b.getD (i - a.length) 0 := by
  simp only [List.getD_eq_getElem?_getD]
  split
  · rw [List.getElem?_append_left ‹_›]
  · rw [List.getElem?_append_right (by omega)]

theorem getD_take (a : List W64) (n i : Nat) (h : i < n) : (a.take n).getD i 0 = a.getD i 0 := by
  simp only [List.getD_eq_getElem?_getD, List.getElem?_take, h, if_true]

theorem getD_drop (a : List W64) (n i : Nat) : (a.drop n).getD i 0 = a.getD (n + i) 0 := by
  simp only [List.getD_eq_getElem?_getD, List.getElem?_drop]

theorem swap_get {m : W64} {n l : Nat} {x y : List W64} (hx : x.length = l) (hy : y.length = l) (hn : n ≤ l) (i : Nat) :
    (swap1 m n x y).getD i 0 = (if i < n then (m &&& (x.getD i 0 ^^^ y.getD i 0)) ^^^ x.getD i 0 else x.getD i 0) ∧
    (swap2 m n x y).getD i 0 = (if i < n then (m &&& (x.getD i 0 ^^^ y.getD i 0)) ^^^ y.getD i 0 else y.getD i 0) := by
  have lx : (x.take n).length = n := by rw [List.length_take]; omega
  have ly : (y.take n).length = n := by rw [List.length_take]; omega
  obtain ⟨l1, l2⟩ := cswap_len m (x.take n) (y.take n) (by omega)
  rw [swap1, swap2, getD_app, getD_app, l1, l2, lx]
  split
  · obtain ⟨h1, h2⟩ := cswap_get m (x.take n) (y.take n) i (by omega) (by omega)
    rw [h1, h2, getD_take _ _ _ ‹_›, getD_take _ _ _ ‹_›]
    exact ⟨rfl, rfl⟩
  · rw [getD_drop, getD_drop, show n + (i - n) = i by omega]
    exact ⟨rfl, rfl⟩

theorem swap_len {m : W64} {n l : Nat} {x y : List W64} (hx : x.length = l) (hy : y.length = l) (hn : n ≤ l) :
    (swap1 m n x y).length = l ∧ (swap2 m n x y).length = l := by
  have lx : (x.take n).length = n := by rw [List.length_take]; omega
  have ly : (y.take n).length = n := by rw [List.length_take]; omega
  obtain ⟨l1, l2⟩ := cswap_len m (x.take n) (y.take n) (by omega)
  rw [swap1, swap2, List.length_append, List.length_append, l1, l2, lx, List.length_drop, List.length_drop]
  omega

theorem env_m (l : Nat) (x y : List W64) (m bp : W64) : env l x y m bp (2 * l) = m := by
  rw [env, if_neg (by omega), if_neg (by omega), if_pos rfl]

theorem env_bp (l : Nat) (x y : List W64) (m bp : W64) : env l x y m bp (2 * l + 1) = bp := by
  rw [env, if_neg (by omega), if_neg (by omega), if_neg (by omega)]

theorem swap_env {m bp : W64} {n l : Nat} {x y : List W64} (hx : x.length = l) (hy : y.length = l) (hn : n ≤ l) :
    ∀ (v : Nat) (q : Ex), (swapQ l n)[v]? = some q → env l (swap1 m n x y) (swap2 m n x y) m bp v = q.den (env l x y m bp) := by
  intro v q h
  rw [swapQ] at h
  have em : env l x y m bp (2 * l) = m := env_m l x y m bp
  have eb : env l x y m bp (2 * l + 1) = bp := env_bp l x y m bp
  have ex : ∀ i, i < l → env l x y m bp i = x.getD i 0 := fun i hi => by rw [env, if_pos hi]
  have ey : ∀ i, i < l → env l x y m bp (l + i) = y.getD i 0 := fun i hi => by
    rw [env, if_neg (by omega), if_pos (by omega), Nat.add_sub_cancel_left]
  by_cases h1 : v < l
  · rw [List.getElem?_append_left (by simpa using h1), List.getElem?_map, List.getElem?_range h1] at h
    simp only [Option.map_some, Option.some.injEq] at h
    rw [← h, env, if_pos h1, (swap_get hx hy hn v).1]
    split
    · simp only [Ex.den, em, ex v h1, ey v h1]
    · simp only [Ex.den, ex v h1]
  · rw [List.getElem?_append_right (by simpa using h1), List.length_map, List.length_range] at h
    by_cases h2 : v < 2 * l
    · have h3 : v - l < l := by omega
      rw [List.getElem?_append_left (by simpa using h3), List.getElem?_map, List.getElem?_range h3] at h
      simp only [Option.map_some, Option.some.injEq] at h
      rw [← h, env, if_neg h1, if_pos h2, (swap_get hx hy hn (v - l)).2]
      split
      · simp only [Ex.den, em, ex _ h3, ey _ h3]
      · simp only [Ex.den, ey _ h3]
    · rw [List.getElem?_append_right (by simp; omega), List.length_map, List.length_range] at h
      obtain ⟨k, rfl⟩ : ∃ k, v = 2 * l + k := ⟨v - 2 * l, by omega⟩
      rw [show 2 * l + k - l - l = k by omega] at h
      match k, h with
      | 0, h =>
        simp only [List.getElem?_cons_zero, Option.some.injEq] at h
        rw [← h, Ex.den, Nat.add_zero, em, env_m]
      | 1, h =>
        simp only [List.getElem?_cons_zero, List.getElem?_cons_succ, Option.some.injEq] at h
        rw [← h, Ex.den, eb, env_bp]
      | k + 2, h => simp at h

/-! ### Layouts of the blocks -/

theorem words_to {e : Nat → W64} (a : Nat) : ∀ (x : List W64) (o : Nat), (∀ i, i < x.length → e (a + (o + i)) = x.getD i 0) →
    List.Forall₂ (TV.rel e) ((List.range' o x.length).map fun i => .vars [a + i]) (x.map Val.w) := by
  intro x
  induction x with
  | nil => intro o _; exact .nil
  | cons w x ih =>
    intro o h
    rw [List.length_cons, List.range'_succ]
    refine .cons ?_ (ih (o + 1) (fun i hi => ?_))
    · have := h 0 (by simp)
      simp only [TV.rel, xorE]
      rw [Nat.add_zero] at this
      rw [this]; simp
    · have := h (i + 1) (by simpa using hi)
      rw [show o + 1 + i = o + (i + 1) by omega, this]; rfl

theorem words_of {e : Nat → W64} (a : Nat) : ∀ (x : List W64) (o : Nat) (l : List Val), (∀ i, i < x.length → e (a + (o + i)) = x.getD i 0) →
    List.Forall₂ (TV.rel e) ((List.range' o x.length).map fun i => .vars [a + i]) l → l = x.map Val.w := by
  intro x
  induction x with
  | nil => intro o l _ h; cases h; rfl
  | cons w x ih =>
    intro o l h hr
    rw [List.length_cons, List.range'_succ] at hr
    cases hr with
    | cons h1 h2 =>
      rw [List.map_cons, ← ih (o + 1) _ (fun i hi => ?_) h2]
      · have := h 0 (by simp)
        rw [Nat.add_zero] at this
        rw [h1]
        simp only [xorE]
        rw [this]; simp
      · have := h (i + 1) (by simpa using hi)
        rw [show o + 1 + i = o + (i + 1) by omega, this]; rfl

theorem words_eq (a n : Nat) : words a n = (List.range' 0 n).map fun i => .vars [a + i] := by rw [words, List.range_eq_range']

theorem mem_at {l : Nat} {x y : List W64} (hx : x.length = l) (hy : y.length = l) (m bp : W64) (v : Val) :
    List.Forall₂ (List.Forall₂ (TV.rel (env l x y m bp))) (memL l) [[.ptr 2, .ptr 3, v], [], x.map .w, y.map .w] := by
  refine .cons (.cons rfl (.cons rfl (.cons trivial .nil))) (.cons .nil (.cons ?_ (.cons ?_ .nil)))
  · rw [words_eq, ← hx]
    refine words_to 0 x 0 (fun i hi => ?_)
    simp only [env, Nat.zero_add, hi, if_true]
  · have h := words_to (e := env l x y m bp) l y 0 (fun i hi => by
      rw [hy] at hi
      rw [env, if_neg (by omega), if_pos (by omega), Nat.zero_add, Nat.add_sub_cancel_left])
    rw [hy] at h
    rw [words_eq]
    exact h

theorem mem_of {l : Nat} {x y : List W64} (hx : x.length = l) (hy : y.length = l) {m bp : W64} {M : List (List Val)}
    (h : List.Forall₂ (List.Forall₂ (TV.rel (env l x y m bp))) (memL l) M) : M.drop 2 = [x.map .w, y.map .w] := by
  rw [memL] at h
  cases h with
  | cons _ h => cases h with
    | cons _ h => cases h with
      | cons m2 h => cases h with
        | cons m3 h => cases h with
          | nil =>
            rw [words_eq, ← hx] at m2
            have w2 := words_of 0 x 0 _ (fun i hi => by simp only [env, Nat.zero_add, ← hx, hi, if_true]) m2
            rw [words_eq] at m3
            have w3 := words_of (e := env l x y m bp) l y 0 _ (fun i hi => by
              rw [hy] at hi
              rw [env, if_neg (by omega), if_pos (by omega), Nat.zero_add, Nat.add_sub_cancel_left]) (by rw [hy]; exact m3)
            rw [w2, w3]; rfl

theorem any32 {e : Nat → W64} : ∀ (l : List Val), List.Forall₂ (TV.rel e) (List.replicate l.length .any) l := by
  intro l
  induction l with
  | nil => exact .nil
  | cons v l ih => exact .cons trivial ih

/-- From the layout after the mask to the end of the call. -/
theorem finish {R : Routine} {T : Lay} {k l n : Nat} (hR : R.frame = 0) (hg : R.glob = []) (hh : hop T (R.code.drop k) (layE l) (swapQ l n) = true)
    {x y : List W64} (hx : x.length = l) (hy : y.length = l) (hn : n ≤ l) {m bp : W64} {junk : Nat → Val} {fr : List Val} {fp : W64} {args : List Arg} {s : St}
    (hs : run (R.start junk fr bp fp [x, y] args) (R.code.take k) = some s) (ht : T.At (env l x y m bp) s) :
    R.call junk fr bp fp [x, y] args = some ([(swap1 m n x y).map .w, (swap2 m n x y).map .w], some (.w bp)) := by
  obtain ⟨s', h1, h2⟩ := hop_sound hh ht
  have h2 := h2 _ (swap_env (m := m) (bp := bp) hx hy hn)
  obtain ⟨l1, l2⟩ := swap_len (m := m) hx hy hn
  have hrun : run (R.start junk fr bp fp [x, y] args) R.code = some s' := by
    conv_lhs => rw [← List.take_append_drop k R.code]
    rw [run_append, hs, Option.bind_some, h1]
  have hm := mem_of l1 l2 h2.mem
  obtain ⟨v, hv, hvr⟩ := forall₂_get h2.reg (i := 5) (a := .vars [2 * l + 1]) rfl
  have hvr : v = .w bp := by
    rw [hvr]; simp only [xorE]; rw [env_bp]; simp
  unfold Routine.call
  rw [hrun]
  simp only [Routine.bpAfter, hR, hg, List.length_nil, Nat.add_zero, if_true, hm]
  change some (_, s'.reg[5]?) = _
  rw [hv, hvr]

/-! ### The masks -/

theorem byte_eq (c : W64) : c &&& 255#64 = (c.setWidth 8).setWidth 64 := by
  apply BitVec.eq_of_getLsbD_eq
  intro i hi
  have : (255#64).getLsbD i = decide (i < 8) := by
    interval_cases i <;> rfl
  simp only [BitVec.getLsbD_and, this, BitVec.getLsbD_setWidth, hi, decide_true, Bool.true_and, Bool.and_comm]

theorem mask_byte (c : W64) : (0 : W64) - (c &&& 0xff) = 0 - (c.setWidth 8).setWidth 64 := congrArg (fun x : W64 => 0 - x) (byte_eq c)

theorem tail_any {e : Nat → W64} (junk : Nat → Val) : List.Forall₂ (TV.rel e) (List.replicate 32 .any) ((List.range 32).map fun i => junk (17 + i)) := by
  have := any32 (e := e) ((List.range 32).map fun i => junk (17 + i))
  rwa [List.length_map, List.length_range] at this

/-- The first five instructions of the SIDH swaps. -/
def proA : List Instr := [MOVQ (.mem FP 0) (.reg DI), MOVQ (.mem FP 1) (.reg SI), MOVB (.mem FP 2) (.reg AX), MOVBLZX (.reg AX) (.reg AX), NEGQ (.reg AX)]

theorem pro_run {R : Routine} (hR : R.frame = 0) (hg : R.glob = []) (junk : Nat → Val) (fr : List Val) (bp fp : W64) (x y : List W64) (c : W64) {l : Nat}
    (hx : x.length = l) (hy : y.length = l) :
    ∃ s, run (R.start junk fr bp fp [x, y] [.arr 0, .arr 1, .num c]) proA = some s ∧ (layA l).At (env l x y (0 - (c.setWidth 8).setWidth 64) bp) s := by
  have hb : ∀ y : W64, ((y &&& ~~~0xff) ||| (c &&& 0xff)) &&& 0xff = c &&& 0xff := by
    intro y
    apply BitVec.eq_of_getLsbD_eq
    intro i hi
    simp only [BitVec.getLsbD_and, BitVec.getLsbD_or, BitVec.getLsbD_not]
    cases (0xff : W64).getLsbD i <;> simp
  have hb2 : (c &&& 0xff) &&& 0xff = c &&& (0xff : W64) := by rw [BitVec.and_assoc, BitVec.and_self]
  refine ⟨⟨[.w (0 - (c &&& 0xff)), junk 1, junk 2, junk 3, .ptr 1, .w bp, .ptr 3, .ptr 2, junk 8, junk 9, junk 10, junk 11, junk 12, junk 13, junk 14,
      junk 15, .ptr 0] ++ (List.range 32).map (fun i => junk (17 + i)), none, none,
      [[.ptr 2, .ptr 3, .w c], [], x.map .w, y.map .w]⟩, ?_, ?_⟩
  · have hst : R.start junk fr bp fp [x, y] [.arr 0, .arr 1, .num c] = ⟨[junk 0, junk 1, junk 2, junk 3, .ptr 1, .w bp, junk 6, junk 7, junk 8, junk 9,
        junk 10, junk 11, junk 12, junk 13, junk 14, junk 15, .ptr 0] ++ (List.range 32).map (fun i => junk (17 + i)), none, none,
        [[.ptr 2, .ptr 3, .w c], [], x.map .w, y.map .w]⟩ := by
      simp only [Routine.start, hR, hg, if_true]; rfl
    rw [hst]
    generalize junk 0 = j
    cases j with
    | w z => rw [← hb z]; rfl
    | ptr b => rw [← hb2]; rfl
  · refine ⟨List.rel_append ?_ (tail_any junk), mem_at hx hy _ bp _⟩
    rw [mask_byte]
    refine .cons ?_ (.cons trivial (.cons trivial (.cons trivial (.cons rfl (.cons ?_ (.cons rfl (.cons rfl (.cons trivial (.cons trivial
      (.cons trivial (.cons trivial (.cons trivial (.cons trivial (.cons trivial (.cons trivial (.cons rfl .nil))))))))))))))))
    · simp only [TV.rel, xorE]; rw [env_m]; simp
    · simp only [TV.rel, xorE]; rw [env_bp]; simp

theorem cswap434 (junk : Nat → Val) (fr : List Val) (bp fp : W64) (x y : List W64) (c : W64) (hx : x.length = 12) (hy : y.length = 12) :
    cswapP434.call junk fr bp fp [x, y] [.arr 0, .arr 1, .num c] =
      some ([(swap1 (0 - (c.setWidth 8).setWidth 64) 7 x y).map .w, (swap2 (0 - (c.setWidth 8).setWidth 64) 7 x y).map .w], some (.w bp)) := by
  obtain ⟨s, h1, h2⟩ := pro_run (R := cswapP434) rfl rfl junk fr bp fp x y c hx hy
  exact finish (R := cswapP434) (k := 5) rfl rfl hop434 hx hy (by decide) h1 h2

theorem cswap503 (junk : Nat → Val) (fr : List Val) (bp fp : W64) (x y : List W64) (c : W64) (hx : x.length = 12) (hy : y.length = 12) :
    cswapP503.call junk fr bp fp [x, y] [.arr 0, .arr 1, .num c] =
      some ([(swap1 (0 - (c.setWidth 8).setWidth 64) 8 x y).map .w, (swap2 (0 - (c.setWidth 8).setWidth 64) 8 x y).map .w], some (.w bp)) := by
  obtain ⟨s, h1, h2⟩ := pro_run (R := cswapP503) rfl rfl junk fr bp fp x y c hx hy
  exact finish (R := cswapP503) (k := 5) rfl rfl hop503 hx hy (by decide) h1 h2

theorem cswap751 (junk : Nat → Val) (fr : List Val) (bp fp : W64) (x y : List W64) (c : W64) (hx : x.length = 12) (hy : y.length = 12) :
    cswapP751.call junk fr bp fp [x, y] [.arr 0, .arr 1, .num c] =
      some ([(swap1 (0 - (c.setWidth 8).setWidth 64) 12 x y).map .w, (swap2 (0 - (c.setWidth 8).setWidth 64) 12 x y).map .w], some (.w bp)) := by
  obtain ⟨s, h1, h2⟩ := pro_run (R := cswapP751) rfl rfl junk fr bp fp x y c hx hy
  exact finish (R := cswapP751) (k := 5) rfl rfl hop751 hx hy (by decide) h1 h2

/-- The mask of `cswap512`: the low half of the negated choice, twice. -/
def mask512 (c : W64) : W64 := ((0 - (c.setWidth 8).setWidth 64) &&& 0xffffffff) ||| ((0 - (c.setWidth 8).setWidth 64) <<< 32)

theorem cswap512_gives (junk : Nat → Val) (fr : List Val) (bp fp : W64) (x y : List W64) (c : W64) (hx : x.length = 8) (hy : y.length = 8) :
    AsmCsidh.cswap512.call junk fr bp fp [x, y] [.arr 0, .arr 1, .num c] =
      some ([(swap1 (mask512 c) 8 x y).map .w, (swap2 (mask512 c) 8 x y).map .w], some (.w bp)) := by
  have hst : AsmCsidh.cswap512.start junk fr bp fp [x, y] [.arr 0, .arr 1, .num c] = ⟨[junk 0, junk 1, junk 2, junk 3, .ptr 1, .w bp, junk 6, junk 7,
      junk 8, junk 9, junk 10, junk 11, junk 12, junk 13, junk 14, junk 15, .ptr 0] ++ (List.range 32).map (fun i => junk (17 + i)), none, none,
      [[.ptr 2, .ptr 3, .w c], [], x.map .w, y.map .w]⟩ := rfl
  refine finish (R := AsmCsidh.cswap512) (T := layX 8) (k := 8) rfl rfl hop512 hx hy (by decide) (s := ⟨[.w (0 - (c &&& 0xff)), junk 1, junk 2, junk 3, .ptr 1,
      .w bp, .ptr 3, .ptr 2, junk 8, junk 9, junk 10, junk 11, junk 12, junk 13, junk 14, junk 15, .ptr 0] ++ (((List.range 30).map fun i => junk (17 + i)) ++
      [.w (((0 - (c &&& 0xff)) &&& 0xffffffff) ||| ((0 - (c &&& 0xff)) <<< 32)), .w (((0 - (c &&& 0xff)) &&& 0xffffffff) ||| ((0 - (c &&& 0xff)) <<< 32))]),
      none, none, [[.ptr 2, .ptr 3, .w c], [], x.map .w, y.map .w]⟩) ?_ ?_
  · rw [hst]; rfl
  · refine ⟨List.rel_append ?_ (List.rel_append ?_ (.cons ?_ (.cons ?_ .nil))), mem_at hx hy _ bp _⟩
    · refine .cons trivial (.cons trivial (.cons trivial (.cons trivial (.cons rfl (.cons ?_ (.cons rfl (.cons rfl (.cons trivial (.cons trivial
        (.cons trivial (.cons trivial (.cons trivial (.cons trivial (.cons trivial (.cons trivial (.cons rfl .nil))))))))))))))))
      simp only [TV.rel, xorE]; rw [env_bp]; simp
    · have := any32 (e := env 8 x y (mask512 c) bp) ((List.range 30).map fun i => junk (17 + i))
      rwa [List.length_map, List.length_range] at this
    · simp only [TV.rel, xorE]; rw [env_m, mask512]; simp [byte_eq]
    · simp only [TV.rel, xorE]; rw [env_m, mask512]; simp [byte_eq]

end Lemmas.AsmSwap
