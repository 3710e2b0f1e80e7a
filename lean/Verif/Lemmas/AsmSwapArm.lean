import Verif.Model.AsmArm
import Verif.Lemmas.AsmSwap
/-
The conditional swaps of arith_arm64.s.  They select words with CSEL; once the choice is known they only move words.
-/
namespace Lemmas.AsmSwapArm
open Model Model.Asm Lemmas.AsmBit Lemmas.AsmSwap

/-- The instruction for a known condition. -/
def known (c : Bool) : Instr → Instr
  | .csel a b d => .mov (if c then a else b) d
  | i => i

/-- Moves and selects. -/
def moves : Instr → Bool
  | .mov _ _ => true
  | .csel _ _ _ => true
  | _ => false

theorem wr_cf {s s' : St} {o : Opd} {v : Val} (h : s.wr o v = some s') : s'.cf = s.cf := by
  cases o with
  | reg r =>
    simp only [St.wr] at h
    split at h
    · rw [Option.some.injEq] at h; rw [← h]
    · simp at h
  | imm x => simp [St.wr] at h
  | mem r k =>
    simp only [St.wr] at h
    split at h
    · unfold St.wrMem at h
      split at h
      · split at h
        · rw [Option.some.injEq] at h; rw [← h]
        · simp at h
      · simp at h
    · simp at h
  | glob b k => simp [St.wr] at h

theorem step_known {s : St} {c : Bool} (hc : s.cf = some c) {i : Instr} (hi : moves i = true) :
    step s i = step s (known c i) ∧ ∀ s', step s i = some s' → s'.cf = some c := by
  cases i with
  | mov a d =>
    refine ⟨rfl, fun s' h => ?_⟩
    simp only [step, Option.bind_eq_bind] at h
    rcases hr : s.rd a with _ | v
    · rw [hr] at h; simp at h
    · rw [hr, Option.bind_some] at h
      rw [wr_cf h, hc]
  | csel a b d =>
    have e : step s (.csel a b d) = (s.rd (if c then a else b)).bind fun v => s.wr d v := by
      simp only [step, hc, Option.bind_eq_bind, Option.bind_some]
    refine ⟨e, fun s' h => ?_⟩
    rw [e] at h
    rcases hr : s.rd (if c then a else b) with _ | v
    · rw [hr] at h; simp at h
    · rw [hr, Option.bind_some] at h
      rw [wr_cf h, hc]
  | _ => simp [moves] at hi

theorem run_known {c : Bool} : ∀ (code : List Instr) (s : St), s.cf = some c → code.all moves = true → run s code = run s (code.map (known c)) := by
  intro code
  induction code with
  | nil => intro s _ _; rfl
  | cons i code ih =>
    intro s hc h
    rw [List.all_cons, Bool.and_eq_true] at h
    obtain ⟨h1, h2⟩ := step_known hc h.1
    rw [List.map_cons, run, run, ← h1]
    rcases hs : step s i with _ | s'
    · rfl
    · simp only [Option.bind_eq_bind, Option.bind_some]
      exact ih s' (h2 s' hs) h.2

/-- After the comparison. -/
def layR (l : Nat) : Lay := ⟨[.any, .any, .any, .any, .ptr 1, .vars [2 * l + 1], .any, .any, .any, .any, .any, .any, .any, .any, .any, .any, .ptr 0,
  .ptr 2, .ptr 3] ++ List.replicate 30 .any, memL l⟩

/-- The first n words exchanged. -/
def exQ (l n : Nat) : List Ex :=
  ((List.range l).map fun i => if i < n then .var (l + i) else .var i) ++
  (((List.range l).map fun i => if i < n then .var i else .var (l + i)) ++ [.var (2 * l), .var (2 * l + 1)])

set_option maxRecDepth 100000 in
theorem keep503 : hop (layR 12) ((Arm503.cswapCode.drop 6).map (known true)) (layE 12) (exQ 12 0) = true := by decide +kernel
set_option maxRecDepth 100000 in
theorem swap503 : hop (layR 12) ((Arm503.cswapCode.drop 6).map (known false)) (layE 12) (exQ 12 8) = true := by decide +kernel
set_option maxRecDepth 100000 in
theorem keep751 : hop (layR 12) ((Arm751.cswapCode.drop 6).map (known true)) (layE 12) (exQ 12 0) = true := by decide +kernel
set_option maxRecDepth 100000 in
theorem swap751 : hop (layR 12) ((Arm751.cswapCode.drop 6).map (known false)) (layE 12) (exQ 12 12) = true := by decide +kernel

theorem ex_get {n : Nat} {x y : List W64} (hn : n ≤ y.length) (i : Nat) :
    (y.take n ++ x.drop n).getD i 0 = if i < n then y.getD i 0 else x.getD i 0 := by
  have ly : (y.take n).length = n := by rw [List.length_take]; omega
  rw [getD_app, ly]
  split
  · rw [getD_take _ _ _ ‹_›]
  · rw [getD_drop, show n + (i - n) = i by omega]

theorem ex_env {m bp : W64} {n l : Nat} {x y : List W64} (hx : x.length = l) (hy : y.length = l) (hn : n ≤ l) :
    ∀ (v : Nat) (q : Ex), (exQ l n)[v]? = some q → env l (y.take n ++ x.drop n) (x.take n ++ y.drop n) m bp v = q.den (env l x y m bp) := by
  intro v q h
  rw [exQ] at h
  have ex : ∀ i, i < l → env l x y m bp i = x.getD i 0 := fun i hi => by rw [env, if_pos hi]
  have ey : ∀ i, i < l → env l x y m bp (l + i) = y.getD i 0 := fun i hi => by
    rw [env, if_neg (by omega), if_pos (by omega), Nat.add_sub_cancel_left]
  by_cases h1 : v < l
  · rw [List.getElem?_append_left (by simpa using h1), List.getElem?_map, List.getElem?_range h1] at h
    simp only [Option.map_some, Option.some.injEq] at h
    rw [← h, env, if_pos h1, ex_get (by omega)]
    split
    · simp only [Ex.den, ey v h1]
    · simp only [Ex.den, ex v h1]
  · rw [List.getElem?_append_right (by simpa using h1), List.length_map, List.length_range] at h
    by_cases h2 : v < 2 * l
    · have h3 : v - l < l := by omega
      rw [List.getElem?_append_left (by simpa using h3), List.getElem?_map, List.getElem?_range h3] at h
      simp only [Option.map_some, Option.some.injEq] at h
      rw [← h, env, if_neg h1, if_pos h2, ex_get (by omega)]
      split
      · simp only [Ex.den, ex _ h3]
      · simp only [Ex.den, ey _ h3]
    · rw [List.getElem?_append_right (by simp; omega), List.length_map, List.length_range] at h
      obtain ⟨k, rfl⟩ : ∃ k, v = 2 * l + k := ⟨v - 2 * l, by omega⟩
      rw [show 2 * l + k - l - l = k by omega] at h
      match k, h with
      | 0, h =>
        simp only [List.getElem?_cons_zero, Option.some.injEq] at h
        rw [← h, Ex.den, Nat.add_zero, env_m, env_m]
      | 1, h =>
        simp only [List.getElem?_cons_succ, List.getElem?_cons_zero, Option.some.injEq] at h
        rw [← h, Ex.den, env_bp, env_bp]
      | k + 2, h => simp at h

/-- From the comparison to the end of the call. -/
theorem finish {R : Routine} {c : Bool} {l n : Nat} (hR : R.frame = 0) (hg : R.glob = []) (hm : (R.code.drop 6).all moves = true)
    (hh : hop (layR l) ((R.code.drop 6).map (known c)) (layE l) (exQ l n) = true)
    {x y : List W64} (hx : x.length = l) (hy : y.length = l) (hn : n ≤ l) {m bp : W64} {junk : Nat → Val} {fr : List Val} {fp : W64} {args : List Arg} {s : St}
    (hs : run (R.start junk fr bp fp [x, y] args) (R.code.take 6) = some s) (hc : s.cf = some c) (ht : (layR l).At (env l x y m bp) s) :
    R.call junk fr bp fp [x, y] args = some ([(y.take n ++ x.drop n).map .w, (x.take n ++ y.drop n).map .w], some (.w bp)) := by
  obtain ⟨s', h1, h2⟩ := hop_sound hh ht
  have h2 := h2 _ (ex_env (m := m) (bp := bp) hx hy hn)
  have hrun : run (R.start junk fr bp fp [x, y] args) R.code = some s' := by
    conv_lhs => rw [← List.take_append_drop 6 R.code]
    rw [run_append, hs, Option.bind_some, run_known _ _ hc hm, h1]
  have hm := mem_of (by simp; omega) (by simp; omega) h2.mem
  obtain ⟨v, hv, hvr⟩ := forall₂_get h2.reg (i := 5) (a := .vars [2 * l + 1]) rfl
  have hvr : v = .w bp := by
    rw [hvr]; simp only [xorE]; rw [env_bp]; simp
  unfold Routine.call
  rw [hrun]
  simp only [Routine.bpAfter, hR, hg, List.length_nil, Nat.add_zero, if_true, hm]
  change some (_, s'.reg[5]?) = _
  rw [hv, hvr]

/-- The first six instructions. -/
def proR : List Instr := [MOVD (.mem FP 0) (.reg (A 0)), MOVD (.mem FP 1) (.reg (A 1)), MOVBU (.mem FP 2) (.reg (A 2)), EORS (.reg (A 2)), SUBX (.reg (A 2)),
  CMP0 (.reg (A 2))]

/-- The sign-extended byte. -/
def sext (c : W64) : W64 := (0x80 ^^^ (c &&& 0xff)) - 0x80 - 0

theorem sext_zero (c : W64) : sext c = 0 ↔ c.setWidth 8 = 0#8 := by
  unfold sext
  rw [show (0xff : W64) = 255#64 from rfl, byte_eq]
  generalize c.setWidth 8 = b
  revert b
  decide +kernel

theorem pro_run {R : Routine} (hR : R.frame = 0) (hg : R.glob = []) (junk : Nat → Val) (fr : List Val) (bp fp : W64) (x y : List W64) (c : W64) {l : Nat}
    (hx : x.length = l) (hy : y.length = l) :
    ∃ s, run (R.start junk fr bp fp [x, y] [.arr 0, .arr 1, .num c]) proR = some s ∧ s.cf = some (decide (sext c = 0)) ∧ (layR l).At (env l x y 0 bp) s := by
  refine ⟨⟨[junk 0, junk 1, junk 2, junk 3, .ptr 1, .w bp, junk 6, junk 7, junk 8, junk 9, junk 10, junk 11, junk 12, junk 13, junk 14, junk 15, .ptr 0,
      .ptr 2, .ptr 3] ++ (.w (sext c) :: (List.range 29).map (fun i => junk (20 + i))), some (decide (sext c = 0)), none,
      [[.ptr 2, .ptr 3, .w c], [], x.map .w, y.map .w]⟩, ?_, rfl, ?_⟩
  · have hst : R.start junk fr bp fp [x, y] [.arr 0, .arr 1, .num c] = ⟨[junk 0, junk 1, junk 2, junk 3, .ptr 1, .w bp, junk 6, junk 7, junk 8, junk 9,
        junk 10, junk 11, junk 12, junk 13, junk 14, junk 15, .ptr 0] ++ (List.range 32).map (fun i => junk (17 + i)), none, none,
        [[.ptr 2, .ptr 3, .w c], [], x.map .w, y.map .w]⟩ := by
      simp only [Routine.start, hR, hg, if_true]; rfl
    rw [hst]
    rfl
  · refine ⟨List.rel_append ?_ (.cons trivial ?_), mem_at hx hy _ bp _⟩
    · refine .cons trivial (.cons trivial (.cons trivial (.cons trivial (.cons rfl (.cons ?_ (.cons trivial (.cons trivial (.cons trivial (.cons trivial
        (.cons trivial (.cons trivial (.cons trivial (.cons trivial (.cons trivial (.cons trivial (.cons rfl (.cons rfl (.cons rfl .nil))))))))))))))))))
      simp only [TV.rel, xorE]; rw [env_bp]; simp
    · have := any32 (e := env l x y 0 bp) ((List.range 29).map fun i => junk (20 + i))
      rwa [List.length_map, List.length_range] at this

/-- The two arrays after the call. -/
def result (n : Nat) (x y : List W64) (c : W64) : List (List W64) :=
  if c.setWidth 8 = 0#8 then [x, y] else [y.take n ++ x.drop n, x.take n ++ y.drop n]

theorem cswap {R : Routine} {n : Nat} (hn : n ≤ 12) (hR : R.frame = 0) (hg : R.glob = []) (hp : R.code.take 6 = proR) (hm : (R.code.drop 6).all moves = true)
    (h0 : hop (layR 12) ((R.code.drop 6).map (known true)) (layE 12) (exQ 12 0) = true)
    (h1 : hop (layR 12) ((R.code.drop 6).map (known false)) (layE 12) (exQ 12 n) = true)
    (junk : Nat → Val) (fr : List Val) (bp fp : W64) (x y : List W64) (c : W64) (hx : x.length = 12) (hy : y.length = 12) :
    R.call junk fr bp fp [x, y] [.arr 0, .arr 1, .num c] = some ((result n x y c).map fun d => d.map .w, some (.w bp)) := by
  obtain ⟨s, r1, r2, r3⟩ := pro_run hR hg junk fr bp fp x y c hx hy
  rw [← hp] at r1
  unfold result
  by_cases hc : c.setWidth 8 = 0#8
  · rw [if_pos hc]
    rw [decide_eq_true ((sext_zero c).mpr hc)] at r2
    rw [finish hR hg hm h0 hx hy (by omega) r1 r2 r3]
    simp
  · rw [if_neg hc]
    rw [decide_eq_false (fun h => hc ((sext_zero c).mp h))] at r2
    rw [finish hR hg hm h1 hx hy hn r1 r2 r3]
    rfl

theorem cswap503 (junk : Nat → Val) (fr : List Val) (bp fp : W64) (x y : List W64) (c : W64) (hx : x.length = 12) (hy : y.length = 12) :
    Arm503.cswap.call junk fr bp fp [x, y] [.arr 0, .arr 1, .num c] = some ((result 8 x y c).map fun d => d.map .w, some (.w bp)) :=
  cswap (R := Arm503.cswap) (by decide) rfl rfl rfl (by decide +kernel) keep503 swap503 junk fr bp fp x y c hx hy

theorem cswap751 (junk : Nat → Val) (fr : List Val) (bp fp : W64) (x y : List W64) (c : W64) (hx : x.length = 12) (hy : y.length = 12) :
    Arm751.cswap.call junk fr bp fp [x, y] [.arr 0, .arr 1, .num c] = some ((result 12 x y c).map fun d => d.map .w, some (.w bp)) :=
  cswap (R := Arm751.cswap) (by decide) rfl rfl rfl (by decide +kernel) keep751 swap751 junk fr bp fp x y c hx hy

end Lemmas.AsmSwapArm
