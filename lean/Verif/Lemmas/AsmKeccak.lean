import Verif.Model.AsmKeccak
import Verif.Lemmas.AsmBit
import Verif.Lemmas.KeccakBits
import Verif.Spec.Asm
import Mathlib.Tactic.IntervalCases
/-
hash/sha3/keccakf_amd64.s computes the Keccak permutation: one round is checked symbolically in each of the three forms the
file uses, and the rounds are chained.
-/
namespace Lemmas.AsmKeccak
open Model Model.Asm Model.AsmKeccak Lemmas.AsmBit Lemmas.Keccak

/-! ### The words between two rounds

Six lanes are kept complemented.  Inputs 0 to 24 are the words of the state in memory, 25 the caller's BP, 26 the round constant. -/

def isComp (i : Nat) : Bool := [1, 2, 8, 12, 17, 20].contains i

def idx (x y : Fin 5) : Nat := 5 * y.val + x.val

/-- The words in memory of a state with lanes L. -/
def memW (L : Lanes) (v : Nat) : W64 :=
  let w := L (Fin.ofNat 5 v) (Fin.ofNat 5 (v / 5))
  bif isComp v then ~~~ w else w

def envI (L : Lanes) (bp rc : W64) (v : Nat) : W64 :=
  bif Nat.blt v 25 then memW L v else bif Nat.beq v 25 then bp else rc

/-- Without the complements. -/
def envU (L : Lanes) (bp : W64) (v : Nat) : W64 :=
  bif Nat.blt v 25 then L (Fin.ofNat 5 v) (Fin.ofNat 5 (v / 5)) else bp

def cE (v : Nat) (x : Ex) : Ex := bif isComp v then .not x else x
def laneE (x y : Fin 5) : Ex := cE (idx x y) (.var (idx x y))
def parE (x : Fin 5) : Ex := .xor (.xor (.xor (.xor (laneE x 0) (laneE x 1)) (laneE x 2)) (laneE x 3)) (laneE x 4)
def dE (x : Fin 5) : Ex := .xor (parE (x - 1)) (.rol 1 (parE (x + 1)))
/-- The words added to columns 0 and 3 are complemented. -/
def dC (x : Fin 5) (a : Ex) : Ex := if x = 0 ∨ x = 3 then .not a else a
/-- From here on inputs 26 to 30 are the words added to the columns and 31 is the round constant. -/
def bE (x y : Fin 5) : Ex := .rol (off (x + 3 * y) x) (.xor (laneE (x + 3 * y) x) (dC (x + 3 * y) (.var (26 + (x + 3 * y).val))))
def outE (x y : Fin 5) : Ex :=
  let X := .xor (bE x y) (.and (bE (x + 2) y) (.not (bE (x + 1) y)))
  if x = 0 ∧ y = 0 then .xor X (.var 31) else X

def all25 : List Nat := List.range 25
def fx (v : Nat) : Fin 5 := Fin.ofNat 5 v
def fy (v : Nat) : Fin 5 := Fin.ofNat 5 (v / 5)

/-- The words halfway through a round. -/
def midQ : List Ex := all25.map .var ++ [.var 25, dC 0 (dE 0), dC 1 (dE 1), dC 2 (dE 2), dC 3 (dE 3), dC 4 (dE 4)]
/-- The words after a round. -/
def roundQ : List Ex := (all25.map fun v => cE v (outE (fx v) (fy v))) ++ [.var 25]
/-- The words after complementing the six lanes. -/
def compQ : List Ex := (all25.map fun v => cE v (.var v)) ++ [.var 25]

def free (n : Nat) : List TV := List.replicate n .any
def words25 : List TV := all25.map fun v => .vars [v]

/-- Registers: SP and DI point to the two buffers, SI, BP and R15 hold column parities, DX and R8 two lanes. -/
def regs (p : Bool) : List TV :=
  let q := fun l : List Nat => bif p then TV.vars l else .any
  [.any, .any, q [22], .any, .ptr 1, q [1, 6, 11, 16, 21], q [0, 5, 10, 15, 20], .ptr 2, q [23], .any, .any, .any, .any, .any, .any,
    q [4, 9, 14, 19, 24], .ptr 0] ++ free 32

/-- The state is in the caller's array or in the frame. -/
def layState (p : Bool) : Lay := ⟨regs p, [[.ptr 2], free 25 ++ [.vars [25]], words25]⟩
def layStack : Lay := ⟨regs true, [[.ptr 2], words25 ++ [.vars [25]], free 25]⟩
/-- Halfway: BX, CX, DX, R8 and R9 hold the words added to the columns. -/
def regsMid : List TV :=
  [.any, .vars [27], .vars [28], .vars [26], .ptr 1, .any, .any, .ptr 2, .vars [29], .vars [30], .vars [0], .vars [6], .any, .any, .any, .any, .ptr 0] ++ free 32
def midState : Lay := ⟨regsMid, (layState true).mem⟩
def midStack : Lay := ⟨regsMid, layStack.mem⟩
/-- On entry. -/
def layIn : Lay := ⟨[.any, .any, .any, .any, .ptr 1, .any, .any, .any, .any, .any, .any, .any, .any, .any, .any, .any, .ptr 0] ++ free 32,
  [[.ptr 2], free 25 ++ [.vars [25]], words25]⟩

/-- A round with and without the parities of the next. -/
def rnd (i o rc : Nat) : List Instr :=
  mKeccakRound i o rc MOVQ_RBI_RCE XORQ_RT1_RCA XORQ_RT1_RCE XORQ_RBA_RCU XORQ_RT1_RCA XORQ_RT1_RCE XORQ_RBA_RCU XORQ_RT1_RCA XORQ_RT1_RCE
    XORQ_RBE_RCU XORQ_RDU_RCU XORQ_RDA_RCA XORQ_RDE_RCE
def rndL (i o rc : Nat) : List Instr := mKeccakRound i o rc [] [] [] [] [] [] [] [] [] [] [] [] []

/-- The parts of a round after the constant. -/
def rnd2 (i o : Nat) : List Instr :=
  mKeccakRound2 i o MOVQ_RBI_RCE XORQ_RT1_RCA XORQ_RT1_RCE XORQ_RBA_RCU XORQ_RT1_RCA XORQ_RT1_RCE XORQ_RBA_RCU XORQ_RT1_RCA XORQ_RT1_RCE
    XORQ_RBE_RCU XORQ_RDU_RCU XORQ_RDA_RCA XORQ_RDE_RCE
def rndL2 (i o : Nat) : List Instr := mKeccakRound2 i o [] [] [] [] [] [] [] [] [] [] [] [] []

set_option maxRecDepth 100000 in
theorem hopA1 : hop (layState true) ((mKeccakRound1 DI).take 27) midState midQ = true := by decide +kernel
set_option maxRecDepth 100000 in
theorem hopA2 : hopI midState ((mKeccakRound1 DI).drop 27) AX 31 (rnd2 DI SP) layStack roundQ = true := by decide +kernel
set_option maxRecDepth 100000 in
theorem hopB1 : hop layStack ((mKeccakRound1 SP).take 27) midStack midQ = true := by decide +kernel
set_option maxRecDepth 100000 in
theorem hopB2 : hopI midStack ((mKeccakRound1 SP).drop 27) AX 31 (rnd2 SP DI) (layState true) roundQ = true := by decide +kernel
set_option maxRecDepth 100000 in
theorem hopL2 : hopI midStack ((mKeccakRound1 SP).drop 27) AX 31 (rndL2 SP DI) (layState false) roundQ = true := by decide +kernel
/-- The code before the first and after the last round. -/
def enter : List Instr := [
  MOVQ (.mem FP 0) (.reg DI),
  NOTQ (.mem DI 1), NOTQ (.mem DI 2), NOTQ (.mem DI 8), NOTQ (.mem DI 12), NOTQ (.mem DI 17), NOTQ (.mem DI 20),
  MOVQ (.mem DI 0) (.reg SI), MOVQ (.mem DI 1) (.reg BP), MOVQ (.mem DI 4) (.reg R15),
  XORQ (.mem DI 5) (.reg SI), XORQ (.mem DI 6) (.reg BP), XORQ (.mem DI 9) (.reg R15),
  XORQ (.mem DI 10) (.reg SI), XORQ (.mem DI 11) (.reg BP), XORQ (.mem DI 14) (.reg R15),
  XORQ (.mem DI 15) (.reg SI), XORQ (.mem DI 16) (.reg BP), XORQ (.mem DI 19) (.reg R15),
  XORQ (.mem DI 20) (.reg SI), XORQ (.mem DI 21) (.reg BP), MOVQ (.mem DI 22) (.reg DX), MOVQ (.mem DI 23) (.reg R8), XORQ (.mem DI 24) (.reg R15)]
def leave : List Instr := [NOTQ (.mem DI 1), NOTQ (.mem DI 2), NOTQ (.mem DI 8), NOTQ (.mem DI 12), NOTQ (.mem DI 17), NOTQ (.mem DI 20)]

set_option maxRecDepth 100000 in
theorem hopEnter : hop layIn enter (layState true) compQ = true := by decide +kernel
set_option maxRecDepth 100000 in
theorem hopLeave : hop (layState false) leave (layState false) compQ = true := by decide +kernel

/-! ### What the expressions mean -/

section
variable {L : Lanes} {e : Nat → W64}

theorem f_idx : ∀ x y : Fin 5, Fin.ofNat 5 (idx x y) = x ∧ Fin.ofNat 5 (idx x y / 5) = y ∧ idx x y < 25 := by decide

theorem cE_den (v : Nat) (a : Ex) : (cE v a).den e = bif isComp v then ~~~ a.den e else a.den e := by
  rw [cE]
  cases isComp v <;> rfl

theorem lane_den (he : ∀ v, v < 25 → e v = memW L v) (x y : Fin 5) : (laneE x y).den e = L x y := by
  obtain ⟨h1, h2, h3⟩ := f_idx x y
  rw [laneE, cE_den, Ex.den, he _ h3, memW, h1, h2]
  cases isComp (idx x y)
  · rfl
  · simp only [cond_true, BitVec.not_not]

theorem par_den (he : ∀ v, v < 25 → e v = memW L v) (x : Fin 5) : (parE x).den e = par L x := by
  simp only [parE, Ex.den, lane_den he, par]

/-- The word added to column x. -/
def colD (L : Lanes) (x : Fin 5) : W64 := par L (x - 1) ^^^ (par L (x + 1)).rotateLeft 1

theorem d_den (he : ∀ v, v < 25 → e v = memW L v) (x : Fin 5) : (dE x).den e = colD L x := by
  simp only [dE, Ex.den, par_den he, colD]

def dW (L : Lanes) (x : Fin 5) : W64 := if x = 0 ∨ x = 3 then ~~~ colD L x else colD L x

theorem dC_den (x : Fin 5) (a : Ex) : (dC x a).den e = if x = 0 ∨ x = 3 then ~~~ a.den e else a.den e := by
  rw [dC]
  split <;> rfl

theorem b_den (he : ∀ v, v < 25 → e v = memW L v) (hd : ∀ x : Fin 5, e (26 + x.val) = dW L x) (x y : Fin 5) :
    (bE x y).den e = rotl (L (x + 3 * y) x ^^^ colD L (x + 3 * y)) (off (x + 3 * y) x) := by
  rw [bE, rotl_eq]
  simp only [Ex.den, lane_den he, dC_den, hd]
  rw [dW]
  split
  · rw [BitVec.not_not]
  · rfl

theorem out_den (he : ∀ v, v < 25 → e v = memW L v) (hd : ∀ x : Fin 5, e (26 + x.val) = dW L x) {rc : W64} (hc : e 31 = rc) (x y : Fin 5) :
    (outE x y).den e = laneRnd L rc x y := by
  simp only [outE, laneRnd, Lemmas.Keccak.step]
  split
  · simp only [Ex.den, b_den he hd, hc]; rfl
  · simp only [Ex.den, b_den he hd]; rfl

end

/-- Halfway through a round. -/
def envM (L : Lanes) (bp rc : W64) (v : Nat) : W64 :=
  bif Nat.blt v 25 then memW L v else bif Nat.beq v 25 then bp else bif Nat.blt v 31 then dW L (Fin.ofNat 5 (v - 26)) else rc

theorem envI_lt (L : Lanes) (bp rc : W64) {v : Nat} (h : v < 25) : envI L bp rc v = memW L v := by
  rw [envI, Nat.blt_eq.mpr h, cond_true]

theorem envM_lt (L : Lanes) (bp rc : W64) {v : Nat} (h : v < 25) : envM L bp rc v = memW L v := by
  rw [envM, Nat.blt_eq.mpr h, cond_true]

theorem envU_lt (L : Lanes) (bp : W64) {v : Nat} (h : v < 25) : envU L bp v = L (Fin.ofNat 5 v) (Fin.ofNat 5 (v / 5)) := by
  rw [envU, Nat.blt_eq.mpr h, cond_true]

theorem envM_d (L : Lanes) (bp rc : W64) (x : Fin 5) : envM L bp rc (26 + x.val) = dW L x := by
  match x with
  | 0 => rfl
  | 1 => rfl
  | 2 => rfl
  | 3 => rfl
  | 4 => rfl

theorem get25 (f : Nat → Ex) (t : List Ex) {v : Nat} {x : Ex} (h : (all25.map f ++ t)[v]? = some x) :
    (v < 25 ∧ x = f v) ∨ (25 ≤ v ∧ t[v - 25]? = some x) := by
  have hl : (all25.map f).length = 25 := by rw [List.length_map]; rfl
  by_cases hv : v < 25
  · left
    rw [List.getElem?_append_left (by omega), List.getElem?_map, all25, List.getElem?_range hv] at h
    simp only [Option.map_some, Option.some.injEq] at h
    exact ⟨hv, h.symm⟩
  · right
    rw [List.getElem?_append_right (by omega), hl] at h
    exact ⟨by omega, h⟩

theorem mid_env (L : Lanes) (bp rc : W64) : ∀ (v : Nat) (x : Ex), midQ[v]? = some x → envM L bp rc v = x.den (envI L bp rc) := by
  intro v x h
  have he : ∀ v, v < 25 → envI L bp rc v = memW L v := fun v hv => envI_lt L bp rc hv
  rcases get25 _ _ h with ⟨hv, rfl⟩ | ⟨hv, h⟩
  · rw [envM_lt _ _ _ hv, Ex.den, he v hv]
  · obtain ⟨k, rfl⟩ : ∃ k, v = 25 + k := ⟨v - 25, by omega⟩
    rw [show 25 + k - 25 = k by omega] at h
    match k, h with
    | 0, h => simp only [List.getElem?_cons_zero, Option.some.injEq] at h; subst h; rfl
    | 1, h =>
      simp only [List.getElem?_cons_zero, List.getElem?_cons_succ, Option.some.injEq] at h
      subst h; rw [dC_den, d_den he]; exact envM_d L bp rc 0
    | 2, h =>
      simp only [List.getElem?_cons_zero, List.getElem?_cons_succ, Option.some.injEq] at h
      subst h; rw [dC_den, d_den he]; exact envM_d L bp rc 1
    | 3, h =>
      simp only [List.getElem?_cons_zero, List.getElem?_cons_succ, Option.some.injEq] at h
      subst h; rw [dC_den, d_den he]; exact envM_d L bp rc 2
    | 4, h =>
      simp only [List.getElem?_cons_zero, List.getElem?_cons_succ, Option.some.injEq] at h
      subst h; rw [dC_den, d_den he]; exact envM_d L bp rc 3
    | 5, h =>
      simp only [List.getElem?_cons_zero, List.getElem?_cons_succ, Option.some.injEq] at h
      subst h; rw [dC_den, d_den he]; exact envM_d L bp rc 4
    | k + 6, h => simp at h

theorem bp_case {bp : W64} {e e' : Nat → W64} (h : e 25 = bp) (h' : e' 25 = bp) {v : Nat} {x : Ex} (hv : 25 ≤ v) (hx : [Ex.var 25][v - 25]? = some x) :
    e' v = x.den e := by
  obtain ⟨k, rfl⟩ : ∃ k, v = 25 + k := ⟨v - 25, by omega⟩
  rw [show 25 + k - 25 = k by omega] at hx
  match k, hx with
  | 0, hx => simp only [List.getElem?_cons_zero, Option.some.injEq] at hx; subst hx; rw [Ex.den, h]; exact h'
  | k + 1, hx => simp at hx

theorem round_env (L : Lanes) (bp rc rc' : W64) : ∀ (v : Nat) (x : Ex), roundQ[v]? = some x → envI (laneRnd L rc) bp rc' v = x.den (envM L bp rc) := by
  intro v x h
  have he : ∀ v, v < 25 → envM L bp rc v = memW L v := fun v hv => envM_lt L bp rc hv
  rcases get25 _ _ h with ⟨hv, rfl⟩ | ⟨hv, h⟩
  · rw [envI_lt _ _ _ hv, cE_den, out_den he (envM_d L bp rc) rfl, memW]; rfl
  · exact bp_case (bp := bp) rfl rfl hv h

theorem comp_env (L : Lanes) (bp rc : W64) : ∀ (v : Nat) (x : Ex), compQ[v]? = some x → envI L bp rc v = x.den (envU L bp) := by
  intro v x h
  rcases get25 _ _ h with ⟨hv, rfl⟩ | ⟨hv, h⟩
  · rw [envI_lt _ _ _ hv, cE_den, Ex.den, envU_lt _ _ hv, memW]
  · exact bp_case (bp := bp) rfl rfl hv h

theorem uncomp_env (L : Lanes) (bp rc : W64) : ∀ (v : Nat) (x : Ex), compQ[v]? = some x → envU L bp v = x.den (envI L bp rc) := by
  intro v x h
  rcases get25 _ _ h with ⟨hv, rfl⟩ | ⟨hv, h⟩
  · rw [envU_lt _ _ hv, cE_den, Ex.den, envI_lt _ _ _ hv, memW]
    cases isComp v
    · rfl
    · simp only [cond_true, BitVec.not_not]
  · exact bp_case (bp := bp) rfl rfl hv h

/-! ### Chaining -/

theorem run_trans {s t u : St} {c d : List Instr} (h : run s c = some t) (g : run t d = some u) : run s (c ++ d) = some u := by
  rw [run_append, h, Option.bind_some, g]

theorem round_hop {T M T' : Lay} {c1 c2 : List Instr} (h1 : hop T (c1.take 27) M midQ = true) (h2 : hopI M (c1.drop 27) AX 31 c2 T' roundQ = true)
    {L : Lanes} {bp r : W64} {s : St} (hs : T.At (envI L bp r) s) (rc : Nat) :
    ∃ s', run s (c1 ++ MOVQ (.imm rc) (.reg AX) :: c2) = some s' ∧ ∀ r', T'.At (envI (laneRnd L (BitVec.ofNat 64 rc)) bp r') s' := by
  obtain ⟨s1, a1, a2⟩ := hop_sound h1 hs
  have a2 := a2 (envM L bp (BitVec.ofNat 64 rc)) (fun v x hx => by
    have := mid_env L bp r v x hx
    rw [← this]
    by_cases hv : v < 31
    · simp only [envM, Nat.blt_eq.mpr hv, cond_true]
    · exfalso
      have : midQ[v]? = none := List.getElem?_eq_none (by change 31 ≤ v; omega)
      rw [this] at hx; simp at hx)
  obtain ⟨s2, b1, b2⟩ := hopI_sound h2 a2 (x := rc) rfl
  refine ⟨s2, ?_, fun r' => b2 _ (round_env L bp _ r')⟩
  have := run_trans a1 b1
  rwa [← List.append_assoc, List.take_append_drop] at this

theorem round_state {L : Lanes} {bp r : W64} {s : St} (hs : (layState true).At (envI L bp r) s) (rc : Nat) :
    ∃ s', run s (rnd DI SP rc) = some s' ∧ ∀ r', layStack.At (envI (laneRnd L (BitVec.ofNat 64 rc)) bp r') s' := round_hop hopA1 hopA2 hs rc

theorem round_stack {L : Lanes} {bp r : W64} {s : St} (hs : layStack.At (envI L bp r) s) (rc : Nat) :
    ∃ s', run s (rnd SP DI rc) = some s' ∧ ∀ r', (layState true).At (envI (laneRnd L (BitVec.ofNat 64 rc)) bp r') s' := round_hop hopB1 hopB2 hs rc

theorem round_last {L : Lanes} {bp r : W64} {s : St} (hs : layStack.At (envI L bp r) s) (rc : Nat) :
    ∃ s', run s (rndL SP DI rc) = some s' ∧ ∀ r', (layState false).At (envI (laneRnd L (BitVec.ofNat 64 rc)) bp r') s' := round_hop hopB1 hopL2 hs rc

/-- Two rounds. -/
theorem two {L : Lanes} {bp r : W64} {s s0 : St} {c : List Instr} (h : run s0 c = some s) (hs : (layState true).At (envI L bp r) s) (p q : Nat) :
    ∃ s', run s0 (c ++ rnd DI SP p ++ rnd SP DI q) = some s' ∧ (layState true).At (envI (laneRnd (laneRnd L (BitVec.ofNat 64 p)) (BitVec.ofNat 64 q)) bp 0) s' := by
  obtain ⟨s1, a1, a2⟩ := round_state hs p
  obtain ⟨s2, b1, b2⟩ := round_stack (a2 0) q
  exact ⟨s2, run_trans (run_trans h a1) b1, b2 0⟩

/-- The lanes after all rounds. -/
def lanes24 (L : Lanes) : Lanes := Model.Sha3.rcTable.foldl laneRnd L

theorem code_run {L : Lanes} {bp : W64} {s : St} (hs : layIn.At (envU L bp) s) :
    ∃ s', run s keccakF1600Code = some s' ∧ (layState false).At (envU (lanes24 L) bp) s' := by
  obtain ⟨s0, h0, g0⟩ := hop_sound hopEnter hs
  have g0 := g0 (envI L bp 0) (comp_env L bp 0)
  obtain ⟨s1, h1, g1⟩ := two h0 g0 0x0000000000000001 0x0000000000008082
  obtain ⟨s2, h2, g2⟩ := two h1 g1 0x800000000000808a 0x8000000080008000
  obtain ⟨s3, h3, g3⟩ := two h2 g2 0x000000000000808b 0x0000000080000001
  obtain ⟨s4, h4, g4⟩ := two h3 g3 0x8000000080008081 0x8000000000008009
  obtain ⟨s5, h5, g5⟩ := two h4 g4 0x000000000000008a 0x0000000000000088
  obtain ⟨s6, h6, g6⟩ := two h5 g5 0x0000000080008009 0x000000008000000a
  obtain ⟨s7, h7, g7⟩ := two h6 g6 0x000000008000808b 0x800000000000008b
  obtain ⟨s8, h8, g8⟩ := two h7 g7 0x8000000000008089 0x8000000000008003
  obtain ⟨s9, h9, g9⟩ := two h8 g8 0x8000000000008002 0x8000000000000080
  obtain ⟨s10, h10, g10⟩ := two h9 g9 0x000000000000800a 0x800000008000000a
  obtain ⟨s11, h11, g11⟩ := two h10 g10 0x8000000080008081 0x8000000000008080
  obtain ⟨s12, h12, g12⟩ := round_state g11 0x0000000080000001
  obtain ⟨s13, h13, g13⟩ := round_last (g12 0) 0x8000000080008008
  obtain ⟨s14, h14, g14⟩ := hop_sound hopLeave (g13 0)
  refine ⟨s14, ?_, g14 _ (uncomp_env _ bp 0)⟩
  exact run_trans (run_trans (run_trans h11 h12) h13) h14

/-! ### The call -/

theorem lanes24_view (a : Vector W64 25) : lanes24 (view sig0 a) = view sig0 (Model.Sha3.keccakF1600 a) := by
  simp only [Model.Sha3.keccakF1600, List.foldl]
  rw [view_rounds4, view_rounds4, view_rounds4, view_rounds4, view_rounds4, view_rounds4]
  rfl

theorem view_word (a : Vector W64 25) (bp : W64) {v : Nat} (h : v < 25) : envU (view sig0 a) bp v = a[v] := by
  interval_cases v <;> rfl

theorem to_words {e : Nat → W64} : ∀ (vs : List Nat), List.Forall₂ (TV.rel e) (vs.map fun v => .vars [v]) (vs.map fun v => Val.w (e v)) := by
  intro vs
  induction vs with
  | nil => exact .nil
  | cons v vs ih => exact .cons (by simp [TV.rel, xorE]) ih

theorem of_words {e : Nat → W64} : ∀ (vs : List Nat) (l : List Val), List.Forall₂ (TV.rel e) (vs.map fun v => .vars [v]) l → l = vs.map fun v => Val.w (e v) := by
  intro vs
  induction vs with
  | nil => intro l h; cases h; rfl
  | cons v vs ih =>
    intro l h
    cases h with
    | cons h1 h2 => rw [List.map_cons, ← ih _ h2, h1]; simp [xorE]

theorem vec_list (a : Vector W64 25) (bp : W64) : a.toList.map Val.w = all25.map fun v => Val.w (envU (view sig0 a) bp v) := by
  refine List.ext_getElem (by simp [all25]) (fun i h1 h2 => ?_)
  have hi : i < 25 := by simpa using h1
  rw [List.getElem_map, List.getElem_map, show all25[i]'(by simpa [all25] using hi) = i by simp [all25], view_word a bp hi]
  simp

theorem free_any {e : Nat → W64} : ∀ (l : List Val), List.Forall₂ (TV.rel e) (free l.length) l := by
  intro l
  induction l with
  | nil => exact .nil
  | cons v l ih => exact .cons trivial ih

theorem keccak_gives (a : Vector W64 25) (junk : Nat → Val) (fr : List Val) (bp fp : W64) (hf : fr.length = 25) :
    AsmKeccak.keccakF1600.call junk fr bp fp [a.toList] [.arr 0] = some ([(Model.Sha3.keccakF1600 a).toList.map .w], some (.w bp)) := by
  set s := AsmKeccak.keccakF1600.start junk fr bp fp [a.toList] [.arr 0] with hs
  have hl : (layIn).At (envU (view sig0 a) bp) s := by
    refine ⟨?_, ?_⟩
    · have h32 : free 32 = free ((List.range 32).map fun i => junk (17 + i)).length := by simp
      change List.Forall₂ _ ([.any, .any, .any, .any, .ptr 1, .any, .any, .any, .any, .any, .any, .any, .any, .any, .any, .any, .ptr 0] ++ free 32)
        ([junk 0, junk 1, junk 2, junk 3, .ptr 1, .w fp, junk 6, junk 7, junk 8, junk 9, junk 10,
          junk 11, junk 12, junk 13, junk 14, junk 15, .ptr 0] ++ (List.range 32).map fun i => junk (17 + i))
      rw [h32]
      refine List.rel_append ?_ (free_any _)
      repeat' first | exact .nil | refine .cons ?_ ?_ | trivial | exact rfl
    · change List.Forall₂ _ [[.ptr 2], free 25 ++ [.vars [25]], words25] [[.ptr 2], fr ++ [.w bp], a.toList.map .w]
      refine .cons (.cons rfl .nil) (.cons ?_ (.cons ?_ .nil))
      · refine List.rel_append (by rw [← hf]; exact free_any fr) (.cons ?_ .nil)
        simp [TV.rel, xorE, envU]
        rfl
      · rw [vec_list a bp]; exact to_words _
  obtain ⟨s', h1, h2⟩ := code_run hl
  rw [lanes24_view] at h2
  have hm := h2.mem
  change List.Forall₂ _ [[.ptr 2], free 25 ++ [.vars [25]], words25] s'.mem at hm
  generalize hM : s'.mem = M at hm
  cases hm with
  | cons m0 hm => cases hm with
    | cons m1 hm => cases hm with
      | cons m2 hm => cases hm with
        | nil =>
          have w2 := of_words _ _ m2
          rw [← vec_list] at w2
          have w1 : ∃ v, (_ : List Val)[25]? = some v ∧ _ := forall₂_get m1 (i := 25) (a := .vars [25]) rfl
          obtain ⟨v, hv, hvr⟩ := w1
          have hvr : v = .w bp := by rw [hvr]; simp [xorE, envU]; rfl
          unfold Routine.call
          rw [← hs]
          change (match run s keccakF1600Code with | some s => some (s.mem.drop 2, AsmKeccak.keccakF1600.bpAfter s) | none => none) = _
          rw [h1]
          simp only [Routine.bpAfter, AsmKeccak.keccakF1600, hM, List.drop, w2]
          simp only [List.getElem?_cons_succ, List.getElem?_cons_zero, hv, hvr]
          rfl

end Lemmas.AsmKeccak
