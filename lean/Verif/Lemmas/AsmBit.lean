import Verif.Model.Asm
import Mathlib.Data.List.Forall2
/-
Symbolic execution of the bitwise instructions (MOV, XOR, AND, OR, NOT, ROL).  A word is a sum (xor) of masked products (and)
of rotated input words; two words whose sums cancel are equal for every input.
-/
namespace Lemmas.AsmBit
open Model Model.Asm

/-! ### Sums of products of rotated words -/

/-- A product of at most two rotated inputs: 0 is the empty product, a + 1 the input a / 64 rotated by a mod 64, and
(a + 1) · 2^16 + (b + 1) the product of two. -/
abbrev Mono := Nat

/-- A sum of products, each with a constant mask. -/
abbrev Sum := List (Mono × Nat)

def atomV (e : Nat → W64) (a : Nat) : W64 := (e ((a - 1) / 64)).rotateLeft ((a - 1) % 64)

def monoV (e : Nat → W64) (m : Mono) : W64 :=
  bif Nat.beq m 0 then BitVec.allOnes 64 else
  bif Nat.blt m 65536 then atomV e m else atomV e (m / 65536) &&& atomV e (m % 65536)

def sumV (e : Nat → W64) : Sum → W64
  | [] => 0
  | t :: p => (BitVec.ofNat 64 t.2 &&& monoV e t.1) ^^^ sumV e p

/-- Add one term. -/
def ins (m c : Nat) : Sum → Sum
  | [] => bif Nat.beq c 0 then [] else [(m, c)]
  | t :: p =>
    bif Nat.blt m t.1 then (m, c) :: t :: p else
    bif Nat.beq m t.1 then (bif Nat.beq c t.2 then p else (m, c ^^^ t.2) :: p) else t :: ins m c p

def addS (p q : Sum) : Sum := p.foldr (fun t acc => ins t.1 t.2 acc) q

/-- The product of two products, if it has at most two factors. -/
def mulM (m n : Mono) : Option Mono :=
  bif Nat.beq m 0 then some n else
  bif Nat.beq n 0 then some m else
  bif Nat.beq m n then some m else
  bif Nat.blt m 65536 && Nat.blt n 65536 then some (bif Nat.blt m n then m * 65536 + n else n * 65536 + m) else none

/-- One term times a sum, added to a third. -/
def mulT (m c : Nat) : Sum → Sum → Option Sum
  | [], acc => some acc
  | t :: q, acc =>
    match mulM m t.1 with
    | some k => mulT m c q (ins k (c &&& t.2) acc)
    | none => none

def mulS : Sum → Sum → Sum → Option Sum
  | [], _, acc => some acc
  | t :: p, q, acc =>
    match mulT t.1 t.2 q acc with
    | some acc => mulS p q acc
    | none => none

def rotA (n a : Nat) : Nat := (a - 1) / 64 * 64 + ((a - 1) % 64 + n) % 64 + 1

def rotM (n : Nat) (m : Mono) : Mono :=
  bif Nat.beq m 0 then 0 else
  bif Nat.blt m 65536 then rotA n m else rotA n (m / 65536) * 65536 + rotA n (m % 65536)

/-- Every factor fits in 16 bits. -/
def fitsM (m : Mono) : Bool := Nat.blt m (65472 * 65536) && Nat.blt (m % 65536) 65472

/-- Rotate every term. -/
def rotS (n : Nat) : Sum → Option Sum
  | [] => some []
  | t :: p =>
    bif fitsM t.1 then
      match rotS n p with
      | some q => some (ins (rotM n t.1) ((BitVec.ofNat 64 t.2).rotateLeft n).toNat q)
      | none => none
    else none

def one : Sum := [(0, 18446744073709551615)]
def notS (p : Sum) : Sum := addS one p
def varS (v : Nat) : Sum := [(64 * v + 1, 18446744073709551615)]
def eqS (p q : Sum) : Bool := (addS p q).isEmpty

theorem beq0 {a : Nat} (h : 0 < a) : Nat.beq a 0 = false := by
  cases a with
  | zero => omega
  | succ a => rfl

section
variable (e : Nat → W64)

theorem ofNat_xor (a b : Nat) : BitVec.ofNat 64 (a ^^^ b) = BitVec.ofNat 64 a ^^^ BitVec.ofNat 64 b := by
  apply BitVec.eq_of_getLsbD_eq; intro i hi; simp [hi]

theorem ofNat_and (a b : Nat) : BitVec.ofNat 64 (a &&& b) = BitVec.ofNat 64 a &&& BitVec.ofNat 64 b := by
  apply BitVec.eq_of_getLsbD_eq; intro i hi; simp [hi]

theorem xor_and (a b c : W64) : (a ^^^ b) &&& c = (a &&& c) ^^^ (b &&& c) := by
  apply BitVec.eq_of_getLsbD_eq; intro i hi
  simp only [BitVec.getLsbD_and, BitVec.getLsbD_xor]
  cases a.getLsbD i <;> cases b.getLsbD i <;> cases c.getLsbD i <;> rfl

theorem and_xor (a b c : W64) : a &&& (b ^^^ c) = (a &&& b) ^^^ (a &&& c) := by
  rw [BitVec.and_comm, xor_and, BitVec.and_comm b, BitVec.and_comm c]

theorem sumV_ins (m c : Nat) (p : Sum) : sumV e (ins m c p) = (BitVec.ofNat 64 c &&& monoV e m) ^^^ sumV e p := by
  induction p with
  | nil =>
    rw [ins]
    rcases h : Nat.beq c 0 with _ | _
    · rfl
    · rw [cond_true, Nat.eq_of_beq_eq_true h]
      simp [sumV]
  | cons t p ih =>
    rw [ins]
    rcases h : Nat.blt m t.1 with _ | _
    · rw [cond_false]
      rcases h2 : Nat.beq m t.1 with _ | _
      · rw [cond_false, sumV, ih, sumV]
        ac_rfl
      · rw [cond_true]
        have h2 := Nat.eq_of_beq_eq_true h2
        rcases h3 : Nat.beq c t.2 with _ | _
        · rw [cond_false, sumV, sumV, ← h2]
          simp only
          rw [ofNat_xor, xor_and, BitVec.xor_assoc]
        · rw [cond_true, sumV, ← h2, ← Nat.eq_of_beq_eq_true h3, ← BitVec.xor_assoc, BitVec.xor_self, BitVec.zero_xor]
    · rfl

theorem sumV_add (p q : Sum) : sumV e (addS p q) = sumV e p ^^^ sumV e q := by
  induction p with
  | nil => simp [addS, sumV]
  | cons t p ih =>
    rw [addS, List.foldr_cons, sumV_ins]
    rw [addS] at ih
    rw [ih, sumV, BitVec.xor_assoc]

theorem eq_of_eqS {p q : Sum} (h : eqS p q = true) : sumV e p = sumV e q := by
  have h2 := sumV_add e p q
  rw [List.isEmpty_iff.mp h] at h2
  have h3 : sumV e p ^^^ sumV e q ^^^ sumV e q = sumV e q := by rw [← h2]; simp [sumV]
  rwa [BitVec.xor_assoc, BitVec.xor_self, BitVec.xor_zero] at h3

theorem monoV_mul {m n k : Mono} (h : mulM m n = some k) : monoV e k = monoV e m &&& monoV e n := by
  unfold mulM at h
  rcases h1 : Nat.beq m 0 with _ | _
  · rw [h1, cond_false] at h
    rcases h2 : Nat.beq n 0 with _ | _
    · rw [h2, cond_false] at h
      rcases h3 : Nat.beq m n with _ | _
      · rw [h3, cond_false] at h
        rcases h4 : Nat.blt m 65536 && Nat.blt n 65536 with _ | _
        · rw [h4, cond_false] at h; simp at h
        · rw [h4, cond_true, Option.some.injEq] at h
          rw [Bool.and_eq_true] at h4
          have a1 := Nat.blt_eq.mp h4.1
          have a2 := Nat.blt_eq.mp h4.2
          have b1 : 0 < m := by
            rcases Nat.eq_zero_or_pos m with h | h
            · subst h; simp at h1
            · exact h
          have b2 : 0 < n := by
            rcases Nat.eq_zero_or_pos n with h | h
            · subst h; simp at h2
            · exact h
          have c1 : monoV e m = atomV e m := by rw [monoV, h1, cond_false, h4.1, cond_true]
          have c2 : monoV e n = atomV e n := by rw [monoV, h2, cond_false, h4.2, cond_true]
          rw [c1, c2]
          have key : ∀ a b : Nat, 0 < a → 0 < b → a < 65536 → b < 65536 → monoV e (a * 65536 + b) = atomV e a &&& atomV e b := by
            intro a b ha hb ha' hb'
            have d1 : Nat.beq (a * 65536 + b) 0 = false := beq0 (by omega)
            have d2 : Nat.blt (a * 65536 + b) 65536 = false := by
              rw [Bool.eq_false_iff]; intro h; have := Nat.blt_eq.mp h; omega
            rw [monoV, d1, cond_false, d2, cond_false, show (a * 65536 + b) / 65536 = a by omega, show (a * 65536 + b) % 65536 = b by omega]
          rcases h5 : Nat.blt m n with _ | _
          · rw [h5, cond_false] at h
            rw [← h, key n m b2 b1 a2 a1, BitVec.and_comm]
          · rw [h5, cond_true] at h
            rw [← h, key m n b1 b2 a1 a2]
      · rw [h3, cond_true, Option.some.injEq] at h
        rw [← Nat.eq_of_beq_eq_true h3, ← h, BitVec.and_self]
    · rw [h2, cond_true, Option.some.injEq] at h
      rw [← h, show monoV e n = BitVec.allOnes 64 by rw [monoV, h2]; rfl, BitVec.and_allOnes]
  · rw [h1, cond_true, Option.some.injEq] at h
    rw [← h, show monoV e m = BitVec.allOnes 64 by rw [monoV, h1]; rfl, BitVec.allOnes_and]

theorem sumV_mulT (m c : Nat) : ∀ (q acc r : Sum), mulT m c q acc = some r →
    sumV e r = ((BitVec.ofNat 64 c &&& monoV e m) &&& sumV e q) ^^^ sumV e acc := by
  intro q
  induction q with
  | nil => intro acc r h; rw [mulT, Option.some.injEq] at h; rw [h]; simp [sumV]
  | cons t q ih =>
    intro acc r h
    rw [mulT] at h
    rcases hk : mulM m t.1 with _ | k
    · rw [hk] at h; simp at h
    rw [hk] at h
    rw [ih _ _ h, sumV_ins, monoV_mul e hk, ofNat_and, sumV, and_xor]
    have : BitVec.ofNat 64 c &&& BitVec.ofNat 64 t.2 &&& (monoV e m &&& monoV e t.1) =
        BitVec.ofNat 64 c &&& monoV e m &&& (BitVec.ofNat 64 t.2 &&& monoV e t.1) := by ac_rfl
    rw [this, ← BitVec.xor_assoc, BitVec.xor_comm (_ &&& sumV e q)]

theorem sumV_mul : ∀ (p q acc r : Sum), mulS p q acc = some r → sumV e r = (sumV e p &&& sumV e q) ^^^ sumV e acc := by
  intro p
  induction p with
  | nil => intro q acc r h; rw [mulS, Option.some.injEq] at h; rw [h]; simp [sumV]
  | cons t p ih =>
    intro q acc r h
    rw [mulS] at h
    rcases hk : mulT t.1 t.2 q acc with _ | k
    · rw [hk] at h; simp at h
    rw [hk] at h
    rw [ih _ _ _ h, sumV_mulT e _ _ _ _ _ hk, sumV, xor_and, ← BitVec.xor_assoc, BitVec.xor_comm (sumV e p &&& _)]

theorem getLsbD_rot (x : W64) (n i : Nat) (hi : i < 64) : (x.rotateLeft n).getLsbD i = x.getLsbD ((i + (64 - n % 64)) % 64) := by
  rw [BitVec.getLsbD_rotateLeft]
  have hn : n % 64 < 64 := Nat.mod_lt _ (by decide)
  generalize n % 64 = m at *
  by_cases h : i < m
  · simp only [h, decide_true, cond_true]; congr 1; rw [Nat.mod_eq_of_lt (by omega)]; omega
  · simp only [h, hi, decide_true, decide_false, cond_false, Bool.true_and]
    congr 1; omega

theorem rot_xor (x y : W64) (n : Nat) : (x ^^^ y).rotateLeft n = x.rotateLeft n ^^^ y.rotateLeft n := by
  apply BitVec.eq_of_getLsbD_eq; intro i hi
  simp only [BitVec.getLsbD_xor, getLsbD_rot _ _ _ hi]

theorem rot_and (x y : W64) (n : Nat) : (x &&& y).rotateLeft n = x.rotateLeft n &&& y.rotateLeft n := by
  apply BitVec.eq_of_getLsbD_eq; intro i hi
  simp only [BitVec.getLsbD_and, getLsbD_rot _ _ _ hi]

theorem rot_rot (x : W64) (m n : Nat) : (x.rotateLeft m).rotateLeft n = x.rotateLeft ((m + n) % 64) := by
  apply BitVec.eq_of_getLsbD_eq; intro i hi
  rw [getLsbD_rot _ _ _ hi, getLsbD_rot _ _ _ (Nat.mod_lt _ (by decide)), getLsbD_rot _ _ _ hi]
  congr 1
  omega

theorem rot_ones (n : Nat) : (BitVec.allOnes 64).rotateLeft n = BitVec.allOnes 64 := by
  apply BitVec.eq_of_getLsbD_eq; intro i hi
  rw [getLsbD_rot _ _ _ hi, BitVec.getLsbD_allOnes, BitVec.getLsbD_allOnes, decide_eq_true hi, decide_eq_true (Nat.mod_lt _ (by decide))]

theorem atomV_rot (n a : Nat) : atomV e (rotA n a) = (atomV e a).rotateLeft n := by
  rw [atomV, atomV, rot_rot, rotA]
  generalize (a - 1) = b
  have h : ((b % 64 + n) % 64) < 64 := Nat.mod_lt _ (by decide)
  rw [show b / 64 * 64 + (b % 64 + n) % 64 + 1 - 1 = (b % 64 + n) % 64 + b / 64 * 64 by omega, Nat.add_mul_div_right _ _ (by decide), Nat.div_eq_of_lt h,
    Nat.add_mul_mod_self_right, Nat.mod_eq_of_lt h, Nat.zero_add]

theorem rotA_pos (n a : Nat) : 0 < rotA n a := by rw [rotA]; omega

theorem rotA_lt (n a : Nat) (h : a < 65472) : rotA n a < 65536 := by
  rw [rotA]
  have h : (((a - 1) % 64 + n) % 64) < 64 := Nat.mod_lt _ (by decide)
  omega

theorem monoV_rot (n : Nat) (m : Mono) (h : fitsM m = true) : monoV e (rotM n m) = (monoV e m).rotateLeft n := by
  rw [fitsM, Bool.and_eq_true] at h
  have f1 := Nat.blt_eq.mp h.1
  have f2 := Nat.blt_eq.mp h.2
  rw [rotM]
  conv_rhs => rw [monoV]
  rcases h1 : Nat.beq m 0 with _ | _
  · rw [cond_false, cond_false]
    rcases h2 : Nat.blt m 65536 with _ | _
    · rw [cond_false, cond_false, rot_and, ← atomV_rot, ← atomV_rot]
      have p1 := rotA_pos n (m / 65536)
      have p2 := rotA_pos n (m % 65536)
      have q1 := rotA_lt n (m / 65536) (by omega)
      have q2 := rotA_lt n (m % 65536) f2
      generalize rotA n (m / 65536) = a at *
      generalize rotA n (m % 65536) = b at *
      have d1 : Nat.beq (a * 65536 + b) 0 = false := beq0 (by omega)
      have d2 : Nat.blt (a * 65536 + b) 65536 = false := by
        rw [Bool.eq_false_iff]; intro h; have := Nat.blt_eq.mp h; omega
      rw [monoV, d1, cond_false, d2, cond_false, show (a * 65536 + b) / 65536 = a by omega, show (a * 65536 + b) % 65536 = b by omega]
    · rw [cond_true, cond_true, ← atomV_rot]
      have a1 := Nat.blt_eq.mp h2
      rw [Nat.mod_eq_of_lt a1] at f2
      have p1 := rotA_pos n m
      have q1 := rotA_lt n m f2
      have d1 : Nat.beq (rotA n m) 0 = false := beq0 (by omega)
      have d2 : Nat.blt (rotA n m) 65536 = true := Nat.blt_eq.mpr q1
      rw [monoV, d1, cond_false, d2, cond_true]
  · rw [cond_true, cond_true, rot_ones]; rfl

theorem sumV_rot (n : Nat) : ∀ (p q : Sum), rotS n p = some q → sumV e q = (sumV e p).rotateLeft n := by
  intro p
  induction p with
  | nil =>
    intro q h
    rw [rotS, Option.some.injEq] at h
    rw [← h, sumV]
    apply BitVec.eq_of_getLsbD_eq; intro i hi
    rw [getLsbD_rot _ _ _ hi]; simp
  | cons t p ih =>
    intro q h
    rw [rotS] at h
    rcases hf : fitsM t.1 with _ | _
    · rw [hf] at h; simp at h
    rw [hf, cond_true] at h
    rcases hq : rotS n p with _ | q'
    · rw [hq] at h; simp at h
    rw [hq] at h
    simp only [Option.some.injEq] at h
    rw [← h, sumV_ins, ih _ hq, BitVec.ofNat_toNat, BitVec.setWidth_eq, monoV_rot e n _ hf, sumV, rot_xor, rot_and]

theorem ones_eq : BitVec.ofNat 64 18446744073709551615 = BitVec.allOnes 64 := by decide

theorem sumV_not (p : Sum) : sumV e (notS p) = ~~~ sumV e p := by
  have h1 : sumV e one = BitVec.allOnes 64 := by
    rw [one, sumV, sumV]
    change (BitVec.ofNat 64 18446744073709551615 &&& BitVec.allOnes 64) ^^^ 0 = _
    decide
  rw [notS, sumV_add, h1, BitVec.allOnes_xor]

theorem sumV_var (v : Nat) (h : v < 1023) : sumV e (varS v) = e v := by
  rw [varS, sumV, sumV, monoV]
  have d1 : Nat.beq (64 * v + 1) 0 = false := beq0 (by omega)
  have d2 : Nat.blt (64 * v + 1) 65536 = true := Nat.blt_eq.mpr (by omega)
  simp only
  rw [d1, cond_false, d2, cond_true, atomV, ones_eq, BitVec.allOnes_and, show 64 * v + 1 - 1 = 64 * v by omega, Nat.mul_div_cancel_left _ (by decide),
    Nat.mul_mod_right]
  apply BitVec.eq_of_getLsbD_eq; intro i hi
  have : (e v).rotateLeft 0 = e v := by
    apply BitVec.eq_of_getLsbD_eq; intro i hi
    rw [getLsbD_rot _ _ _ hi]; congr 1; omega
  rw [this]; simp

end

/-! ### Expressions -/

/-- A word computed from the inputs. -/
inductive Ex where
  | var (v : Nat)
  | cst (c : Nat)
  | xor (a b : Ex)
  | and (a b : Ex)
  | not (a : Ex)
  | rol (n : Nat) (a : Ex)

def Ex.den (e : Nat → W64) : Ex → W64
  | .var v => e v
  | .cst c => BitVec.ofNat 64 c
  | .xor a b => a.den e ^^^ b.den e
  | .and a b => a.den e &&& b.den e
  | .not a => ~~~ a.den e
  | .rol n a => (a.den e).rotateLeft n

def Ex.norm : Ex → Option Sum
  | .var v => bif Nat.blt v 1023 then some (varS v) else none
  | .cst c => some [(0, c)]
  | .xor a b =>
    match a.norm, b.norm with
    | some p, some q => some (addS p q)
    | _, _ => none
  | .and a b =>
    match a.norm, b.norm with
    | some p, some q => mulS p q []
    | _, _ => none
  | .not a =>
    match a.norm with
    | some p => some (notS p)
    | none => none
  | .rol n a =>
    match a.norm with
    | some p => rotS n p
    | none => none

theorem sumV_cst (e : Nat → W64) (c : Nat) : sumV e [(0, c)] = BitVec.ofNat 64 c := by
  rw [sumV, sumV]
  change (BitVec.ofNat 64 c &&& BitVec.allOnes 64) ^^^ 0#64 = _
  rw [BitVec.and_allOnes, BitVec.xor_zero]

theorem norm_sound (e : Nat → W64) : ∀ (x : Ex) (p : Sum), x.norm = some p → sumV e p = x.den e := by
  intro x
  induction x with
  | var v =>
    intro p h
    rw [Ex.norm] at h
    rcases hv : Nat.blt v 1023 with _ | _
    · rw [hv] at h; simp at h
    rw [hv, cond_true, Option.some.injEq] at h
    rw [← h, sumV_var e v (Nat.blt_eq.mp hv)]; rfl
  | cst c => intro p h; rw [Ex.norm, Option.some.injEq] at h; rw [← h, sumV_cst]; rfl
  | xor a b iha ihb =>
    intro p h
    rw [Ex.norm] at h
    rcases ha : a.norm with _ | pa
    · rw [ha] at h; simp at h
    rcases hb : b.norm with _ | pb
    · rw [ha, hb] at h; simp at h
    rw [ha, hb] at h
    simp only [Option.some.injEq] at h
    rw [← h, sumV_add, iha _ ha, ihb _ hb]; rfl
  | and a b iha ihb =>
    intro p h
    rw [Ex.norm] at h
    rcases ha : a.norm with _ | pa
    · rw [ha] at h; simp at h
    rcases hb : b.norm with _ | pb
    · rw [ha, hb] at h; simp at h
    rw [ha, hb] at h
    simp only at h
    rw [sumV_mul e _ _ _ _ h, iha _ ha, ihb _ hb]
    change _ ^^^ 0#64 = _
    rw [BitVec.xor_zero]; rfl
  | not a iha =>
    intro p h
    rw [Ex.norm] at h
    rcases ha : a.norm with _ | pa
    · rw [ha] at h; simp at h
    rw [ha] at h
    simp only [Option.some.injEq] at h
    rw [← h, sumV_not, iha _ ha]; rfl
  | rol n a iha =>
    intro p h
    rw [Ex.norm] at h
    rcases ha : a.norm with _ | pa
    · rw [ha] at h; simp at h
    rw [ha] at h
    simp only at h
    rw [sumV_rot e _ _ _ h, iha _ ha]; rfl

/-! ### The machine -/

/-- What is known of a register or memory word. -/
inductive SV where
  | any
  | s (p : Sum)
  | ptr (b : Nat)

structure SS where
  reg : List SV
  mem : List (List SV)

def SV.rel (e : Nat → W64) : SV → Val → Prop
  | .any, _ => True
  | .s p, v => v = .w (sumV e p)
  | .ptr b, v => v = .ptr b

structure Rel (e : Nat → W64) (S : SS) (s : St) : Prop where
  reg : List.Forall₂ (SV.rel e) S.reg s.reg
  mem : List.Forall₂ (List.Forall₂ (SV.rel e)) S.mem s.mem

def SS.rd (S : SS) : Opd → Option SV
  | .reg r => S.reg[r]?
  | .imm x => some (.s [(0, x)])
  | .mem r k =>
    match S.reg[r]? with
    | some (.ptr b) => match S.mem[b]? with
      | some m => m[k]?
      | none => none
    | _ => none
  | .glob _ _ => none

def SS.rdw (S : SS) (o : Opd) : Option Sum :=
  match S.rd o with
  | some (.s p) => some p
  | _ => none

def SS.wr (S : SS) (o : Opd) (v : SV) : Option SS :=
  match o with
  | .reg r => bif Nat.blt r S.reg.length then some { S with reg := S.reg.set r v } else none
  | .mem r k =>
    match S.reg[r]? with
    | some (.ptr b) => match S.mem[b]? with
      | some m => bif Nat.blt k m.length then some { S with mem := S.mem.set b (m.set k v) } else none
      | none => none
    | _ => none
  | _ => none

/-- Write the result of an operation. -/
def SS.put (S : SS) (d : Opd) (p : Option Sum) : Option SS :=
  match p with
  | some p => S.wr d (.s p)
  | none => none

def op2 (f : Sum → Sum → Option Sum) (a b : Option Sum) : Option Sum :=
  match a, b with
  | some p, some q => f p q
  | _, _ => none

def op1 (f : Sum → Option Sum) (a : Option Sum) : Option Sum :=
  match a with
  | some p => f p
  | none => none

/-- a or b = not (not a and not b) -/
def orS (p q : Sum) : Option Sum :=
  match mulS (notS p) (notS q) [] with
  | some r => some (notS r)
  | none => none

def sstep (S : SS) : Instr → Option SS
  | .mov a d =>
    match S.rd a with
    | some v => S.wr d v
    | none => none
  | .xor fl a b d =>
    bif fl && (a == b) then S.wr d (.s []) else S.put d (op2 (fun p q => some (addS p q)) (S.rdw a) (S.rdw b))
  | .and _ a b d => S.put d (op2 (fun p q => mulS p q []) (S.rdw a) (S.rdw b))
  | .or a b d => S.put d (op2 orS (S.rdw a) (S.rdw b))
  | .not a d => S.put d (op1 (fun p => some (notS p)) (S.rdw a))
  | .rol n a d => S.put d (op1 (rotS n) (S.rdw a))
  | _ => none

def srun (S : SS) : List Instr → Option SS
  | [] => some S
  | i :: is =>
    match sstep S i with
    | some S => srun S is
    | none => none

section
variable {e : Nat → W64}

theorem forall₂_get {α β : Type} {R : α → β → Prop} {l : List α} {m : List β} (h : List.Forall₂ R l m) {i : Nat} {a : α} (ha : l[i]? = some a) :
    ∃ b, m[i]? = some b ∧ R a b := by
  induction h generalizing i with
  | nil => simp at ha
  | cons h _ ih =>
    cases i with
    | zero => simp only [List.getElem?_cons_zero, Option.some.injEq] at ha ⊢; subst ha; exact ⟨_, rfl, h⟩
    | succ i => simp only [List.getElem?_cons_succ] at ha ⊢; exact ih ha

theorem forall₂_set {α β : Type} {R : α → β → Prop} {l : List α} {m : List β} (h : List.Forall₂ R l m) (i : Nat) {a : α} {b : β} (hab : R a b) :
    List.Forall₂ R (l.set i a) (m.set i b) := by
  induction h generalizing i with
  | nil => simp
  | cons h _ ih =>
    cases i with
    | zero => exact .cons hab ‹_›
    | succ i => exact .cons h (ih i)

theorem forall₂_len {α β : Type} {R : α → β → Prop} {l : List α} {m : List β} (h : List.Forall₂ R l m) : l.length = m.length := by
  induction h with
  | nil => rfl
  | cons _ _ ih => simp [ih]

theorem rd_sound {S : SS} {s : St} (h : Rel e S s) {o : Opd} {v : SV} (hv : S.rd o = some v) : ∃ x, s.rd o = some x ∧ v.rel e x := by
  cases o with
  | reg r => exact forall₂_get h.reg hv
  | imm x =>
    simp only [SS.rd, Option.some.injEq] at hv
    subst hv
    exact ⟨_, rfl, by rw [SV.rel, sumV_cst]⟩
  | glob b k => simp [SS.rd] at hv
  | mem r k =>
    simp only [SS.rd] at hv
    rcases hr : S.reg[r]? with _ | (_ | _ | b)
    · rw [hr] at hv; simp at hv
    · rw [hr] at hv; simp at hv
    · rw [hr] at hv; simp at hv
    rw [hr] at hv
    simp only at hv
    rcases hm : S.mem[b]? with _ | m
    · rw [hm] at hv; simp at hv
    rw [hm] at hv
    simp only at hv
    obtain ⟨x, hx, hxr⟩ := forall₂_get h.reg hr
    simp only [SV.rel] at hxr
    obtain ⟨m', hm', hmr⟩ := forall₂_get h.mem hm
    obtain ⟨y, hy, hyr⟩ := forall₂_get hmr hv
    refine ⟨y, ?_, hyr⟩
    simp only [St.rd, hx, hxr, hm', hy]

theorem rdw_sound {S : SS} {s : St} (h : Rel e S s) {o : Opd} {p : Sum} (hv : S.rdw o = some p) : s.rdw o = some (sumV e p) := by
  rw [SS.rdw] at hv
  rcases hr : S.rd o with _ | (_ | q | b)
  · rw [hr] at hv; simp at hv
  · rw [hr] at hv; simp at hv
  · rw [hr] at hv
    simp only [Option.some.injEq] at hv
    subst hv
    obtain ⟨x, hx, hxr⟩ := rd_sound h hr
    simp only [SV.rel] at hxr
    rw [St.rdw, hx, hxr]
  · rw [hr] at hv; simp at hv

theorem wr_sound {S S' : SS} {s : St} (h : Rel e S s) {o : Opd} {v : SV} {x : Val} (hx : v.rel e x) (hw : S.wr o v = some S') :
    ∃ s', s.wr o x = some s' ∧ Rel e S' s' := by
  cases o with
  | reg r =>
    simp only [SS.wr] at hw
    rcases hr : Nat.blt r S.reg.length with _ | _
    · rw [hr] at hw; simp at hw
    rw [hr, cond_true, Option.some.injEq] at hw
    subst hw
    have hl : r < s.reg.length := by rw [← forall₂_len h.reg]; exact Nat.blt_eq.mp hr
    exact ⟨{ s with reg := s.reg.set r x }, by simp only [St.wr, hl, if_true], ⟨forall₂_set h.reg r hx, h.mem⟩⟩
  | imm x => simp [SS.wr] at hw
  | glob b k => simp [SS.wr] at hw
  | mem r k =>
    simp only [SS.wr] at hw
    rcases hr : S.reg[r]? with _ | (_ | _ | b)
    · rw [hr] at hw; simp at hw
    · rw [hr] at hw; simp at hw
    · rw [hr] at hw; simp at hw
    rw [hr] at hw
    simp only at hw
    rcases hm : S.mem[b]? with _ | m
    · rw [hm] at hw; simp at hw
    rw [hm] at hw
    simp only at hw
    rcases hk : Nat.blt k m.length with _ | _
    · rw [hk] at hw; simp at hw
    rw [hk, cond_true, Option.some.injEq] at hw
    subst hw
    obtain ⟨y, hy, hyr⟩ := forall₂_get h.reg hr
    simp only [SV.rel] at hyr
    obtain ⟨m', hm', hmr⟩ := forall₂_get h.mem hm
    have hl : k < m'.length := by rw [← forall₂_len hmr]; exact Nat.blt_eq.mp hk
    refine ⟨{ s with mem := s.mem.set b (m'.set k x) }, ?_, ⟨h.reg, forall₂_set h.mem b (forall₂_set hmr k hx)⟩⟩
    simp only [St.wr, hy, hyr, St.wrMem, hm', hl, if_true]

theorem rel_flags {S : SS} {s : St} (h : Rel e S s) (c o : Option Bool) : Rel e S { s with cf := c, of := o } := ⟨h.reg, h.mem⟩

theorem put_sound {S S' : SS} {s : St} (h : Rel e S s) {d : Opd} {p : Option Sum} (hw : S.put d p = some S') :
    ∃ q s', p = some q ∧ s.wr d (.w (sumV e q)) = some s' ∧ Rel e S' s' := by
  cases p with
  | none => simp [SS.put] at hw
  | some q =>
    rw [SS.put] at hw
    obtain ⟨s', h1, h2⟩ := wr_sound h (v := .s q) rfl hw
    exact ⟨q, s', rfl, h1, h2⟩

theorem op2_some {f : Sum → Sum → Option Sum} {a b : Option Sum} {r : Sum} (h : op2 f a b = some r) : ∃ p q, a = some p ∧ b = some q ∧ f p q = some r := by
  cases a with
  | none => simp [op2] at h
  | some p => cases b with
    | none => simp [op2] at h
    | some q => exact ⟨p, q, rfl, rfl, h⟩

theorem op1_some {f : Sum → Option Sum} {a : Option Sum} {r : Sum} (h : op1 f a = some r) : ∃ p, a = some p ∧ f p = some r := by
  cases a with
  | none => simp [op1] at h
  | some p => exact ⟨p, rfl, h⟩

theorem orS_sound {p q r : Sum} (h : orS p q = some r) : sumV e r = sumV e p ||| sumV e q := by
  rw [orS] at h
  rcases hm : mulS (notS p) (notS q) [] with _ | t
  · rw [hm] at h; simp at h
  rw [hm] at h
  simp only [Option.some.injEq] at h
  rw [← h, sumV_not, sumV_mul e _ _ _ _ hm, sumV_not, sumV_not]
  apply BitVec.eq_of_getLsbD_eq; intro i hi
  simp [hi, sumV]

theorem step_sound {S S' : SS} {s : St} (h : Rel e S s) {i : Instr} (hs : sstep S i = some S') : ∃ s', step s i = some s' ∧ Rel e S' s' := by
  cases i with
  | mov a d =>
    simp only [sstep] at hs
    rcases ha : S.rd a with _ | v
    · rw [ha] at hs; simp at hs
    rw [ha] at hs
    simp only at hs
    obtain ⟨x, hx, hr⟩ := rd_sound h ha
    obtain ⟨s', h1, h2⟩ := wr_sound h hr hs
    exact ⟨s', by simp only [step, hx, Option.bind_eq_bind, Option.bind_some, h1], h2⟩
  | xor fl a b d =>
    simp only [sstep] at hs
    rcases hc : (fl && (a == b)) with _ | _
    · rw [hc, cond_false] at hs
      obtain ⟨r, s', h1, h2, h3⟩ := put_sound h hs
      obtain ⟨p, q, hp, hq, hr⟩ := op2_some h1
      simp only [Option.some.injEq] at hr
      subst hr
      rw [sumV_add] at h2
      cases fl
      · exact ⟨s', by simp [step, rdw_sound h hp, rdw_sound h hq, h2], h3⟩
      · rw [Bool.true_and] at hc
        exact ⟨{ s' with cf := some false, of := some false }, by simp [step, hc, rdw_sound h hp, rdw_sound h hq, h2], rel_flags h3 _ _⟩
    · rw [hc, cond_true] at hs
      obtain ⟨s', h1, h2⟩ := wr_sound h (v := .s []) (x := .w 0) rfl hs
      rw [Bool.and_eq_true] at hc
      obtain ⟨rfl, hab⟩ := hc
      exact ⟨{ s' with cf := some false, of := some false }, by
        have h1 : s.wr d (.w 0#64) = some s' := h1
        simp [step, hab, h1], rel_flags h2 _ _⟩
  | and fl a b d =>
    simp only [sstep] at hs
    obtain ⟨r, s', h1, h2, h3⟩ := put_sound h hs
    obtain ⟨p, q, hp, hq, hr⟩ := op2_some h1
    rw [sumV_mul e _ _ _ _ hr] at h2
    simp only [sumV, BitVec.ofNat_eq_ofNat, BitVec.xor_zero] at h2
    cases fl
    · exact ⟨s', by simp [step, rdw_sound h hp, rdw_sound h hq, h2], h3⟩
    · exact ⟨{ s' with cf := some false, of := some false }, by simp [step, rdw_sound h hp, rdw_sound h hq, h2], rel_flags h3 _ _⟩
  | or a b d =>
    simp only [sstep] at hs
    obtain ⟨r, s', h1, h2, h3⟩ := put_sound h hs
    obtain ⟨p, q, hp, hq, hr⟩ := op2_some h1
    rw [orS_sound hr] at h2
    exact ⟨{ s' with cf := some false, of := some false }, by simp [step, rdw_sound h hp, rdw_sound h hq, h2], rel_flags h3 _ _⟩
  | not a d =>
    simp only [sstep] at hs
    obtain ⟨r, s', h1, h2, h3⟩ := put_sound h hs
    obtain ⟨p, hp, hr⟩ := op1_some h1
    simp only [Option.some.injEq] at hr
    subst hr
    rw [sumV_not] at h2
    exact ⟨s', by simp [step, rdw_sound h hp, h2], h3⟩
  | rol n a d =>
    simp only [sstep] at hs
    obtain ⟨r, s', h1, h2, h3⟩ := put_sound h hs
    obtain ⟨p, hp, hr⟩ := op1_some h1
    rw [sumV_rot e _ _ _ hr] at h2
    exact ⟨{ s' with cf := none, of := none }, by simp [step, rdw_sound h hp, h2], rel_flags h3 _ _⟩
  | _ => simp [sstep] at hs

theorem run_sound {S S' : SS} {s : St} (h : Rel e S s) {c : List Instr} (hs : srun S c = some S') : ∃ s', run s c = some s' ∧ Rel e S' s' := by
  induction c generalizing S s with
  | nil => simp only [srun, Option.some.injEq] at hs; subst hs; exact ⟨s, rfl, h⟩
  | cons i c ih =>
    rw [srun] at hs
    rcases hi : sstep S i with _ | S1
    · rw [hi] at hs; simp at hs
    rw [hi] at hs
    simp only at hs
    obtain ⟨s1, h1, h2⟩ := step_sound h hi
    obtain ⟨s', h3, h4⟩ := ih h2 hs
    exact ⟨s', by simp only [run, h1, Option.bind_eq_bind, Option.bind_some, h3], h4⟩

theorem run_append (s : St) (c d : List Instr) : run s (c ++ d) = (run s c).bind fun t => run t d := by
  induction c generalizing s with
  | nil => rfl
  | cons i c ih =>
    simp only [List.cons_append, run, Option.bind_eq_bind]
    cases step s i with
    | none => rfl
    | some t => simp only [Option.bind_some, ih]

end

/-! ### Layouts

A layout says which words of the machine hold which inputs; a hop runs a piece of code from one layout to another, where the
new inputs are given sums of the old ones. -/

/-- A word of a layout: anything, a pointer, or the xor of inputs. -/
inductive TV where
  | any
  | ptr (b : Nat)
  | vars (l : List Nat)

def sumVars : List Nat → Sum
  | [] => []
  | v :: l => addS (varS v) (sumVars l)

def TV.sv : TV → SV
  | .any => .any
  | .ptr b => .ptr b
  | .vars l => .s (sumVars l)

structure Lay where
  reg : List TV
  mem : List (List TV)

def Lay.ss (T : Lay) : SS := ⟨T.reg.map TV.sv, T.mem.map (·.map TV.sv)⟩

def xorE (e : Nat → W64) : List Nat → W64
  | [] => 0
  | v :: l => e v ^^^ xorE e l

def TV.rel (e : Nat → W64) : TV → Val → Prop
  | .any, _ => True
  | .ptr b, v => v = .ptr b
  | .vars l, v => v = .w (xorE e l)

/-- The state has this layout. -/
structure Lay.At (T : Lay) (e : Nat → W64) (s : St) : Prop where
  reg : List.Forall₂ (TV.rel e) T.reg s.reg
  mem : List.Forall₂ (List.Forall₂ (TV.rel e)) T.mem s.mem

/-- The xor of the sums of the given inputs. -/
def img (Q : List Sum) : List Nat → Option Sum
  | [] => some []
  | v :: l =>
    match Q[v]?, img Q l with
    | some p, some q => some (addS p q)
    | _, _ => none

def fits (Q : List Sum) : TV → SV → Bool
  | .any, _ => true
  | .ptr b, .ptr c => Nat.beq b c
  | .vars l, .s p =>
    match img Q l with
    | some q => eqS p q
    | none => false
  | _, _ => false

def allFit {α β : Type} (f : α → β → Bool) : List α → List β → Bool
  | [], [] => true
  | a :: l, b :: m => f a b && allFit f l m
  | _, _ => false

def Lay.fits (T : Lay) (Q : List Sum) (S : SS) : Bool := allFit (AsmBit.fits Q) T.reg S.reg && allFit (allFit (AsmBit.fits Q)) T.mem S.mem

def TV.small : TV → Bool
  | .vars l => l.all fun v => Nat.blt v 1023
  | _ => true

def Lay.small (T : Lay) : Bool := T.reg.all TV.small && T.mem.all (·.all TV.small)

def normAll : List Ex → Option (List Sum)
  | [] => some []
  | x :: xs =>
    match x.norm, normAll xs with
    | some p, some ps => some (p :: ps)
    | _, _ => none

/-- Run `c` from layout `T`; the new inputs are `Q`. -/
def hop (T : Lay) (c : List Instr) (T' : Lay) (Q : List Ex) : Bool :=
  T.small &&
  match srun T.ss c, normAll Q with
  | some S, some Q => T'.fits Q S
  | _, _ => false

/-- The same with `mov (.imm x) (.reg r)` between two pieces, whatever x is; it is input v. -/
def hopI (T : Lay) (c : List Instr) (r v : Nat) (d : List Instr) (T' : Lay) (Q : List Ex) : Bool :=
  T.small && (Nat.blt v 1023 &&
  match srun T.ss c, normAll Q with
  | some S, some Q =>
    match S.wr (.reg r) (.s (varS v)) with
    | some S => match srun S d with
      | some S => T'.fits Q S
      | none => false
    | none => false
  | _, _ => false)

section
variable {e : Nat → W64}

theorem sumVars_eval : ∀ l : List Nat, (∀ v ∈ l, v < 1023) → sumV e (sumVars l) = xorE e l := by
  intro l
  induction l with
  | nil => intro _; rfl
  | cons v l ih => intro h; rw [sumVars, sumV_add, sumV_var e v (h v (by simp)), ih (fun u hu => h u (by simp [hu]))]; rfl

theorem sv_rel {t : TV} (hs : t.small = true) {v : Val} (h : t.rel e v) : t.sv.rel e v := by
  cases t with
  | any => trivial
  | ptr b => exact h
  | vars l =>
    rw [TV.small, List.all_eq_true] at hs
    rw [TV.sv, SV.rel, sumVars_eval l (fun v hv => Nat.blt_eq.mp (hs v hv))]
    exact h

theorem list_rel {l : List TV} (hs : l.all TV.small = true) {m : List Val} (h : List.Forall₂ (TV.rel e) l m) : List.Forall₂ (SV.rel e) (l.map TV.sv) m := by
  induction h with
  | nil => exact .nil
  | cons h _ ih =>
    rw [List.all_cons, Bool.and_eq_true] at hs
    exact .cons (sv_rel hs.1 h) (ih hs.2)

theorem mem_rel {l : List (List TV)} (hs : (l.all fun m => m.all TV.small) = true) {m : List (List Val)} (h : List.Forall₂ (List.Forall₂ (TV.rel e)) l m) :
    List.Forall₂ (List.Forall₂ (SV.rel e)) (l.map fun m => m.map TV.sv) m := by
  induction h with
  | nil => exact .nil
  | cons h _ ih =>
    rw [List.all_cons, Bool.and_eq_true] at hs
    exact .cons (list_rel hs.1 h) (ih hs.2)

theorem at_rel {T : Lay} (hs : T.small = true) {s : St} (h : T.At e s) : Rel e T.ss s := by
  rw [Lay.small, Bool.and_eq_true] at hs
  exact ⟨list_rel hs.1 h.reg, mem_rel hs.2 h.mem⟩

theorem img_sound {e' : Nat → W64} {Q : List Sum} (hq : ∀ v p, Q[v]? = some p → e' v = sumV e p) :
    ∀ (l : List Nat) (q : Sum), img Q l = some q → sumV e q = xorE e' l := by
  intro l
  induction l with
  | nil => intro q h; rw [img, Option.some.injEq] at h; rw [← h]; rfl
  | cons v l ih =>
    intro q h
    rw [img] at h
    rcases hp : Q[v]? with _ | p
    · rw [hp] at h; simp at h
    rcases hi : img Q l with _ | r
    · rw [hp, hi] at h; simp at h
    rw [hp, hi] at h
    simp only [Option.some.injEq] at h
    rw [← h, sumV_add, ← hq v p hp, ih r hi]; rfl

theorem fits_sound {e' : Nat → W64} {Q : List Sum} (hq : ∀ v p, Q[v]? = some p → e' v = sumV e p) {t : TV} {a : SV} (h : fits Q t a = true) {v : Val}
    (hv : a.rel e v) : t.rel e' v := by
  cases t with
  | any => trivial
  | ptr b =>
    cases a with
    | ptr c => simp only [fits] at h; rw [TV.rel, Nat.eq_of_beq_eq_true h]; exact hv
    | any => simp [fits] at h
    | s p => simp [fits] at h
  | vars l =>
    cases a with
    | ptr c => simp [fits] at h
    | any => simp [fits] at h
    | s p =>
      simp only [fits] at h
      rcases hi : img Q l with _ | q
      · rw [hi] at h; simp at h
      rw [hi] at h
      simp only at h
      rw [TV.rel, ← img_sound hq l q hi, ← eq_of_eqS e h]
      exact hv

theorem allFit_sound {α β γ : Type} {f : α → β → Bool} {R : β → γ → Prop} {R' : α → γ → Prop} (hf : ∀ a b c, f a b = true → R b c → R' a c) :
    ∀ (l : List α) (m : List β) (k : List γ), allFit f l m = true → List.Forall₂ R m k → List.Forall₂ R' l k := by
  intro l
  induction l with
  | nil =>
    intro m k h hr
    cases hr with
    | nil => exact .nil
    | cons _ _ => simp [allFit] at h
  | cons a l ih =>
    intro m k h hr
    cases hr with
    | nil => simp [allFit] at h
    | cons h1 h2 =>
      rw [allFit, Bool.and_eq_true] at h
      exact .cons (hf _ _ _ h.1 h1) (ih _ _ h.2 h2)

theorem lay_sound {e' : Nat → W64} {Q : List Sum} (hq : ∀ v p, Q[v]? = some p → e' v = sumV e p) {T : Lay} {S : SS} (h : T.fits Q S = true) {s : St}
    (hs : Rel e S s) : T.At e' s := by
  rw [Lay.fits, Bool.and_eq_true] at h
  have hf : ∀ (l : List TV) (m : List SV) (k : List Val), allFit (AsmBit.fits Q) l m = true → List.Forall₂ (SV.rel e) m k → List.Forall₂ (TV.rel e') l k :=
    allFit_sound (fun _ _ _ h1 h2 => fits_sound hq h1 h2)
  exact ⟨hf _ _ _ h.1 hs.reg, allFit_sound hf _ _ _ h.2 hs.mem⟩

theorem normAll_sound : ∀ (Q : List Ex) (P : List Sum), normAll Q = some P → ∀ (v : Nat) (p : Sum), P[v]? = some p → ∃ x : Ex, Q[v]? = some x ∧ sumV e p = x.den e := by
  intro Q
  induction Q with
  | nil => intro P h v p hp; rw [normAll, Option.some.injEq] at h; rw [← h] at hp; simp at hp
  | cons x Q ih =>
    intro P h v p hp
    rw [normAll] at h
    rcases hx : x.norm with _ | a
    · rw [hx] at h; simp at h
    rcases hq : normAll Q with _ | b
    · rw [hx, hq] at h; simp at h
    rw [hx, hq] at h
    simp only [Option.some.injEq] at h
    subst h
    cases v with
    | zero =>
      simp only [List.getElem?_cons_zero, Option.some.injEq] at hp
      subst hp
      exact ⟨x, rfl, norm_sound e x _ hx⟩
    | succ v => exact ih b hq v p hp

theorem hop_sound {T T' : Lay} {c : List Instr} {Q : List Ex} (h : hop T c T' Q = true) {s : St} (hs : T.At e s) :
    ∃ s', run s c = some s' ∧ ∀ e' : Nat → W64, (∀ (v : Nat) (x : Ex), Q[v]? = some x → e' v = x.den e) → T'.At e' s' := by
  rw [hop, Bool.and_eq_true] at h
  obtain ⟨h1, h2⟩ := h
  rcases hr : srun T.ss c with _ | S
  · rw [hr] at h2; simp at h2
  rcases hq : normAll Q with _ | P
  · rw [hr, hq] at h2; simp at h2
  rw [hr, hq] at h2
  simp only at h2
  obtain ⟨s', h3, h4⟩ := run_sound (at_rel h1 hs) hr
  refine ⟨s', h3, fun e' he => lay_sound (fun v p hp => ?_) h2 h4⟩
  obtain ⟨x, hx, hd⟩ := normAll_sound Q P hq v p hp
  rw [he v x hx, hd]

theorem hopI_sound {T T' : Lay} {c d : List Instr} {r v : Nat} {Q : List Ex} (h : hopI T c r v d T' Q = true) {s : St} (hs : T.At e s)
    {x : Nat} (hx : e v = BitVec.ofNat 64 x) :
    ∃ s', run s (c ++ .mov (.imm x) (.reg r) :: d) = some s' ∧ ∀ e' : Nat → W64, (∀ (v : Nat) (x : Ex), Q[v]? = some x → e' v = x.den e) → T'.At e' s' := by
  rw [hopI, Bool.and_eq_true, Bool.and_eq_true] at h
  obtain ⟨h1, hv, h2⟩ := h
  rcases hr : srun T.ss c with _ | S
  · rw [hr] at h2; simp at h2
  rcases hq : normAll Q with _ | P
  · rw [hr, hq] at h2; simp at h2
  rw [hr, hq] at h2
  simp only at h2
  rcases hw : S.wr (.reg r) (.s (varS v)) with _ | S1
  · rw [hw] at h2; simp at h2
  rw [hw] at h2
  simp only at h2
  rcases hd : srun S1 d with _ | S2
  · rw [hd] at h2; simp at h2
  rw [hd] at h2
  simp only at h2
  obtain ⟨s1, a1, a2⟩ := run_sound (at_rel h1 hs) hr
  obtain ⟨s2, b1, b2⟩ := wr_sound a2 (v := .s (varS v)) (x := .w (BitVec.ofNat 64 x)) (by rw [SV.rel, sumV_var e v (Nat.blt_eq.mp hv), hx]) hw
  obtain ⟨s3, c1, c2⟩ := run_sound b2 hd
  refine ⟨s3, ?_, fun e' he => lay_sound (fun v p hp => ?_) h2 c2⟩
  · have hst : step s1 (.mov (.imm x) (.reg r)) = some s2 := b1
    rw [run_append, a1, Option.bind_some]
    simp only [run, hst, Option.bind_eq_bind, Option.bind_some, c1]
  · obtain ⟨y, hy, hd⟩ := normAll_sound Q P hq v p hp
    rw [he v y hy, hd]

end

end Lemmas.AsmBit
