import Mathlib.Tactic.Ring
import Mathlib.Tactic.Linarith
import Mathlib.Tactic.Positivity
/-
Polynomials with integer coefficients in numbered variables, of degree at most two, as sorted lists of terms.  They are
computed with in the kernel, so everything is plain structural recursion on lists and numbers.

Variable 0 is the constant 1.  The remainder of a variable's number modulo 8 says how large its value may be.
-/
namespace Lemmas.AsmPoly

/-- A term: monomial number and coefficient. -/
abbrev Poly := List (Nat × Int)

/-- A polynomial from a flat list of monomial numbers, signs (1 for minus) and absolute values of coefficients: long lists of
numbers are read much faster than long lists of pairs. -/
def dd : List Nat → Poly
  | k :: s :: c :: l => (k, bif Nat.beq s 0 then Int.ofNat c else Int.neg (Int.ofNat c)) :: dd l
  | _ => []

/-- The largest value of a variable by the remainder of its number modulo 8. -/
def kbnd : Nat → Nat
  | 0 => 0xffffffffffffffff
  | 1 => 1
  | 2 => 0xfffffffffffffffe
  | 3 => 0xffffffffffffff
  | 4 => 0x7fffffffffffffff
  | 5 => 0xff
  | _ => 0

/-- The largest value of variable n. -/
def bnd (n : Nat) : Nat := bif Nat.beq n 0 then 1 else kbnd (n % 8)

/-- Values for the variables, within their bounds. -/
structure Env where
  v : Nat → Int
  one : v 0 = 1
  pos : ∀ n, 0 ≤ v n
  le : ∀ n, v n ≤ bnd n

variable (e : Env)

/-- Monomial k is the product of variables k / 65536 and k % 65536. -/
def Env.mon (k : Nat) : Int := e.v (k / 65536) * e.v (k % 65536)

/-- The value of a polynomial. -/
def Env.eval : Poly → Int
  | [] => 0
  | (k, c) :: p => c * e.mon k + eval p

/-- A term in front, unless its coefficient is 0. -/
def cons (k : Nat) (c : Int) (p : Poly) : Poly :=
  match c with
  | Int.ofNat 0 => p
  | c => (k, c) :: p

/-- Sum of two sorted polynomials.  The first argument bounds the recursion; when it runs out the rest is concatenated. -/
def add' : Nat → Poly → Poly → Poly
  | 0, p, q => p ++ q
  | _ + 1, [], q => q
  | _ + 1, p, [] => p
  | n + 1, (k, a) :: p, (l, b) :: q =>
    bif Nat.blt k l then (k, a) :: add' n p ((l, b) :: q)
    else bif Nat.blt l k then (l, b) :: add' n ((k, a) :: p) q
    else cons k (a + b) (add' n p q)

def add (p q : Poly) : Poly := add' 100000 p q

/-- Multiplication by a number. -/
def scale (c : Int) : Poly → Poly
  | [] => []
  | (k, a) :: p => (k, c * a) :: scale c p

/-- The product of two monomials, if its degree is at most two. -/
def monMul (k l : Nat) : Option Nat :=
  bif Nat.beq k 0 then some l
  else bif Nat.beq l 0 then some k
  else bif Nat.blt k 65536 && Nat.blt l 65536 then some (bif Nat.ble k l then k * 65536 + l else l * 65536 + k)
  else none

/-- The product with one term. -/
def mulTerm (k : Nat) (c : Int) : Poly → Option Poly
  | [] => some []
  | (l, b) :: q =>
    match monMul k l, mulTerm k c q with
    | some m, some r => some (add [(m, c * b)] r)
    | _, _ => none

def mul : Poly → Poly → Option Poly
  | [], _ => some []
  | (k, c) :: p, q =>
    match mulTerm k c q, mul p q with
    | some a, some b => some (add a b)
    | _, _ => none

/-- The largest value of monomial k. -/
def mbnd (k : Nat) : Nat := bnd (k / 65536) * bnd (k % 65536)

def hiT (k : Nat) (c : Int) : Int :=
  bif Nat.beq k 0 then c else match c with
    | Int.ofNat n => Int.ofNat (n * mbnd k)
    | Int.negSucc _ => 0

/-- No value of the polynomial is larger. -/
def hiB : Poly → Int
  | [] => 0
  | (k, c) :: p => hiT k c + hiB p

def loT (k : Nat) (c : Int) : Int :=
  bif Nat.beq k 0 then c else match c with
    | Int.ofNat _ => 0
    | Int.negSucc n => -Int.ofNat ((n + 1) * mbnd k)

/-- No value of the polynomial is smaller. -/
def loB : Poly → Int
  | [] => 0
  | (k, c) :: p => loT k c + loB p

/-- All coefficients are multiples of m. -/
def dvdB (m : Nat) : Poly → Bool
  | [] => true
  | (_, c) :: p => Nat.beq (c.natAbs % m) 0 && dvdB m p

/-- Drop the terms whose coefficient is divisible by m. -/
def modB (m : Nat) : Poly → Poly
  | [] => []
  | (k, c) :: p => bif Nat.beq (c.natAbs % m) 0 then modB m p else (k, c) :: modB m p

/-- Equality of polynomials as lists. -/
def eqB : Poly → Poly → Bool
  | [], [] => true
  | (k, c) :: p, (l, d) :: q => Nat.beq k l && (decide (c = d) && eqB p q)
  | _, _ => false

/-! ### Values -/

theorem eval_nil : e.eval [] = 0 := rfl
theorem eval_cons (k : Nat) (c : Int) (p : Poly) : e.eval ((k, c) :: p) = c * e.mon k + e.eval p := rfl

theorem eval_cons' (k : Nat) (c : Int) (p : Poly) : e.eval (cons k c p) = c * e.mon k + e.eval p := by
  unfold cons
  split
  · simp
  · rfl

theorem eval_append (p q : Poly) : e.eval (p ++ q) = e.eval p + e.eval q := by
  induction p with
  | nil => simp [Env.eval]
  | cons t p ih =>
    obtain ⟨k, c⟩ := t
    rw [List.cons_append, eval_cons, eval_cons, ih]; ring

theorem eval_add' (n : Nat) : ∀ p q, e.eval (add' n p q) = e.eval p + e.eval q := by
  induction n with
  | zero => intro p q; exact eval_append e p q
  | succ n ih =>
    intro p q
    cases p with
    | nil => simp [add', Env.eval]
    | cons t p =>
      obtain ⟨k, a⟩ := t
      cases q with
      | nil => simp [add', Env.eval]
      | cons t q =>
        obtain ⟨l, b⟩ := t
        rw [add']
        rcases h1 : Nat.blt k l with _ | _
        · rcases h2 : Nat.blt l k with _ | _
          · have hkl : k = l := by
              have h1' : ¬ k < l := by
                intro h
                have := Nat.blt_eq.mpr h
                rw [h1] at this; exact absurd this (by decide)
              have h2' : ¬ l < k := by
                intro h
                have := Nat.blt_eq.mpr h
                rw [h2] at this; exact absurd this (by decide)
              omega
            subst hkl
            simp only [cond_false]
            rw [eval_cons', ih, eval_cons, eval_cons]; ring
          · simp only [cond_false, cond_true]
            simp only [eval_cons, ih]; ring
        · simp only [cond_true]
          simp only [eval_cons, ih]; ring

theorem eval_add (p q : Poly) : e.eval (add p q) = e.eval p + e.eval q := eval_add' e _ p q

theorem eval_scale (c : Int) (p : Poly) : e.eval (scale c p) = c * e.eval p := by
  induction p with
  | nil => simp [scale, Env.eval]
  | cons t p ih =>
    obtain ⟨k, a⟩ := t
    rw [scale, eval_cons, eval_cons, ih]; ring

theorem mon_zero : e.mon 0 = 1 := by simp [Env.mon, e.one]

theorem mon_var (n : Nat) (h : n < 65536) : e.mon n = e.v n := by
  rw [Env.mon, Nat.div_eq_of_lt h, Nat.mod_eq_of_lt h, e.one, one_mul]

theorem mon_mul (k l m : Nat) (h : monMul k l = some m) : e.mon m = e.mon k * e.mon l := by
  rw [monMul] at h
  rcases h1 : Nat.beq k 0 with _ | _
  · rcases h2 : Nat.beq l 0 with _ | _
    · rw [h1, h2] at h
      simp only [cond_false] at h
      rcases h3 : (Nat.blt k 65536 && Nat.blt l 65536) with _ | _
      · rw [h3] at h; simp at h
      · rw [h3] at h
        simp only [cond_true, Option.some.injEq] at h
        rw [Bool.and_eq_true, Nat.blt_eq, Nat.blt_eq] at h3
        rcases h4 : Nat.ble k l with _ | _
        · rw [h4, cond_false] at h
          rw [← h, mon_var e k h3.1, mon_var e l h3.2, Env.mon, show (l * 65536 + k) / 65536 = l by omega, show (l * 65536 + k) % 65536 = k by omega]
          ring
        · rw [h4, cond_true] at h
          rw [← h, mon_var e k h3.1, mon_var e l h3.2, Env.mon, show (k * 65536 + l) / 65536 = k by omega, show (k * 65536 + l) % 65536 = l by omega]
    · rw [h1, h2] at h
      simp only [cond_false, cond_true, Option.some.injEq] at h
      have := Nat.eq_of_beq_eq_true h2
      rw [← h, this, mon_zero, mul_one]
  · rw [h1] at h
    simp only [cond_true, Option.some.injEq] at h
    have := Nat.eq_of_beq_eq_true h1
    rw [← h, this, mon_zero, one_mul]

theorem eval_mulTerm (k : Nat) (c : Int) : ∀ q r, mulTerm k c q = some r → e.eval r = c * e.mon k * e.eval q := by
  intro q
  induction q with
  | nil => intro r h; simp only [mulTerm, Option.some.injEq] at h; rw [← h]; simp [Env.eval]
  | cons t q ih =>
    intro r h
    obtain ⟨l, b⟩ := t
    rw [mulTerm] at h
    rcases h1 : monMul k l with _ | m
    · rw [h1] at h; simp at h
    · rcases h2 : mulTerm k c q with _ | r'
      · rw [h1, h2] at h; simp at h
      · rw [h1, h2] at h
        simp only [Option.some.injEq] at h
        rw [← h, eval_add, ih r' h2, eval_cons, eval_cons, mon_mul e k l m h1, eval_nil]; ring

theorem eval_mul : ∀ p q r, mul p q = some r → e.eval r = e.eval p * e.eval q := by
  intro p
  induction p with
  | nil => intro q r h; simp only [mul, Option.some.injEq] at h; rw [← h]; simp [Env.eval]
  | cons t p ih =>
    intro q r h
    obtain ⟨k, c⟩ := t
    rw [mul] at h
    rcases h1 : mulTerm k c q with _ | a
    · rw [h1] at h; simp at h
    · rcases h2 : mul p q with _ | b
      · rw [h1, h2] at h; simp at h
      · rw [h1, h2] at h
        simp only [Option.some.injEq] at h
        rw [← h, eval_add, ih q b h2, eval_mulTerm e k c q a h1, eval_cons]; ring

theorem mon_nonneg (k : Nat) : 0 ≤ e.mon k := mul_nonneg (e.pos _) (e.pos _)

theorem mon_le (k : Nat) : e.mon k ≤ mbnd k := by
  rw [Env.mon, mbnd, Nat.cast_mul]
  exact mul_le_mul (e.le _) (e.le _) (e.pos _) (Int.natCast_nonneg _)

theorem eval_le (p : Poly) : e.eval p ≤ hiB p := by
  induction p with
  | nil => exact le_refl _
  | cons t p ih =>
    obtain ⟨k, c⟩ := t
    rw [eval_cons, hiB]
    refine add_le_add ?_ ih
    unfold hiT
    rcases h1 : Nat.beq k 0 with _ | _
    · rw [cond_false]
      cases c with
      | ofNat n =>
        simp only [Int.ofNat_eq_natCast, Nat.cast_mul]
        exact mul_le_mul_of_nonneg_left (mon_le e k) (Int.natCast_nonneg _)
      | negSucc n => exact mul_nonpos_of_nonpos_of_nonneg (le_of_lt (Int.negSucc_lt_zero n)) (mon_nonneg e k)
    · rw [cond_true, Nat.eq_of_beq_eq_true h1, mon_zero, mul_one]

theorem le_eval (p : Poly) : loB p ≤ e.eval p := by
  induction p with
  | nil => exact le_refl _
  | cons t p ih =>
    obtain ⟨k, c⟩ := t
    rw [eval_cons, loB]
    refine add_le_add ?_ ih
    unfold loT
    rcases h1 : Nat.beq k 0 with _ | _
    · rw [cond_false]
      cases c with
      | ofNat n =>
        simp only [Int.ofNat_eq_natCast]
        exact mul_nonneg (Int.natCast_nonneg _) (mon_nonneg e k)
      | negSucc n =>
        simp only [Int.ofNat_eq_natCast, Nat.cast_mul, Int.negSucc_eq]
        rw [neg_mul]
        refine neg_le_neg ?_
        exact mul_le_mul_of_nonneg_left (mon_le e k) (by positivity)
    · rw [cond_true, Nat.eq_of_beq_eq_true h1, mon_zero, mul_one]

theorem dvd_eval (m : Nat) (p : Poly) (h : dvdB m p = true) : (m : Int) ∣ e.eval p := by
  induction p with
  | nil => exact dvd_zero _
  | cons t p ih =>
    obtain ⟨k, c⟩ := t
    rw [dvdB, Bool.and_eq_true] at h
    rw [eval_cons]
    refine dvd_add (Dvd.dvd.mul_right ?_ _) (ih h.2)
    exact Int.natCast_dvd.mpr (Nat.dvd_of_mod_eq_zero (Nat.eq_of_beq_eq_true h.1))

theorem modB_eval (m : Nat) (p : Poly) : (m : Int) ∣ e.eval p - e.eval (modB m p) := by
  induction p with
  | nil => exact dvd_zero _
  | cons t p ih =>
    obtain ⟨k, c⟩ := t
    rw [modB]
    rcases h : Nat.beq (c.natAbs % m) 0 with _ | _
    · rw [cond_false, eval_cons, eval_cons, add_sub_add_left_eq_sub]; exact ih
    · rw [cond_true, eval_cons, add_sub_assoc]
      exact dvd_add (Dvd.dvd.mul_right (Int.natCast_dvd.mpr (Nat.dvd_of_mod_eq_zero (Nat.eq_of_beq_eq_true h))) _) ih

theorem eqB_eq : ∀ p q : Poly, eqB p q = true → p = q
  | [], [], _ => rfl
  | [], _ :: _, h => by simp [eqB] at h
  | _ :: _, [], h => by simp [eqB] at h
  | (k, c) :: p, (l, d) :: q, h => by
    rw [eqB, Bool.and_eq_true, Bool.and_eq_true] at h
    obtain ⟨h1, h2, h3⟩ := h
    rw [Nat.eq_of_beq_eq_true h1, of_decide_eq_true h2, eqB_eq p q h3]

end Lemmas.AsmPoly
