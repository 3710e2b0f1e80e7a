import Verif.Model.Asm
import Verif.Lemmas.AsmPoly
/-
Symbolic execution of the machine of `Model.Asm`.  Every word is a polynomial in the words of the input, the carries and
borrows of the additions and subtractions, and the high words of the products.  `sound` says that the machine does what
the symbolic run says, for every input.
-/
namespace Lemmas.AsmSym
open Model Model.Asm Lemmas.AsmPoly

/-- A value: unknown, a pointer, or a number given by a polynomial. -/
inductive AVal where
  | any
  | ptr (b : Nat)
  | p (q : Poly)

/-- The symbolic state.  `hist` collects polynomials whose values are words, `defs` polynomials whose value is 0. -/
structure SSt where
  reg : List AVal
  cf : Option Poly
  of : Option Poly
  mem : List (List AVal)
  hist : List Poly
  defs : List Poly

/-- The variable number `slot` of instruction `pc`, of size `kind`. -/
def idx (pc slot kind : Nat) : Nat := 8 * (128 + 2 * pc + slot) + kind

def var (n : Nat) : Poly := [(n, 1)]

def SSt.rd (s : SSt) : Opd → Option AVal
  | .reg r => s.reg[r]?
  | .imm 0 => some (.p [])
  | .imm x => bif Nat.blt x 18446744073709551616 then some (.p [(0, Int.ofNat x)]) else none
  | .mem r k =>
    match s.reg[r]? with
    | some (.ptr b) => match s.mem[b]? with
      | some m => m[k]?
      | none => none
    | _ => none
  | .glob b k =>
    match s.mem[b]? with
    | some m => m[k]?
    | none => none

def SSt.rdp (s : SSt) (o : Opd) : Option Poly :=
  match s.rd o with
  | some (.p q) => some q
  | _ => none

def SSt.wrMem (s : SSt) (b k : Nat) (v : AVal) : Option SSt :=
  match s.mem[b]? with
  | some m => bif Nat.blt k m.length then some { s with mem := s.mem.set b (m.set k v) } else none
  | none => none

def SSt.wr (s : SSt) (o : Opd) (v : AVal) : Option SSt :=
  match o with
  | .reg r => bif Nat.blt r s.reg.length then some { s with reg := s.reg.set r v } else none
  | .mem r k =>
    match s.reg[r]? with
    | some (.ptr b) => s.wrMem b k v
    | _ => none
  | _ => none

def SSt.cin (s : SSt) : Cin → Option Poly
  | .no => some []
  | .cf => s.cf
  | .of => s.of

def SSt.cout (s : SSt) (co : Cout) (c : Poly) : SSt :=
  match co with
  | .no => s
  | .both => { s with cf := some c, of := none }
  | .cf => { s with cf := some c }
  | .of => { s with of := some c }

/-- 1 - q -/
def compl (q : Poly) : Poly := add [(0, 1)] (scale (-1) q)

/-- Write a result; with `rn` give it a variable of its own. -/
def SSt.res (s : SSt) (pc : Nat) (rn : Bool) (d : Opd) (r : Poly) : Option SSt :=
  bif rn then
    match s.wr d (.p (var (idx pc 1 0))) with
    | some s => some { s with defs := add (var (idx pc 1 0)) (scale (-1) r) :: s.defs, hist := var (idx pc 1 0) :: s.hist }
    | none => none
  else
    match s.wr d (.p r) with
    | some s => some { s with hist := r :: s.hist }
    | none => none

/-- a ≤ b -/
def ile (a b : Int) : Bool := match b - a with | Int.ofNat _ => true | Int.negSucc _ => false

/-- Is the value 0 or 1 by its bounds alone? -/
def isBit (q : Poly) : Bool := ile 0 (loB q) && ile (hiB q) 1

/-- The monomial m if the polynomial is (2^64 - 1)·m. -/
def maskOf : Poly → Option Nat
  | [(k, c)] => bif decide (c = 0xffffffffffffffff) then some k else none
  | _ => none

/-- The and of a mask and a word, or of two bits. -/
def andP (x y : Poly) : Option Poly :=
  bif List.isEmpty x then some [] else
  bif List.isEmpty y then some [] else
  match maskOf x with
  | some k => bif isBit [(k, 1)] then mul [(k, 1)] y else none
  | none => bif isBit x && isBit y then mul x y else none

def fin (co : Cout) (c : Poly) : Option SSt → Option SSt
  | some s => some (s.cout co c)
  | none => none

/-- The borrow a subtraction takes in. -/
def borrowP (inv : Bool) (ci : Cin) (c : Poly) : Poly :=
  match ci with
  | .no => []
  | _ => bif inv then compl c else c

/-- The flag for a borrow. -/
def outP (inv : Bool) (q : Poly) : Poly := bif inv then compl q else q

/-- One instruction.  `nc` says that the addition or subtraction has no carry by the bounds of its operands. -/
def sstep (pc : Nat) (nc rn : Bool) (s : SSt) : Instr → Option SSt
  | .mov a d => do s.wr d (← s.rd a)
  | .addc ci co a b d => do
    let x ← s.rdp a
    let y ← s.rdp b
    let c ← s.cin ci
    let t := add (add x y) c
    bif nc then
      bif ile (hiB t) 0xffffffffffffffff then
        fin co [] (s.res pc rn d t)
      else none
    else
      fin co (var (idx pc 0 1)) (s.res pc rn d (add t [(idx pc 0 1, -18446744073709551616)]))
  | .subc inv ci co a b d => do
    let x ← s.rdp a
    let y ← s.rdp b
    let c ← s.cin ci
    let t := add y (borrowP inv ci c)
    bif nc then
      bif List.isEmpty x && isBit t then
        fin co (outP inv t) (s.res pc rn d (scale 0xffffffffffffffff t))
      else none
    else
      fin co (outP inv (var (idx pc 0 1))) (s.res pc rn d (add (add x (scale (-1) t)) [(idx pc 0 1, 18446744073709551616)]))
  | .mulw fl a b lo hi => do
    let x ← s.rdp a
    let y ← s.rdp b
    let t ← mul x y
    let s ← s.res pc rn lo (add t [(idx pc 0 2, -18446744073709551616)])
    let s ← s.wr hi (.p (var (idx pc 0 2)))
    some (bif fl then { s with cf := none, of := none } else s)
  | .mullo a b d => do
    let x ← s.rdp a
    let y ← s.rdp b
    let t ← mul x y
    s.res pc rn d (add t [(idx pc 0 2, -18446744073709551616)])
  | .mulhi a b d => do
    let x ← s.rdp a
    let y ← s.rdp b
    let t ← mul x y
    let s ← s.wr d (.p (var (idx pc 0 2)))
    some { s with hist := add t [(idx pc 0 2, -18446744073709551616)] :: s.hist }
  | .xor fl a b d =>
    bif fl && decide (a = b) then do
      let s ← s.wr d (.p [])
      some { s with cf := some [], of := some [] }
    else none
  | .and fl a b d => do
    let x ← s.rdp a
    let y ← s.rdp b
    let t ← andP x y
    let s ← s.wr d (.p t)
    some (bif fl then { s with cf := some [], of := some [] } else s)
  | .bt0 a => do
    let x ← s.rdp a
    bif isBit x then some { s with cf := some x, of := none } else none
  | .orshr n b a d => do
    -- the upper 56 bits and the lower byte of b become variables
    let y ← s.rdp b
    let x ← s.rdp a
    bif Nat.beq n 8 && dvdB 72057594037927936 x then do
      let q := [(idx pc 0 3, 256), (idx pc 1 5, 1)]
      let r := add x (var (idx pc 0 3))
      let s ← s.wr b (.p q)
      let s ← s.wr d (.p r)
      some { s with defs := add y (scale (-1) q) :: s.defs, hist := r :: s.hist }
    else none
  | .shl n a d => do
    let x ← s.rdp a
    let t := modB 18446744073709551616 (scale (Int.ofNat (2 ^ n)) x)
    bif ile 0 (loB t) && ile (hiB t) 0xffffffffffffffff then s.wr d (.p t) else none
  | _ => none

/-- One word of a product of which an earlier instruction computed a word: v is the variable of the high word, and position j
of `hist` is the low word. -/
def sreuse (s : SSt) (j v : Nat) : Instr → Option SSt
  | .mullo a b d => do
    let x ← s.rdp a
    let y ← s.rdp b
    let t ← mul x y
    let r := add t [(v, -18446744073709551616)]
    let q ← s.hist[j]?
    bif eqB q r then
      match s.wr d (.p r) with
      | some s => some { s with hist := r :: s.hist }
      | none => none
    else none
  | .mulhi a b d => do
    let x ← s.rdp a
    let y ← s.rdp b
    let t ← mul x y
    let q ← s.hist[j]?
    bif eqB q (add t [(v, -18446744073709551616)]) && Nat.blt v 65536 then s.wr d (.p (var v)) else none
  | _ => none

/-- A combination of polynomials: positions in the list and multipliers. -/
def comb (F : List Poly) : List (Nat × Poly) → Option Poly
  | [] => some []
  | (j, q) :: l =>
    match F[j]?, comb F l with
    | some d, some r => match mul q d with
      | some t => some (add t r)
      | none => none
    | _, _ => none

/-- The destination of an instruction. -/
def dst : Instr → Opd
  | .mov _ d => d
  | .addc _ _ _ _ d => d
  | .subc _ _ _ _ _ d => d
  | .mulw _ _ _ d _ => d
  | .mullo _ _ d => d
  | .mulhi _ _ d => d
  | .xor _ _ _ d => d
  | .and _ _ _ d => d
  | .or _ _ d => d
  | .not _ d => d
  | .rol _ _ d => d
  | .dup32 _ d => d
  | .orshr _ _ _ d => d
  | .shl _ _ d => d
  | .neg _ d => d
  | .bt0 d => d
  | .byte _ d => d
  | .setByte _ d => d
  | .cmpz d => d
  | .csel _ _ d => d

/-- Replace a word by 0 when it is a multiple of 2^64, and remember that its polynomial has the value 0. -/
def szero (s : SSt) (d : Opd) (lam : List (Nat × Poly)) : Option SSt :=
  match s.rdp d, comb s.defs lam with
  | some r, some t =>
    bif dvdB 18446744073709551616 (add r t) then
      match s.wr d (.p []) with
      | some s => some { s with defs := r :: s.defs }
      | none => none
    else none
  | _, _ => none

/-- What to do at each instruction: use `nc`; use `rn`; use `szero` afterwards; use `sreuse`. -/
structure Ann where
  nc : Bool := false
  rn : Bool := false
  z : Option (List (Nat × Poly)) := none
  u : Option (Nat × Nat) := none

def a0 : Ann := {}
def a1 : Ann := { nc := true }
def a2 : Ann := { rn := true }
def a3 : Ann := { nc := true, rn := true }
def au (j v : Nat) : Ann := { u := some (j, v) }

def sstepA (pc : Nat) (a : Ann) (s : SSt) (i : Instr) : Option SSt :=
  match a.u with
  | none => sstep pc a.nc a.rn s i
  | some (j, v) => sreuse s j v i

def after (i : Instr) : Option (List (Nat × Poly)) → SSt → Option SSt
  | none, s => some s
  | some lam, s => szero s (dst i) lam

/-- A program with its annotations. -/
def srun (pc : Nat) (s : SSt) : List Instr → List Ann → Option SSt
  | [], _ => some s
  | _ :: _, [] => none
  | i :: is, a :: as =>
    match sstepA pc a s i with
    | some s => match after i a.z s with
      | some s => srun (pc + 1) s is as
      | none => none
    | none => none

end Lemmas.AsmSym
