import Verif.Model.Bytes
/-
A small machine on which the assembly files of /repo run: the integer instructions of amd64 and arm64 they use, over
64-bit words, as the Intel and Arm manuals describe them and in the operand order of Go's assembler (sources first,
destination last).

Simplifications.
* Memory is a list of blocks of 64-bit words.  A pointer is the number of a block, so pointers into different blocks never
  overlap, and a block can only be reached through a pointer to it.  Two arguments that alias are pointers to the same
  block.  Every access in the files is to an aligned word at a constant offset; an access outside the block has no result.
* A register or a word of memory holds a number or a pointer.  Arithmetic on a pointer has no result.
* A flag an instruction leaves undefined, or whose value the files never use, becomes `none`; reading it has no result.
  (ADDQ, ADCQ, SUBQ and SBBQ set OF to the signed overflow; no file reads that.)
* `run` returns `none` when an instruction has no result.  So a theorem that a routine returns some state also says that
  it never reads or writes outside the blocks it was given.
-/
namespace Model.Asm
open Model

/-- What a register or a memory word holds. -/
inductive Val where
  | w (x : W64)
  | ptr (b : Nat)
deriving DecidableEq

/-- Operands: a register, an immediate, the word at a word offset from a pointer register, or a word of a global. -/
inductive Opd where
  | reg (r : Nat)
  | imm (x : Nat)
  | mem (r off : Nat)
  | glob (b off : Nat)
deriving DecidableEq

/-- Where an addition or subtraction takes its carry from. -/
inductive Cin where
  | no | cf | of

/-- What it does to the flags: nothing; set CF and leave OF unspecified; set only CF; set only OF. -/
inductive Cout where
  | no | both | cf | of

/-- The instructions, as three-address operations. -/
inductive Instr where
  | mov (s d : Opd)
  /-- d := a + b + carry -/
  | addc (ci : Cin) (co : Cout) (a b d : Opd)
  /-- d := a - b - borrow; with `inv` the flag is the negated borrow, as on arm64 -/
  | subc (inv : Bool) (ci : Cin) (co : Cout) (a b d : Opd)
  /-- hi:lo := a * b; with `fl` the flags become unspecified -/
  | mulw (fl : Bool) (a b lo hi : Opd)
  /-- d := low word of a * b -/
  | mullo (a b d : Opd)
  /-- d := high word of a * b -/
  | mulhi (a b d : Opd)
  /-- d := a xor b; with `fl` CF and OF are cleared -/
  | xor (fl : Bool) (a b d : Opd)
  /-- d := a and b; with `fl` CF and OF are cleared -/
  | and (fl : Bool) (a b d : Opd)
  /-- d := a or b, CF and OF are cleared -/
  | or (a b d : Opd)
  /-- d := the complement of a -/
  | not (a d : Opd)
  /-- d := a rotated left by n, flags unspecified -/
  | rol (n : Nat) (a d : Opd)
  /-- d := the low half of a in both halves -/
  | dup32 (a d : Opd)
  /-- d := a or (b shifted right by n) -/
  | orshr (n : Nat) (b a d : Opd)
  /-- d := a shifted left by n -/
  | shl (n : Nat) (a d : Opd)
  /-- d := -a, flags unspecified -/
  | neg (a d : Opd)
  /-- CF := bit 0 of a -/
  | bt0 (a : Opd)
  /-- d := the low byte of a -/
  | byte (a d : Opd)
  /-- the low byte of d := the low byte of a.  (Of a register that held a pointer the other bytes are taken as zero; in every
  use the next instruction discards them.) -/
  | setByte (a d : Opd)
  /-- CF := (a = 0); used for the comparison with zero before arm64 conditional selects -/
  | cmpz (a : Opd)
  /-- d := if CF then a else b -/
  | csel (a b d : Opd)

/-! ### amd64 instructions, operands in the order of Go's assembler -/

abbrev AX : Nat := 0
abbrev CX : Nat := 1
abbrev DX : Nat := 2
abbrev BX : Nat := 3
abbrev SP : Nat := 4
abbrev BP : Nat := 5
abbrev SI : Nat := 6
abbrev DI : Nat := 7
abbrev R8 : Nat := 8
abbrev R9 : Nat := 9
abbrev R10 : Nat := 10
abbrev R11 : Nat := 11
abbrev R12 : Nat := 12
abbrev R13 : Nat := 13
abbrev R14 : Nat := 14
abbrev R15 : Nat := 15
/-- Go's pseudo-register for the arguments -/
abbrev FP : Nat := 16
/-- The low and high words of the 128-bit register Xi.  A 128-bit instruction is written as one instruction for each word. -/
abbrev XL (i : Nat) : Nat := 17 + 2 * i
abbrev XH (i : Nat) : Nat := 18 + 2 * i

abbrev MOVQ (s d : Opd) : Instr := .mov s d
abbrev ADDQ (s d : Opd) : Instr := .addc .no .both s d d
abbrev ADCQ (s d : Opd) : Instr := .addc .cf .both s d d
abbrev ADCXQ (s d : Opd) : Instr := .addc .cf .cf s d d
abbrev ADOXQ (s d : Opd) : Instr := .addc .of .of s d d
abbrev SUBQ (s d : Opd) : Instr := .subc false .no .both d s d
abbrev SBBQ (s d : Opd) : Instr := .subc false .cf .both d s d
abbrev MULQ (s : Opd) : Instr := .mulw true (.reg AX) s (.reg AX) (.reg DX)
abbrev MULXQ (s lo hi : Opd) : Instr := .mulw false (.reg DX) s lo hi
abbrev XORQ (s d : Opd) : Instr := .xor true s d d
abbrev ANDQ (s d : Opd) : Instr := .and true s d d
abbrev ORQ (s d : Opd) : Instr := .or s d d
abbrev NOTQ (d : Opd) : Instr := .not d d
abbrev ROLQ (n : Nat) (d : Opd) : Instr := .rol n d d
abbrev NEGQ (d : Opd) : Instr := .neg d d
/-- MOVB to a register: the other bytes of the register stay -/
abbrev MOVB (s d : Opd) : Instr := .setByte s d
abbrev MOVBLZX (s d : Opd) : Instr := .byte s d
/-- One word of PXOR and PAND. -/
abbrev PXORw (s d : Opd) : Instr := .xor false s d d
abbrev PANDw (s d : Opd) : Instr := .and false s d d
/-- BTQ $0, d -/
abbrev BTQ0 (d : Opd) : Instr := .bt0 d

/-- Registers, flags and memory. -/
structure St where
  reg : List Val
  cf : Option Bool
  of : Option Bool
  mem : List (List Val)

/-- Read an operand. -/
def St.rd (s : St) : Opd → Option Val
  | .reg r => s.reg[r]?
  | .imm x => some (.w (BitVec.ofNat 64 x))
  | .mem r k =>
    match s.reg[r]? with
    | some (.ptr b) => match s.mem[b]? with
      | some m => m[k]?
      | none => none
    | _ => none
  | .glob b k =>
    match s.mem[b]? with
    | some m => m[k]?
    | none => none

/-- Read an operand that must be a number. -/
def St.rdw (s : St) (o : Opd) : Option W64 :=
  match s.rd o with
  | some (.w x) => some x
  | _ => none

/-- Write word k of block b. -/
def St.wrMem (s : St) (b k : Nat) (v : Val) : Option St :=
  match s.mem[b]? with
  | some m => if k < m.length then some { s with mem := s.mem.set b (m.set k v) } else none
  | none => none

/-- Write an operand.  Immediates and globals are not written. -/
def St.wr (s : St) (o : Opd) (v : Val) : Option St :=
  match o with
  | .reg r => if r < s.reg.length then some { s with reg := s.reg.set r v } else none
  | .mem r k =>
    match s.reg[r]? with
    | some (.ptr b) => s.wrMem b k v
    | _ => none
  | _ => none

/-- The carry an instruction takes in. -/
def St.cin (s : St) : Cin → Option Bool
  | .no => some false
  | .cf => s.cf
  | .of => s.of

/-- The flags after an instruction whose carry out is c. -/
def St.cout (s : St) (co : Cout) (c : Bool) : St :=
  match co with
  | .no => s
  | .both => { s with cf := some c, of := none }
  | .cf => { s with cf := some c }
  | .of => { s with of := some c }

/-- x + y + c and the carry out -/
def addW (x y : W64) (c : Bool) : W64 × Bool :=
  (x + y + (if c then 1 else 0), decide (2 ^ 64 ≤ x.toNat + y.toNat + c.toNat))

/-- x - y - b and the borrow out -/
def subW (x y : W64) (b : Bool) : W64 × Bool :=
  (x - y - (if b then 1 else 0), decide (x.toNat < y.toNat + b.toNat))

/-- the high word of x * y -/
def mulHi (x y : W64) : W64 := BitVec.ofNat 64 (x.toNat * y.toNat / 2 ^ 64)

/-- The borrow a subtraction takes in. -/
def borrow (inv : Bool) (ci : Cin) (c : Bool) : Bool :=
  match ci with
  | .no => false
  | _ => c != inv

/-- One instruction. -/
def step (s : St) : Instr → Option St
  | .mov a d => do s.wr d (← s.rd a)
  | .addc ci co a b d => do
    let x ← s.rdw a
    let y ← s.rdw b
    let c ← s.cin ci
    let s ← s.wr d (.w (addW x y c).1)
    some (s.cout co (addW x y c).2)
  | .subc inv ci co a b d => do
    let x ← s.rdw a
    let y ← s.rdw b
    let c ← s.cin ci
    let s ← s.wr d (.w (subW x y (borrow inv ci c)).1)
    some (s.cout co ((subW x y (borrow inv ci c)).2 != inv))
  | .mulw fl a b lo hi => do
    let x ← s.rdw a
    let y ← s.rdw b
    let s ← s.wr lo (.w (x * y))
    let s ← s.wr hi (.w (mulHi x y))
    some (if fl then { s with cf := none, of := none } else s)
  | .mullo a b d => do
    let x ← s.rdw a
    let y ← s.rdw b
    s.wr d (.w (x * y))
  | .mulhi a b d => do
    let x ← s.rdw a
    let y ← s.rdw b
    s.wr d (.w (mulHi x y))
  | .xor fl a b d => do
    let v ← if fl && a == b then some 0 else do
      let x ← s.rdw a
      let y ← s.rdw b
      some (x ^^^ y)
    let s ← s.wr d (.w v)
    some (if fl then { s with cf := some false, of := some false } else s)
  | .and fl a b d => do
    let x ← s.rdw a
    let y ← s.rdw b
    let s ← s.wr d (.w (x &&& y))
    some (if fl then { s with cf := some false, of := some false } else s)
  | .or a b d => do
    let x ← s.rdw a
    let y ← s.rdw b
    let s ← s.wr d (.w (x ||| y))
    some { s with cf := some false, of := some false }
  | .not a d => do
    let x ← s.rdw a
    s.wr d (.w (~~~x))
  | .rol n a d => do
    let x ← s.rdw a
    let s ← s.wr d (.w (x.rotateLeft n))
    some { s with cf := none, of := none }
  | .dup32 a d => do
    let x ← s.rdw a
    s.wr d (.w ((x &&& 0xffffffff) ||| (x <<< 32)))
  | .orshr n b a d => do
    let x ← s.rdw a
    let y ← s.rdw b
    s.wr d (.w (x ||| (y >>> n)))
  | .shl n a d => do
    let x ← s.rdw a
    s.wr d (.w (x <<< n))
  | .neg a d => do
    let x ← s.rdw a
    let s ← s.wr d (.w (0 - x))
    some { s with cf := none, of := none }
  | .bt0 a => do
    let x ← s.rdw a
    some { s with cf := some (x.getLsbD 0), of := none }
  | .byte a d => do
    let x ← s.rdw a
    s.wr d (.w (x &&& 0xff))
  | .setByte a d => do
    let x ← s.rdw a
    match ← s.rd d with
    | .w y => s.wr d (.w ((y &&& ~~~0xff) ||| (x &&& 0xff)))
    | .ptr _ => s.wr d (.w (x &&& 0xff))
  | .cmpz a => do
    let x ← s.rdw a
    some { s with cf := some (decide (x = 0)), of := none }
  | .csel a b d => do
    let c ← s.cf
    let v ← s.rd (if c then a else b)
    s.wr d v

/-- A straight-line program. -/
def run (s : St) : List Instr → Option St
  | [] => some s
  | i :: is => do run (← step s i) is

/-! ### Calls

Go's calling convention for assembly functions (go.dev/doc/asm): the arguments are on the stack and FP points to them, SP
points to the frame of `$framesize` bytes, the other registers hold anything.  BP belongs to the caller.  When the frame is
not empty the assembler inserts instructions that save BP in the word above the frame, point BP there, and load it from
there before RET (cmd/internal/obj/x86/obj6.go); when the frame is empty BP is untouched.
-/

/-- What the amd64 routines distinguish at run time: neither BMI2 nor ADX, only BMI2 (`HasBMI2`), or both
(`HasADXandBMI2`); params.go, e.g. p751/params.go:15-20; p434 has only the second flag. -/
inductive Cpu where
  | base | bmi2 | adx
deriving DecidableEq

/-- A routine: its code for one kind of CPU, its frame in words, and the global arrays it reads. -/
structure Routine where
  code : List Instr
  frame : Nat
  glob : List (List W64)

/-- An argument: a pointer to one of the caller's arrays, or a number. -/
inductive Arg where
  | arr (b : Nat)
  | num (x : W64)

/-- Block numbers: 0 the arguments, 1 the frame, then the globals, then the caller's arrays. -/
def Arg.val (base : Nat) : Arg → Val
  | .arr b => .ptr (base + b)
  | .num x => .w x

/-- The state at the first instruction.  `junk` is what the other registers hold, `fr` what the frame holds, `bp` the caller's
BP and `fp` the address of the word above the frame. -/
def Routine.start (R : Routine) (junk : Nat → Val) (fr : List Val) (bp fp : W64) (data : List (List W64)) (args : List Arg) : St where
  reg := [junk 0, junk 1, junk 2, junk 3, .ptr 1, .w (if R.frame = 0 then bp else fp), junk 6, junk 7, junk 8, junk 9, junk 10,
    junk 11, junk 12, junk 13, junk 14, junk 15, .ptr 0] ++ (List.range 32).map fun i => junk (17 + i)
  cf := none
  of := none
  mem := args.map (Arg.val (2 + R.glob.length)) :: (if R.frame = 0 then [] else fr ++ [.w bp]) :: (R.glob.map (·.map .w) ++ data.map (·.map .w))

/-- BP after RET. -/
def Routine.bpAfter (R : Routine) (s : St) : Option Val :=
  if R.frame = 0 then s.reg[BP]? else
    match s.mem[1]? with
    | some m => m[R.frame]?
    | none => none

/-- What the caller sees: its arrays and BP. -/
def Routine.call (R : Routine) (junk : Nat → Val) (fr : List Val) (bp fp : W64) (data : List (List W64)) (args : List Arg) :
    Option (List (List Val) × Option Val) :=
  match run (R.start junk fr bp fp data args) R.code with
  | some s => some (s.mem.drop (2 + R.glob.length), R.bpAfter s)
  | none => none

end Model.Asm
