import Verif.Model.Asm
/-
Which words of memory the machine of Model/Asm.lean reads and writes, in which order.  The programs have no branches on data: the
jumps in the files of /repo are on the CPU flags only and are resolved when the code for one kind of CPU is chosen, so the sequence of
instructions is the list itself and the addresses are all there is to see.
-/
namespace Model.Asm
open Model

/-- An access: the number of the block, the word in it, and whether it is written. -/
structure Acc where
  blk : Nat
  off : Nat
  write : Bool
deriving DecidableEq

/-- The access that evaluating an operand makes. -/
def St.acc (s : St) (write : Bool) : Opd → List Acc
  | .mem r k =>
    match s.reg[r]? with
    | some (.ptr b) => [⟨b, k, write⟩]
    | _ => []
  | .glob b k => [⟨b, k, write⟩]
  | _ => []

/-- The operands an instruction reads, and those it writes. -/
def Instr.opds : Instr → List Opd × List Opd
  | .mov a d | .not a d | .rol _ a d | .dup32 a d | .shl _ a d | .neg a d | .byte a d => ([a], [d])
  | .addc _ _ a b d | .subc _ _ _ a b d | .mullo a b d | .mulhi a b d | .xor _ a b d | .and _ a b d | .or a b d | .orshr _ b a d => ([a, b], [d])
  | .mulw _ a b lo hi => ([a, b], [lo, hi])
  | .bt0 a | .cmpz a => ([a], [])
  | .setByte a d => ([a, d], [d])
  | .csel a b d => ([a, b], [d])

/-- The accesses of an instruction.  A conditional select reads only the operand it selects. -/
def St.accs (s : St) : Instr → List Acc
  | .csel a b d => s.acc false (if s.cf = some true then a else b) ++ s.acc true d
  | i => i.opds.1.flatMap (s.acc false) ++ i.opds.2.flatMap (s.acc true)

/-- The accesses of a program, up to the first instruction that has no result. -/
def trace (s : St) : List Instr → List Acc
  | [] => []
  | i :: is => s.accs i ++ match step s i with
    | some s => trace s is
    | none => []

/-- The accesses of a call. -/
def Routine.trace (R : Routine) (junk : Nat → Val) (fr : List Val) (bp fp : W64) (data : List (List W64)) (args : List Arg) : List Acc :=
  Asm.trace (R.start junk fr bp fp data args) R.code

end Model.Asm
