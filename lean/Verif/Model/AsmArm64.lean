import Verif.Model.Asm
/-
The arm64 instructions of dh/sidh/internal/p503/arith_arm64.s and p751/arith_arm64.s as instructions of Model/Asm.lean, operands in
the order of Go's assembler: in `SUBS a, b, d` d becomes b - a.

Register Ri is register 17 + i of the machine, except R29, the frame pointer, which is its register BP: on arm64 the caller's frame
pointer is in R29, and a function with an empty frame (all of these) neither saves nor restores it.  Go's pseudo-register FP is register
FP, and ZR is the immediate 0.  The two-word loads and stores LDP and STP are written as two MOVDs.  The flag C of arm64 is CF: after a
subtraction it is the negated borrow.
-/
namespace Model.Asm

abbrev A (i : Nat) : Nat := 17 + i
abbrev A29 : Nat := BP

abbrev MOVD (s d : Opd) : Instr := .mov s d
abbrev ADDS (a b d : Opd) : Instr := .addc .no .both a b d
abbrev ADCS (a b d : Opd) : Instr := .addc .cf .both a b d
abbrev ADC (a b d : Opd) : Instr := .addc .cf .no a b d
abbrev SUBS (a b d : Opd) : Instr := .subc true .no .both b a d
abbrev SBCS (a b d : Opd) : Instr := .subc true .cf .both b a d
abbrev SBC (a b d : Opd) : Instr := .subc true .cf .no b a d
abbrev SUB (a b d : Opd) : Instr := .subc true .no .no b a d
/-- NEG leaves the flags alone -/
abbrev NEG (a d : Opd) : Instr := .subc false .no .no (.imm 0) a d
abbrev AND (a b d : Opd) : Instr := .and false a b d
abbrev MUL (a b d : Opd) : Instr := .mullo a b d
abbrev UMULH (a b d : Opd) : Instr := .mulhi a b d
/-- ORR a>>8, b, d -/
abbrev ORR8 (a b d : Opd) : Instr := .orshr 8 a b d
/-- LSL $56, d -/
abbrev LSL56 (d : Opd) : Instr := .shl 56 d d
/-- CMP $0, a.  Only the condition EQ is used afterwards, by CSEL; CF stands for it. -/
abbrev CMP0 (a : Opd) : Instr := .cmpz a
/-- CSEL EQ, a, b, d -/
abbrev CSELEQ (a b d : Opd) : Instr := .csel a b d
/-- CSEL NE, a, b, d -/
abbrev CSELNE (a b d : Opd) : Instr := .csel b a d
/-- The byte load MOVB extends the sign: the byte, exclusive-or 0x80, minus 0x80. -/
abbrev MOVBU (s d : Opd) : Instr := .byte s d
abbrev EORS (d : Opd) : Instr := .xor false (.imm 0x80) d d
abbrev SUBX (d : Opd) : Instr := .subc false .no .no d (.imm 0x80) d

end Model.Asm
