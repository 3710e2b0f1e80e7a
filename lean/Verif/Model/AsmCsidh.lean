import Verif.Model.Asm
import Verif.Model.CsidhArith
import Verif.Model.SidhParams
/-
The routines of dh/csidh/fp511_amd64.s and the swaps of dh/sidh/internal/*/arith_amd64.s as straight-line programs: what
remains of the text after macro expansion and, in `mul512`, after following the jump `CMPB ·hasBMI2(SB), $1; JE`.
Printed by gen/asmgen_csidh.py; each comment gives the line of /repo the instructions below it come from.
-/
namespace Model.AsmCsidh
open Model Model.Asm

/-- dh/csidh/fp511_amd64.s:14-43 `mul512` -/
def mul512Code : List Instr := [
  -- dh/csidh/fp511_amd64.s:14
  MOVQ (.mem FP 0) (.reg DI),
  -- dh/csidh/fp511_amd64.s:15
  MOVQ (.mem FP 1) (.reg SI),
  -- dh/csidh/fp511_amd64.s:21
  MOVQ (.mem FP 2) (.reg R10),
  -- dh/csidh/fp511_amd64.s:22
  MOVQ (.reg R10) (.reg AX),
  MULQ (.mem SI 0),
  MOVQ (.reg DX) (.reg R11),
  MOVQ (.reg AX) (.mem DI 0),
  -- dh/csidh/fp511_amd64.s:23
  MOVQ (.reg R10) (.reg AX),
  MULQ (.mem SI 1),
  ADDQ (.reg R11) (.reg AX),
  ADCQ (.imm 0) (.reg DX),
  MOVQ (.reg DX) (.reg R11),
  MOVQ (.reg AX) (.mem DI 1),
  -- dh/csidh/fp511_amd64.s:24
  MOVQ (.reg R10) (.reg AX),
  MULQ (.mem SI 2),
  ADDQ (.reg R11) (.reg AX),
  ADCQ (.imm 0) (.reg DX),
  MOVQ (.reg DX) (.reg R11),
  MOVQ (.reg AX) (.mem DI 2),
  -- dh/csidh/fp511_amd64.s:25
  MOVQ (.reg R10) (.reg AX),
  MULQ (.mem SI 3),
  ADDQ (.reg R11) (.reg AX),
  ADCQ (.imm 0) (.reg DX),
  MOVQ (.reg DX) (.reg R11),
  MOVQ (.reg AX) (.mem DI 3),
  -- dh/csidh/fp511_amd64.s:26
  MOVQ (.reg R10) (.reg AX),
  MULQ (.mem SI 4),
  ADDQ (.reg R11) (.reg AX),
  ADCQ (.imm 0) (.reg DX),
  MOVQ (.reg DX) (.reg R11),
  MOVQ (.reg AX) (.mem DI 4),
  -- dh/csidh/fp511_amd64.s:27
  MOVQ (.reg R10) (.reg AX),
  MULQ (.mem SI 5),
  ADDQ (.reg R11) (.reg AX),
  ADCQ (.imm 0) (.reg DX),
  MOVQ (.reg DX) (.reg R11),
  MOVQ (.reg AX) (.mem DI 5),
  -- dh/csidh/fp511_amd64.s:28
  MOVQ (.reg R10) (.reg AX),
  MULQ (.mem SI 6),
  ADDQ (.reg R11) (.reg AX),
  ADCQ (.imm 0) (.reg DX),
  MOVQ (.reg DX) (.reg R11),
  MOVQ (.reg AX) (.mem DI 6),
  -- dh/csidh/fp511_amd64.s:29
  MOVQ (.reg R10) (.reg AX),
  MULQ (.mem SI 7),
  ADDQ (.reg R11) (.reg AX),
  MOVQ (.reg AX) (.mem DI 7)
  ]

def mul512 : Routine := { code := mul512Code, frame := 0, glob := [] }

/-- dh/csidh/fp511_amd64.s:14-43 `mul512`, with BMI2 -/
def mul512_bmi2Code : List Instr := [
  -- dh/csidh/fp511_amd64.s:14
  MOVQ (.mem FP 0) (.reg DI),
  -- dh/csidh/fp511_amd64.s:15
  MOVQ (.mem FP 1) (.reg SI),
  -- dh/csidh/fp511_amd64.s:34
  MOVQ (.mem FP 2) (.reg DX),
  -- dh/csidh/fp511_amd64.s:35
  MULXQ (.mem SI 0) (.reg AX) (.reg R10),
  MOVQ (.reg AX) (.mem DI 0),
  -- dh/csidh/fp511_amd64.s:36
  MULXQ (.mem SI 1) (.reg AX) (.reg R11),
  ADDQ (.reg R10) (.reg AX),
  MOVQ (.reg AX) (.mem DI 1),
  -- dh/csidh/fp511_amd64.s:37
  MULXQ (.mem SI 2) (.reg AX) (.reg R10),
  ADCQ (.reg R11) (.reg AX),
  MOVQ (.reg AX) (.mem DI 2),
  -- dh/csidh/fp511_amd64.s:38
  MULXQ (.mem SI 3) (.reg AX) (.reg R11),
  ADCQ (.reg R10) (.reg AX),
  MOVQ (.reg AX) (.mem DI 3),
  -- dh/csidh/fp511_amd64.s:39
  MULXQ (.mem SI 4) (.reg AX) (.reg R10),
  ADCQ (.reg R11) (.reg AX),
  MOVQ (.reg AX) (.mem DI 4),
  -- dh/csidh/fp511_amd64.s:40
  MULXQ (.mem SI 5) (.reg AX) (.reg R11),
  ADCQ (.reg R10) (.reg AX),
  MOVQ (.reg AX) (.mem DI 5),
  -- dh/csidh/fp511_amd64.s:41
  MULXQ (.mem SI 6) (.reg AX) (.reg R10),
  ADCQ (.reg R11) (.reg AX),
  MOVQ (.reg AX) (.mem DI 6),
  -- dh/csidh/fp511_amd64.s:42
  MULXQ (.mem SI 7) (.reg AX) (.reg R11),
  ADCQ (.reg R10) (.reg AX),
  MOVQ (.reg AX) (.mem DI 7)
  ]

def mul512_bmi2 : Routine := { code := mul512_bmi2Code, frame := 0, glob := [] }

/-- dh/csidh/fp511_amd64.s:54-68 `mul576` -/
def mul576Code : List Instr := [
  -- dh/csidh/fp511_amd64.s:54
  MOVQ (.mem FP 0) (.reg DI),
  -- dh/csidh/fp511_amd64.s:55
  MOVQ (.mem FP 1) (.reg SI),
  -- dh/csidh/fp511_amd64.s:57
  MOVQ (.mem FP 2) (.reg R10),
  -- dh/csidh/fp511_amd64.s:58
  MOVQ (.reg R10) (.reg AX),
  MULQ (.mem SI 0),
  MOVQ (.reg DX) (.reg R11),
  MOVQ (.reg AX) (.mem DI 0),
  -- dh/csidh/fp511_amd64.s:59
  MOVQ (.reg R10) (.reg AX),
  MULQ (.mem SI 1),
  ADDQ (.reg R11) (.reg AX),
  ADCQ (.imm 0) (.reg DX),
  MOVQ (.reg DX) (.reg R11),
  MOVQ (.reg AX) (.mem DI 1),
  -- dh/csidh/fp511_amd64.s:60
  MOVQ (.reg R10) (.reg AX),
  MULQ (.mem SI 2),
  ADDQ (.reg R11) (.reg AX),
  ADCQ (.imm 0) (.reg DX),
  MOVQ (.reg DX) (.reg R11),
  MOVQ (.reg AX) (.mem DI 2),
  -- dh/csidh/fp511_amd64.s:61
  MOVQ (.reg R10) (.reg AX),
  MULQ (.mem SI 3),
  ADDQ (.reg R11) (.reg AX),
  ADCQ (.imm 0) (.reg DX),
  MOVQ (.reg DX) (.reg R11),
  MOVQ (.reg AX) (.mem DI 3),
  -- dh/csidh/fp511_amd64.s:62
  MOVQ (.reg R10) (.reg AX),
  MULQ (.mem SI 4),
  ADDQ (.reg R11) (.reg AX),
  ADCQ (.imm 0) (.reg DX),
  MOVQ (.reg DX) (.reg R11),
  MOVQ (.reg AX) (.mem DI 4),
  -- dh/csidh/fp511_amd64.s:63
  MOVQ (.reg R10) (.reg AX),
  MULQ (.mem SI 5),
  ADDQ (.reg R11) (.reg AX),
  ADCQ (.imm 0) (.reg DX),
  MOVQ (.reg DX) (.reg R11),
  MOVQ (.reg AX) (.mem DI 5),
  -- dh/csidh/fp511_amd64.s:64
  MOVQ (.reg R10) (.reg AX),
  MULQ (.mem SI 6),
  ADDQ (.reg R11) (.reg AX),
  ADCQ (.imm 0) (.reg DX),
  MOVQ (.reg DX) (.reg R11),
  MOVQ (.reg AX) (.mem DI 6),
  -- dh/csidh/fp511_amd64.s:65
  MOVQ (.reg R10) (.reg AX),
  MULQ (.mem SI 7),
  ADDQ (.reg R11) (.reg AX),
  ADCQ (.imm 0) (.reg DX),
  MOVQ (.reg AX) (.mem DI 7),
  -- dh/csidh/fp511_amd64.s:66
  MOVQ (.reg DX) (.mem DI 8)
  ]

def mul576 : Routine := { code := mul576Code, frame := 0, glob := [] }

/-- dh/csidh/fp511_amd64.s:120-192 `mulBmiAsm` -/
def mulBmiCode : List Instr := [
  -- dh/csidh/fp511_amd64.s:120
  MOVQ (.mem FP 1) (.reg DI),
  -- dh/csidh/fp511_amd64.s:121
  MOVQ (.mem FP 2) (.reg SI),
  -- dh/csidh/fp511_amd64.s:123
  XORQ (.reg R8) (.reg R8),
  -- dh/csidh/fp511_amd64.s:124
  XORQ (.reg R9) (.reg R9),
  -- dh/csidh/fp511_amd64.s:125
  XORQ (.reg R10) (.reg R10),
  -- dh/csidh/fp511_amd64.s:126
  XORQ (.reg R11) (.reg R11),
  -- dh/csidh/fp511_amd64.s:127
  XORQ (.reg R12) (.reg R12),
  -- dh/csidh/fp511_amd64.s:128
  XORQ (.reg R13) (.reg R13),
  -- dh/csidh/fp511_amd64.s:129
  XORQ (.reg R14) (.reg R14),
  -- dh/csidh/fp511_amd64.s:130
  XORQ (.reg R15) (.reg R15),
  -- dh/csidh/fp511_amd64.s:132
  MOVQ (.reg BP) (.mem SP 0),
  -- dh/csidh/fp511_amd64.s:133
  XORQ (.reg BP) (.reg BP),
  -- dh/csidh/fp511_amd64.s:170
  MOVQ (.mem SI 0) (.reg DX),
  MULXQ (.mem DI 0) (.reg DX) (.reg CX),
  ADDQ (.reg R8) (.reg DX),
  MULXQ (.glob 3 0) (.reg DX) (.reg CX),
  XORQ (.reg AX) (.reg AX),
  MULXQ (.glob 2 0) (.reg AX) (.reg BX),
  ADOXQ (.reg AX) (.reg R8),
  MULXQ (.glob 2 1) (.reg AX) (.reg CX),
  ADCXQ (.reg BX) (.reg R9),
  ADOXQ (.reg AX) (.reg R9),
  MULXQ (.glob 2 2) (.reg AX) (.reg BX),
  ADCXQ (.reg CX) (.reg R10),
  ADOXQ (.reg AX) (.reg R10),
  MULXQ (.glob 2 3) (.reg AX) (.reg CX),
  ADCXQ (.reg BX) (.reg R11),
  ADOXQ (.reg AX) (.reg R11),
  MULXQ (.glob 2 4) (.reg AX) (.reg BX),
  ADCXQ (.reg CX) (.reg R12),
  ADOXQ (.reg AX) (.reg R12),
  MULXQ (.glob 2 5) (.reg AX) (.reg CX),
  ADCXQ (.reg BX) (.reg R13),
  ADOXQ (.reg AX) (.reg R13),
  MULXQ (.glob 2 6) (.reg AX) (.reg BX),
  ADCXQ (.reg CX) (.reg R14),
  ADOXQ (.reg AX) (.reg R14),
  MULXQ (.glob 2 7) (.reg AX) (.reg CX),
  ADCXQ (.reg BX) (.reg R15),
  ADOXQ (.reg AX) (.reg R15),
  MOVQ (.imm 0) (.reg AX),
  ADCXQ (.reg CX) (.reg BP),
  ADOXQ (.reg AX) (.reg BP),
  MOVQ (.mem DI 0) (.reg DX),
  XORQ (.reg AX) (.reg AX),
  MULXQ (.mem SI 0) (.reg AX) (.reg BX),
  ADOXQ (.reg AX) (.reg R8),
  MULXQ (.mem SI 1) (.reg AX) (.reg CX),
  ADCXQ (.reg BX) (.reg R9),
  ADOXQ (.reg AX) (.reg R9),
  MULXQ (.mem SI 2) (.reg AX) (.reg BX),
  ADCXQ (.reg CX) (.reg R10),
  ADOXQ (.reg AX) (.reg R10),
  MULXQ (.mem SI 3) (.reg AX) (.reg CX),
  ADCXQ (.reg BX) (.reg R11),
  ADOXQ (.reg AX) (.reg R11),
  MULXQ (.mem SI 4) (.reg AX) (.reg BX),
  ADCXQ (.reg CX) (.reg R12),
  ADOXQ (.reg AX) (.reg R12),
  MULXQ (.mem SI 5) (.reg AX) (.reg CX),
  ADCXQ (.reg BX) (.reg R13),
  ADOXQ (.reg AX) (.reg R13),
  MULXQ (.mem SI 6) (.reg AX) (.reg BX),
  ADCXQ (.reg CX) (.reg R14),
  ADOXQ (.reg AX) (.reg R14),
  MULXQ (.mem SI 7) (.reg AX) (.reg CX),
  ADCXQ (.reg BX) (.reg R15),
  ADOXQ (.reg AX) (.reg R15),
  MOVQ (.imm 0) (.reg AX),
  ADCXQ (.reg CX) (.reg BP),
  ADOXQ (.reg AX) (.reg BP),
  -- dh/csidh/fp511_amd64.s:171
  MOVQ (.mem SI 0) (.reg DX),
  MULXQ (.mem DI 1) (.reg DX) (.reg CX),
  ADDQ (.reg R9) (.reg DX),
  MULXQ (.glob 3 0) (.reg DX) (.reg CX),
  XORQ (.reg AX) (.reg AX),
  MULXQ (.glob 2 0) (.reg AX) (.reg BX),
  ADOXQ (.reg AX) (.reg R9),
  MULXQ (.glob 2 1) (.reg AX) (.reg CX),
  ADCXQ (.reg BX) (.reg R10),
  ADOXQ (.reg AX) (.reg R10),
  MULXQ (.glob 2 2) (.reg AX) (.reg BX),
  ADCXQ (.reg CX) (.reg R11),
  ADOXQ (.reg AX) (.reg R11),
  MULXQ (.glob 2 3) (.reg AX) (.reg CX),
  ADCXQ (.reg BX) (.reg R12),
  ADOXQ (.reg AX) (.reg R12),
  MULXQ (.glob 2 4) (.reg AX) (.reg BX),
  ADCXQ (.reg CX) (.reg R13),
  ADOXQ (.reg AX) (.reg R13),
  MULXQ (.glob 2 5) (.reg AX) (.reg CX),
  ADCXQ (.reg BX) (.reg R14),
  ADOXQ (.reg AX) (.reg R14),
  MULXQ (.glob 2 6) (.reg AX) (.reg BX),
  ADCXQ (.reg CX) (.reg R15),
  ADOXQ (.reg AX) (.reg R15),
  MULXQ (.glob 2 7) (.reg AX) (.reg CX),
  ADCXQ (.reg BX) (.reg BP),
  ADOXQ (.reg AX) (.reg BP),
  MOVQ (.imm 0) (.reg AX),
  ADCXQ (.reg CX) (.reg R8),
  ADOXQ (.reg AX) (.reg R8),
  MOVQ (.mem DI 1) (.reg DX),
  XORQ (.reg AX) (.reg AX),
  MULXQ (.mem SI 0) (.reg AX) (.reg BX),
  ADOXQ (.reg AX) (.reg R9),
  MULXQ (.mem SI 1) (.reg AX) (.reg CX),
  ADCXQ (.reg BX) (.reg R10),
  ADOXQ (.reg AX) (.reg R10),
  MULXQ (.mem SI 2) (.reg AX) (.reg BX),
  ADCXQ (.reg CX) (.reg R11),
  ADOXQ (.reg AX) (.reg R11),
  MULXQ (.mem SI 3) (.reg AX) (.reg CX),
  ADCXQ (.reg BX) (.reg R12),
  ADOXQ (.reg AX) (.reg R12),
  MULXQ (.mem SI 4) (.reg AX) (.reg BX),
  ADCXQ (.reg CX) (.reg R13),
  ADOXQ (.reg AX) (.reg R13),
  MULXQ (.mem SI 5) (.reg AX) (.reg CX),
  ADCXQ (.reg BX) (.reg R14),
  ADOXQ (.reg AX) (.reg R14),
  MULXQ (.mem SI 6) (.reg AX) (.reg BX),
  ADCXQ (.reg CX) (.reg R15),
  ADOXQ (.reg AX) (.reg R15),
  MULXQ (.mem SI 7) (.reg AX) (.reg CX),
  ADCXQ (.reg BX) (.reg BP),
  ADOXQ (.reg AX) (.reg BP),
  MOVQ (.imm 0) (.reg AX),
  ADCXQ (.reg CX) (.reg R8),
  ADOXQ (.reg AX) (.reg R8),
  -- dh/csidh/fp511_amd64.s:172
  MOVQ (.mem SI 0) (.reg DX),
  MULXQ (.mem DI 2) (.reg DX) (.reg CX),
  ADDQ (.reg R10) (.reg DX),
  MULXQ (.glob 3 0) (.reg DX) (.reg CX),
  XORQ (.reg AX) (.reg AX),
  MULXQ (.glob 2 0) (.reg AX) (.reg BX),
  ADOXQ (.reg AX) (.reg R10),
  MULXQ (.glob 2 1) (.reg AX) (.reg CX),
  ADCXQ (.reg BX) (.reg R11),
  ADOXQ (.reg AX) (.reg R11),
  MULXQ (.glob 2 2) (.reg AX) (.reg BX),
  ADCXQ (.reg CX) (.reg R12),
  ADOXQ (.reg AX) (.reg R12),
  MULXQ (.glob 2 3) (.reg AX) (.reg CX),
  ADCXQ (.reg BX) (.reg R13),
  ADOXQ (.reg AX) (.reg R13),
  MULXQ (.glob 2 4) (.reg AX) (.reg BX),
  ADCXQ (.reg CX) (.reg R14),
  ADOXQ (.reg AX) (.reg R14),
  MULXQ (.glob 2 5) (.reg AX) (.reg CX),
  ADCXQ (.reg BX) (.reg R15),
  ADOXQ (.reg AX) (.reg R15),
  MULXQ (.glob 2 6) (.reg AX) (.reg BX),
  ADCXQ (.reg CX) (.reg BP),
  ADOXQ (.reg AX) (.reg BP),
  MULXQ (.glob 2 7) (.reg AX) (.reg CX),
  ADCXQ (.reg BX) (.reg R8),
  ADOXQ (.reg AX) (.reg R8),
  MOVQ (.imm 0) (.reg AX),
  ADCXQ (.reg CX) (.reg R9),
  ADOXQ (.reg AX) (.reg R9),
  MOVQ (.mem DI 2) (.reg DX),
  XORQ (.reg AX) (.reg AX),
  MULXQ (.mem SI 0) (.reg AX) (.reg BX),
  ADOXQ (.reg AX) (.reg R10),
  MULXQ (.mem SI 1) (.reg AX) (.reg CX),
  ADCXQ (.reg BX) (.reg R11),
  ADOXQ (.reg AX) (.reg R11),
  MULXQ (.mem SI 2) (.reg AX) (.reg BX),
  ADCXQ (.reg CX) (.reg R12),
  ADOXQ (.reg AX) (.reg R12),
  MULXQ (.mem SI 3) (.reg AX) (.reg CX),
  ADCXQ (.reg BX) (.reg R13),
  ADOXQ (.reg AX) (.reg R13),
  MULXQ (.mem SI 4) (.reg AX) (.reg BX),
  ADCXQ (.reg CX) (.reg R14),
  ADOXQ (.reg AX) (.reg R14),
  MULXQ (.mem SI 5) (.reg AX) (.reg CX),
  ADCXQ (.reg BX) (.reg R15),
  ADOXQ (.reg AX) (.reg R15),
  MULXQ (.mem SI 6) (.reg AX) (.reg BX),
  ADCXQ (.reg CX) (.reg BP),
  ADOXQ (.reg AX) (.reg BP),
  MULXQ (.mem SI 7) (.reg AX) (.reg CX),
  ADCXQ (.reg BX) (.reg R8),
  ADOXQ (.reg AX) (.reg R8),
  MOVQ (.imm 0) (.reg AX),
  ADCXQ (.reg CX) (.reg R9),
  ADOXQ (.reg AX) (.reg R9),
  -- dh/csidh/fp511_amd64.s:173
  MOVQ (.mem SI 0) (.reg DX),
  MULXQ (.mem DI 3) (.reg DX) (.reg CX),
  ADDQ (.reg R11) (.reg DX),
  MULXQ (.glob 3 0) (.reg DX) (.reg CX),
  XORQ (.reg AX) (.reg AX),
  MULXQ (.glob 2 0) (.reg AX) (.reg BX),
  ADOXQ (.reg AX) (.reg R11),
  MULXQ (.glob 2 1) (.reg AX) (.reg CX),
  ADCXQ (.reg BX) (.reg R12),
  ADOXQ (.reg AX) (.reg R12),
  MULXQ (.glob 2 2) (.reg AX) (.reg BX),
  ADCXQ (.reg CX) (.reg R13),
  ADOXQ (.reg AX) (.reg R13),
  MULXQ (.glob 2 3) (.reg AX) (.reg CX),
  ADCXQ (.reg BX) (.reg R14),
  ADOXQ (.reg AX) (.reg R14),
  MULXQ (.glob 2 4) (.reg AX) (.reg BX),
  ADCXQ (.reg CX) (.reg R15),
  ADOXQ (.reg AX) (.reg R15),
  MULXQ (.glob 2 5) (.reg AX) (.reg CX),
  ADCXQ (.reg BX) (.reg BP),
  ADOXQ (.reg AX) (.reg BP),
  MULXQ (.glob 2 6) (.reg AX) (.reg BX),
  ADCXQ (.reg CX) (.reg R8),
  ADOXQ (.reg AX) (.reg R8),
  MULXQ (.glob 2 7) (.reg AX) (.reg CX),
  ADCXQ (.reg BX) (.reg R9),
  ADOXQ (.reg AX) (.reg R9),
  MOVQ (.imm 0) (.reg AX),
  ADCXQ (.reg CX) (.reg R10),
  ADOXQ (.reg AX) (.reg R10),
  MOVQ (.mem DI 3) (.reg DX),
  XORQ (.reg AX) (.reg AX),
  MULXQ (.mem SI 0) (.reg AX) (.reg BX),
  ADOXQ (.reg AX) (.reg R11),
  MULXQ (.mem SI 1) (.reg AX) (.reg CX),
  ADCXQ (.reg BX) (.reg R12),
  ADOXQ (.reg AX) (.reg R12),
  MULXQ (.mem SI 2) (.reg AX) (.reg BX),
  ADCXQ (.reg CX) (.reg R13),
  ADOXQ (.reg AX) (.reg R13),
  MULXQ (.mem SI 3) (.reg AX) (.reg CX),
  ADCXQ (.reg BX) (.reg R14),
  ADOXQ (.reg AX) (.reg R14),
  MULXQ (.mem SI 4) (.reg AX) (.reg BX),
  ADCXQ (.reg CX) (.reg R15),
  ADOXQ (.reg AX) (.reg R15),
  MULXQ (.mem SI 5) (.reg AX) (.reg CX),
  ADCXQ (.reg BX) (.reg BP),
  ADOXQ (.reg AX) (.reg BP),
  MULXQ (.mem SI 6) (.reg AX) (.reg BX),
  ADCXQ (.reg CX) (.reg R8),
  ADOXQ (.reg AX) (.reg R8),
  MULXQ (.mem SI 7) (.reg AX) (.reg CX),
  ADCXQ (.reg BX) (.reg R9),
  ADOXQ (.reg AX) (.reg R9),
  MOVQ (.imm 0) (.reg AX),
  ADCXQ (.reg CX) (.reg R10),
  ADOXQ (.reg AX) (.reg R10),
  -- dh/csidh/fp511_amd64.s:174
  MOVQ (.mem SI 0) (.reg DX),
  MULXQ (.mem DI 4) (.reg DX) (.reg CX),
  ADDQ (.reg R12) (.reg DX),
  MULXQ (.glob 3 0) (.reg DX) (.reg CX),
  XORQ (.reg AX) (.reg AX),
  MULXQ (.glob 2 0) (.reg AX) (.reg BX),
  ADOXQ (.reg AX) (.reg R12),
  MULXQ (.glob 2 1) (.reg AX) (.reg CX),
  ADCXQ (.reg BX) (.reg R13),
  ADOXQ (.reg AX) (.reg R13),
  MULXQ (.glob 2 2) (.reg AX) (.reg BX),
  ADCXQ (.reg CX) (.reg R14),
  ADOXQ (.reg AX) (.reg R14),
  MULXQ (.glob 2 3) (.reg AX) (.reg CX),
  ADCXQ (.reg BX) (.reg R15),
  ADOXQ (.reg AX) (.reg R15),
  MULXQ (.glob 2 4) (.reg AX) (.reg BX),
  ADCXQ (.reg CX) (.reg BP),
  ADOXQ (.reg AX) (.reg BP),
  MULXQ (.glob 2 5) (.reg AX) (.reg CX),
  ADCXQ (.reg BX) (.reg R8),
  ADOXQ (.reg AX) (.reg R8),
  MULXQ (.glob 2 6) (.reg AX) (.reg BX),
  ADCXQ (.reg CX) (.reg R9),
  ADOXQ (.reg AX) (.reg R9),
  MULXQ (.glob 2 7) (.reg AX) (.reg CX),
  ADCXQ (.reg BX) (.reg R10),
  ADOXQ (.reg AX) (.reg R10),
  MOVQ (.imm 0) (.reg AX),
  ADCXQ (.reg CX) (.reg R11),
  ADOXQ (.reg AX) (.reg R11),
  MOVQ (.mem DI 4) (.reg DX),
  XORQ (.reg AX) (.reg AX),
  MULXQ (.mem SI 0) (.reg AX) (.reg BX),
  ADOXQ (.reg AX) (.reg R12),
  MULXQ (.mem SI 1) (.reg AX) (.reg CX),
  ADCXQ (.reg BX) (.reg R13),
  ADOXQ (.reg AX) (.reg R13),
  MULXQ (.mem SI 2) (.reg AX) (.reg BX),
  ADCXQ (.reg CX) (.reg R14),
  ADOXQ (.reg AX) (.reg R14),
  MULXQ (.mem SI 3) (.reg AX) (.reg CX),
  ADCXQ (.reg BX) (.reg R15),
  ADOXQ (.reg AX) (.reg R15),
  MULXQ (.mem SI 4) (.reg AX) (.reg BX),
  ADCXQ (.reg CX) (.reg BP),
  ADOXQ (.reg AX) (.reg BP),
  MULXQ (.mem SI 5) (.reg AX) (.reg CX),
  ADCXQ (.reg BX) (.reg R8),
  ADOXQ (.reg AX) (.reg R8),
  MULXQ (.mem SI 6) (.reg AX) (.reg BX),
  ADCXQ (.reg CX) (.reg R9),
  ADOXQ (.reg AX) (.reg R9),
  MULXQ (.mem SI 7) (.reg AX) (.reg CX),
  ADCXQ (.reg BX) (.reg R10),
  ADOXQ (.reg AX) (.reg R10),
  MOVQ (.imm 0) (.reg AX),
  ADCXQ (.reg CX) (.reg R11),
  ADOXQ (.reg AX) (.reg R11),
  -- dh/csidh/fp511_amd64.s:175
  MOVQ (.mem SI 0) (.reg DX),
  MULXQ (.mem DI 5) (.reg DX) (.reg CX),
  ADDQ (.reg R13) (.reg DX),
  MULXQ (.glob 3 0) (.reg DX) (.reg CX),
  XORQ (.reg AX) (.reg AX),
  MULXQ (.glob 2 0) (.reg AX) (.reg BX),
  ADOXQ (.reg AX) (.reg R13),
  MULXQ (.glob 2 1) (.reg AX) (.reg CX),
  ADCXQ (.reg BX) (.reg R14),
  ADOXQ (.reg AX) (.reg R14),
  MULXQ (.glob 2 2) (.reg AX) (.reg BX),
  ADCXQ (.reg CX) (.reg R15),
  ADOXQ (.reg AX) (.reg R15),
  MULXQ (.glob 2 3) (.reg AX) (.reg CX),
  ADCXQ (.reg BX) (.reg BP),
  ADOXQ (.reg AX) (.reg BP),
  MULXQ (.glob 2 4) (.reg AX) (.reg BX),
  ADCXQ (.reg CX) (.reg R8),
  ADOXQ (.reg AX) (.reg R8),
  MULXQ (.glob 2 5) (.reg AX) (.reg CX),
  ADCXQ (.reg BX) (.reg R9),
  ADOXQ (.reg AX) (.reg R9),
  MULXQ (.glob 2 6) (.reg AX) (.reg BX),
  ADCXQ (.reg CX) (.reg R10),
  ADOXQ (.reg AX) (.reg R10),
  MULXQ (.glob 2 7) (.reg AX) (.reg CX),
  ADCXQ (.reg BX) (.reg R11),
  ADOXQ (.reg AX) (.reg R11),
  MOVQ (.imm 0) (.reg AX),
  ADCXQ (.reg CX) (.reg R12),
  ADOXQ (.reg AX) (.reg R12),
  MOVQ (.mem DI 5) (.reg DX),
  XORQ (.reg AX) (.reg AX),
  MULXQ (.mem SI 0) (.reg AX) (.reg BX),
  ADOXQ (.reg AX) (.reg R13),
  MULXQ (.mem SI 1) (.reg AX) (.reg CX),
  ADCXQ (.reg BX) (.reg R14),
  ADOXQ (.reg AX) (.reg R14),
  MULXQ (.mem SI 2) (.reg AX) (.reg BX),
  ADCXQ (.reg CX) (.reg R15),
  ADOXQ (.reg AX) (.reg R15),
  MULXQ (.mem SI 3) (.reg AX) (.reg CX),
  ADCXQ (.reg BX) (.reg BP),
  ADOXQ (.reg AX) (.reg BP),
  MULXQ (.mem SI 4) (.reg AX) (.reg BX),
  ADCXQ (.reg CX) (.reg R8),
  ADOXQ (.reg AX) (.reg R8),
  MULXQ (.mem SI 5) (.reg AX) (.reg CX),
  ADCXQ (.reg BX) (.reg R9),
  ADOXQ (.reg AX) (.reg R9),
  MULXQ (.mem SI 6) (.reg AX) (.reg BX),
  ADCXQ (.reg CX) (.reg R10),
  ADOXQ (.reg AX) (.reg R10),
  MULXQ (.mem SI 7) (.reg AX) (.reg CX),
  ADCXQ (.reg BX) (.reg R11),
  ADOXQ (.reg AX) (.reg R11),
  MOVQ (.imm 0) (.reg AX),
  ADCXQ (.reg CX) (.reg R12),
  ADOXQ (.reg AX) (.reg R12),
  -- dh/csidh/fp511_amd64.s:176
  MOVQ (.mem SI 0) (.reg DX),
  MULXQ (.mem DI 6) (.reg DX) (.reg CX),
  ADDQ (.reg R14) (.reg DX),
  MULXQ (.glob 3 0) (.reg DX) (.reg CX),
  XORQ (.reg AX) (.reg AX),
  MULXQ (.glob 2 0) (.reg AX) (.reg BX),
  ADOXQ (.reg AX) (.reg R14),
  MULXQ (.glob 2 1) (.reg AX) (.reg CX),
  ADCXQ (.reg BX) (.reg R15),
  ADOXQ (.reg AX) (.reg R15),
  MULXQ (.glob 2 2) (.reg AX) (.reg BX),
  ADCXQ (.reg CX) (.reg BP),
  ADOXQ (.reg AX) (.reg BP),
  MULXQ (.glob 2 3) (.reg AX) (.reg CX),
  ADCXQ (.reg BX) (.reg R8),
  ADOXQ (.reg AX) (.reg R8),
  MULXQ (.glob 2 4) (.reg AX) (.reg BX),
  ADCXQ (.reg CX) (.reg R9),
  ADOXQ (.reg AX) (.reg R9),
  MULXQ (.glob 2 5) (.reg AX) (.reg CX),
  ADCXQ (.reg BX) (.reg R10),
  ADOXQ (.reg AX) (.reg R10),
  MULXQ (.glob 2 6) (.reg AX) (.reg BX),
  ADCXQ (.reg CX) (.reg R11),
  ADOXQ (.reg AX) (.reg R11),
  MULXQ (.glob 2 7) (.reg AX) (.reg CX),
  ADCXQ (.reg BX) (.reg R12),
  ADOXQ (.reg AX) (.reg R12),
  MOVQ (.imm 0) (.reg AX),
  ADCXQ (.reg CX) (.reg R13),
  ADOXQ (.reg AX) (.reg R13),
  MOVQ (.mem DI 6) (.reg DX),
  XORQ (.reg AX) (.reg AX),
  MULXQ (.mem SI 0) (.reg AX) (.reg BX),
  ADOXQ (.reg AX) (.reg R14),
  MULXQ (.mem SI 1) (.reg AX) (.reg CX),
  ADCXQ (.reg BX) (.reg R15),
  ADOXQ (.reg AX) (.reg R15),
  MULXQ (.mem SI 2) (.reg AX) (.reg BX),
  ADCXQ (.reg CX) (.reg BP),
  ADOXQ (.reg AX) (.reg BP),
  MULXQ (.mem SI 3) (.reg AX) (.reg CX),
  ADCXQ (.reg BX) (.reg R8),
  ADOXQ (.reg AX) (.reg R8),
  MULXQ (.mem SI 4) (.reg AX) (.reg BX),
  ADCXQ (.reg CX) (.reg R9),
  ADOXQ (.reg AX) (.reg R9),
  MULXQ (.mem SI 5) (.reg AX) (.reg CX),
  ADCXQ (.reg BX) (.reg R10),
  ADOXQ (.reg AX) (.reg R10),
  MULXQ (.mem SI 6) (.reg AX) (.reg BX),
  ADCXQ (.reg CX) (.reg R11),
  ADOXQ (.reg AX) (.reg R11),
  MULXQ (.mem SI 7) (.reg AX) (.reg CX),
  ADCXQ (.reg BX) (.reg R12),
  ADOXQ (.reg AX) (.reg R12),
  MOVQ (.imm 0) (.reg AX),
  ADCXQ (.reg CX) (.reg R13),
  ADOXQ (.reg AX) (.reg R13),
  -- dh/csidh/fp511_amd64.s:177
  MOVQ (.mem SI 0) (.reg DX),
  MULXQ (.mem DI 7) (.reg DX) (.reg CX),
  ADDQ (.reg R15) (.reg DX),
  MULXQ (.glob 3 0) (.reg DX) (.reg CX),
  XORQ (.reg AX) (.reg AX),
  MULXQ (.glob 2 0) (.reg AX) (.reg BX),
  ADOXQ (.reg AX) (.reg R15),
  MULXQ (.glob 2 1) (.reg AX) (.reg CX),
  ADCXQ (.reg BX) (.reg BP),
  ADOXQ (.reg AX) (.reg BP),
  MULXQ (.glob 2 2) (.reg AX) (.reg BX),
  ADCXQ (.reg CX) (.reg R8),
  ADOXQ (.reg AX) (.reg R8),
  MULXQ (.glob 2 3) (.reg AX) (.reg CX),
  ADCXQ (.reg BX) (.reg R9),
  ADOXQ (.reg AX) (.reg R9),
  MULXQ (.glob 2 4) (.reg AX) (.reg BX),
  ADCXQ (.reg CX) (.reg R10),
  ADOXQ (.reg AX) (.reg R10),
  MULXQ (.glob 2 5) (.reg AX) (.reg CX),
  ADCXQ (.reg BX) (.reg R11),
  ADOXQ (.reg AX) (.reg R11),
  MULXQ (.glob 2 6) (.reg AX) (.reg BX),
  ADCXQ (.reg CX) (.reg R12),
  ADOXQ (.reg AX) (.reg R12),
  MULXQ (.glob 2 7) (.reg AX) (.reg CX),
  ADCXQ (.reg BX) (.reg R13),
  ADOXQ (.reg AX) (.reg R13),
  MOVQ (.imm 0) (.reg AX),
  ADCXQ (.reg CX) (.reg R14),
  ADOXQ (.reg AX) (.reg R14),
  MOVQ (.mem DI 7) (.reg DX),
  XORQ (.reg AX) (.reg AX),
  MULXQ (.mem SI 0) (.reg AX) (.reg BX),
  ADOXQ (.reg AX) (.reg R15),
  MULXQ (.mem SI 1) (.reg AX) (.reg CX),
  ADCXQ (.reg BX) (.reg BP),
  ADOXQ (.reg AX) (.reg BP),
  MULXQ (.mem SI 2) (.reg AX) (.reg BX),
  ADCXQ (.reg CX) (.reg R8),
  ADOXQ (.reg AX) (.reg R8),
  MULXQ (.mem SI 3) (.reg AX) (.reg CX),
  ADCXQ (.reg BX) (.reg R9),
  ADOXQ (.reg AX) (.reg R9),
  MULXQ (.mem SI 4) (.reg AX) (.reg BX),
  ADCXQ (.reg CX) (.reg R10),
  ADOXQ (.reg AX) (.reg R10),
  MULXQ (.mem SI 5) (.reg AX) (.reg CX),
  ADCXQ (.reg BX) (.reg R11),
  ADOXQ (.reg AX) (.reg R11),
  MULXQ (.mem SI 6) (.reg AX) (.reg BX),
  ADCXQ (.reg CX) (.reg R12),
  ADOXQ (.reg AX) (.reg R12),
  MULXQ (.mem SI 7) (.reg AX) (.reg CX),
  ADCXQ (.reg BX) (.reg R13),
  ADOXQ (.reg AX) (.reg R13),
  MOVQ (.imm 0) (.reg AX),
  ADCXQ (.reg CX) (.reg R14),
  ADOXQ (.reg AX) (.reg R14),
  -- dh/csidh/fp511_amd64.s:180
  MOVQ (.mem FP 0) (.reg DI),
  -- dh/csidh/fp511_amd64.s:181
  MOVQ (.reg BP) (.mem DI 0),
  -- dh/csidh/fp511_amd64.s:182
  MOVQ (.reg R8) (.mem DI 1),
  -- dh/csidh/fp511_amd64.s:183
  MOVQ (.reg R9) (.mem DI 2),
  -- dh/csidh/fp511_amd64.s:184
  MOVQ (.reg R10) (.mem DI 3),
  -- dh/csidh/fp511_amd64.s:185
  MOVQ (.reg R11) (.mem DI 4),
  -- dh/csidh/fp511_amd64.s:186
  MOVQ (.reg R12) (.mem DI 5),
  -- dh/csidh/fp511_amd64.s:187
  MOVQ (.reg R13) (.mem DI 6),
  -- dh/csidh/fp511_amd64.s:188
  MOVQ (.reg R14) (.mem DI 7),
  -- dh/csidh/fp511_amd64.s:189
  MOVQ (.mem SP 0) (.reg BP)
  ]

def mulBmi : Routine := { code := mulBmiCode, frame := 1, glob := [Csidh.p, Csidh.pNegInv] }

/-- The code of `mul512` that runs on each kind of CPU. -/
def mul512On : Cpu → Routine
  | .base => mul512
  | _ => mul512_bmi2

/-- dh/csidh/fp511_amd64.s:72-111 `cswap512` -/
def cswap512Code : List Instr := [
  -- dh/csidh/fp511_amd64.s:72
  MOVQ (.mem FP 0) (.reg DI),
  -- dh/csidh/fp511_amd64.s:73
  MOVQ (.mem FP 1) (.reg SI),
  -- dh/csidh/fp511_amd64.s:74
  MOVBLZX (.mem FP 2) (.reg AX),
  -- dh/csidh/fp511_amd64.s:78
  NEGQ (.reg AX),
  -- dh/csidh/fp511_amd64.s:82
  MOVQ (.reg AX) (.reg (XL 15)),
  MOVQ (.imm 0) (.reg (XH 15)),
  -- dh/csidh/fp511_amd64.s:88
  .dup32 (.reg (XL 15)) (.reg (XH 15)),
  .dup32 (.reg (XL 15)) (.reg (XL 15)),
  -- dh/csidh/fp511_amd64.s:106
  MOVQ (.mem DI 0) (.reg (XL 0)),
  MOVQ (.mem DI 1) (.reg (XH 0)),
  MOVQ (.mem SI 0) (.reg (XL 1)),
  MOVQ (.mem SI 1) (.reg (XH 1)),
  MOVQ (.reg (XL 1)) (.reg (XL 2)),
  MOVQ (.reg (XH 1)) (.reg (XH 2)),
  PXORw (.reg (XL 0)) (.reg (XL 2)),
  PXORw (.reg (XH 0)) (.reg (XH 2)),
  PANDw (.reg (XL 15)) (.reg (XL 2)),
  PANDw (.reg (XH 15)) (.reg (XH 2)),
  PXORw (.reg (XL 2)) (.reg (XL 0)),
  PXORw (.reg (XH 2)) (.reg (XH 0)),
  PXORw (.reg (XL 2)) (.reg (XL 1)),
  PXORw (.reg (XH 2)) (.reg (XH 1)),
  MOVQ (.reg (XL 0)) (.mem DI 0),
  MOVQ (.reg (XH 0)) (.mem DI 1),
  MOVQ (.reg (XL 1)) (.mem SI 0),
  MOVQ (.reg (XH 1)) (.mem SI 1),
  -- dh/csidh/fp511_amd64.s:107
  MOVQ (.mem DI 2) (.reg (XL 0)),
  MOVQ (.mem DI 3) (.reg (XH 0)),
  MOVQ (.mem SI 2) (.reg (XL 1)),
  MOVQ (.mem SI 3) (.reg (XH 1)),
  MOVQ (.reg (XL 1)) (.reg (XL 2)),
  MOVQ (.reg (XH 1)) (.reg (XH 2)),
  PXORw (.reg (XL 0)) (.reg (XL 2)),
  PXORw (.reg (XH 0)) (.reg (XH 2)),
  PANDw (.reg (XL 15)) (.reg (XL 2)),
  PANDw (.reg (XH 15)) (.reg (XH 2)),
  PXORw (.reg (XL 2)) (.reg (XL 0)),
  PXORw (.reg (XH 2)) (.reg (XH 0)),
  PXORw (.reg (XL 2)) (.reg (XL 1)),
  PXORw (.reg (XH 2)) (.reg (XH 1)),
  MOVQ (.reg (XL 0)) (.mem DI 2),
  MOVQ (.reg (XH 0)) (.mem DI 3),
  MOVQ (.reg (XL 1)) (.mem SI 2),
  MOVQ (.reg (XH 1)) (.mem SI 3),
  -- dh/csidh/fp511_amd64.s:108
  MOVQ (.mem DI 4) (.reg (XL 0)),
  MOVQ (.mem DI 5) (.reg (XH 0)),
  MOVQ (.mem SI 4) (.reg (XL 1)),
  MOVQ (.mem SI 5) (.reg (XH 1)),
  MOVQ (.reg (XL 1)) (.reg (XL 2)),
  MOVQ (.reg (XH 1)) (.reg (XH 2)),
  PXORw (.reg (XL 0)) (.reg (XL 2)),
  PXORw (.reg (XH 0)) (.reg (XH 2)),
  PANDw (.reg (XL 15)) (.reg (XL 2)),
  PANDw (.reg (XH 15)) (.reg (XH 2)),
  PXORw (.reg (XL 2)) (.reg (XL 0)),
  PXORw (.reg (XH 2)) (.reg (XH 0)),
  PXORw (.reg (XL 2)) (.reg (XL 1)),
  PXORw (.reg (XH 2)) (.reg (XH 1)),
  MOVQ (.reg (XL 0)) (.mem DI 4),
  MOVQ (.reg (XH 0)) (.mem DI 5),
  MOVQ (.reg (XL 1)) (.mem SI 4),
  MOVQ (.reg (XH 1)) (.mem SI 5),
  -- dh/csidh/fp511_amd64.s:109
  MOVQ (.mem DI 6) (.reg (XL 0)),
  MOVQ (.mem DI 7) (.reg (XH 0)),
  MOVQ (.mem SI 6) (.reg (XL 1)),
  MOVQ (.mem SI 7) (.reg (XH 1)),
  MOVQ (.reg (XL 1)) (.reg (XL 2)),
  MOVQ (.reg (XH 1)) (.reg (XH 2)),
  PXORw (.reg (XL 0)) (.reg (XL 2)),
  PXORw (.reg (XH 0)) (.reg (XH 2)),
  PANDw (.reg (XL 15)) (.reg (XL 2)),
  PANDw (.reg (XH 15)) (.reg (XH 2)),
  PXORw (.reg (XL 2)) (.reg (XL 0)),
  PXORw (.reg (XH 2)) (.reg (XH 0)),
  PXORw (.reg (XL 2)) (.reg (XL 1)),
  PXORw (.reg (XH 2)) (.reg (XH 1)),
  MOVQ (.reg (XL 0)) (.mem DI 6),
  MOVQ (.reg (XH 0)) (.mem DI 7),
  MOVQ (.reg (XL 1)) (.mem SI 6),
  MOVQ (.reg (XH 1)) (.mem SI 7)
  ]

def cswap512 : Routine := { code := cswap512Code, frame := 0, glob := [] }

/-- dh/sidh/internal/p434/arith_amd64.s:369-396 `cswapP434` -/
def cswapP434Code : List Instr := [
  -- dh/sidh/internal/p434/arith_amd64.s:369
  MOVQ (.mem FP 0) (.reg DI),
  -- dh/sidh/internal/p434/arith_amd64.s:370
  MOVQ (.mem FP 1) (.reg SI),
  -- dh/sidh/internal/p434/arith_amd64.s:371
  MOVB (.mem FP 2) (.reg AX),
  -- dh/sidh/internal/p434/arith_amd64.s:372
  MOVBLZX (.reg AX) (.reg AX),
  -- dh/sidh/internal/p434/arith_amd64.s:373
  NEGQ (.reg AX),
  -- dh/sidh/internal/p434/arith_amd64.s:386
  MOVQ (.mem DI 0) (.reg BX),
  MOVQ (.mem SI 0) (.reg CX),
  MOVQ (.reg CX) (.reg DX),
  XORQ (.reg BX) (.reg DX),
  ANDQ (.reg AX) (.reg DX),
  XORQ (.reg DX) (.reg BX),
  XORQ (.reg DX) (.reg CX),
  MOVQ (.reg BX) (.mem DI 0),
  MOVQ (.reg CX) (.mem SI 0),
  -- dh/sidh/internal/p434/arith_amd64.s:387
  MOVQ (.mem DI 1) (.reg BX),
  MOVQ (.mem SI 1) (.reg CX),
  MOVQ (.reg CX) (.reg DX),
  XORQ (.reg BX) (.reg DX),
  ANDQ (.reg AX) (.reg DX),
  XORQ (.reg DX) (.reg BX),
  XORQ (.reg DX) (.reg CX),
  MOVQ (.reg BX) (.mem DI 1),
  MOVQ (.reg CX) (.mem SI 1),
  -- dh/sidh/internal/p434/arith_amd64.s:388
  MOVQ (.mem DI 2) (.reg BX),
  MOVQ (.mem SI 2) (.reg CX),
  MOVQ (.reg CX) (.reg DX),
  XORQ (.reg BX) (.reg DX),
  ANDQ (.reg AX) (.reg DX),
  XORQ (.reg DX) (.reg BX),
  XORQ (.reg DX) (.reg CX),
  MOVQ (.reg BX) (.mem DI 2),
  MOVQ (.reg CX) (.mem SI 2),
  -- dh/sidh/internal/p434/arith_amd64.s:389
  MOVQ (.mem DI 3) (.reg BX),
  MOVQ (.mem SI 3) (.reg CX),
  MOVQ (.reg CX) (.reg DX),
  XORQ (.reg BX) (.reg DX),
  ANDQ (.reg AX) (.reg DX),
  XORQ (.reg DX) (.reg BX),
  XORQ (.reg DX) (.reg CX),
  MOVQ (.reg BX) (.mem DI 3),
  MOVQ (.reg CX) (.mem SI 3),
  -- dh/sidh/internal/p434/arith_amd64.s:390
  MOVQ (.mem DI 4) (.reg BX),
  MOVQ (.mem SI 4) (.reg CX),
  MOVQ (.reg CX) (.reg DX),
  XORQ (.reg BX) (.reg DX),
  ANDQ (.reg AX) (.reg DX),
  XORQ (.reg DX) (.reg BX),
  XORQ (.reg DX) (.reg CX),
  MOVQ (.reg BX) (.mem DI 4),
  MOVQ (.reg CX) (.mem SI 4),
  -- dh/sidh/internal/p434/arith_amd64.s:391
  MOVQ (.mem DI 5) (.reg BX),
  MOVQ (.mem SI 5) (.reg CX),
  MOVQ (.reg CX) (.reg DX),
  XORQ (.reg BX) (.reg DX),
  ANDQ (.reg AX) (.reg DX),
  XORQ (.reg DX) (.reg BX),
  XORQ (.reg DX) (.reg CX),
  MOVQ (.reg BX) (.mem DI 5),
  MOVQ (.reg CX) (.mem SI 5),
  -- dh/sidh/internal/p434/arith_amd64.s:392
  MOVQ (.mem DI 6) (.reg BX),
  MOVQ (.mem SI 6) (.reg CX),
  MOVQ (.reg CX) (.reg DX),
  XORQ (.reg BX) (.reg DX),
  ANDQ (.reg AX) (.reg DX),
  XORQ (.reg DX) (.reg BX),
  XORQ (.reg DX) (.reg CX),
  MOVQ (.reg BX) (.mem DI 6),
  MOVQ (.reg CX) (.mem SI 6)
  ]

def cswapP434 : Routine := { code := cswapP434Code, frame := 0, glob := [] }

/-- dh/sidh/internal/p503/arith_amd64.s:513-545 `cswapP503` -/
def cswapP503Code : List Instr := [
  -- dh/sidh/internal/p503/arith_amd64.s:513
  MOVQ (.mem FP 0) (.reg DI),
  -- dh/sidh/internal/p503/arith_amd64.s:514
  MOVQ (.mem FP 1) (.reg SI),
  -- dh/sidh/internal/p503/arith_amd64.s:515
  MOVB (.mem FP 2) (.reg AX),
  -- dh/sidh/internal/p503/arith_amd64.s:516
  MOVBLZX (.reg AX) (.reg AX),
  -- dh/sidh/internal/p503/arith_amd64.s:517
  NEGQ (.reg AX),
  -- dh/sidh/internal/p503/arith_amd64.s:532
  MOVQ (.mem DI 0) (.reg BX),
  MOVQ (.mem SI 0) (.reg CX),
  MOVQ (.reg CX) (.reg DX),
  XORQ (.reg BX) (.reg DX),
  ANDQ (.reg AX) (.reg DX),
  XORQ (.reg DX) (.reg BX),
  XORQ (.reg DX) (.reg CX),
  MOVQ (.reg BX) (.mem DI 0),
  MOVQ (.reg CX) (.mem SI 0),
  -- dh/sidh/internal/p503/arith_amd64.s:533
  MOVQ (.mem DI 1) (.reg BX),
  MOVQ (.mem SI 1) (.reg CX),
  MOVQ (.reg CX) (.reg DX),
  XORQ (.reg BX) (.reg DX),
  ANDQ (.reg AX) (.reg DX),
  XORQ (.reg DX) (.reg BX),
  XORQ (.reg DX) (.reg CX),
  MOVQ (.reg BX) (.mem DI 1),
  MOVQ (.reg CX) (.mem SI 1),
  -- dh/sidh/internal/p503/arith_amd64.s:534
  MOVQ (.mem DI 2) (.reg BX),
  MOVQ (.mem SI 2) (.reg CX),
  MOVQ (.reg CX) (.reg DX),
  XORQ (.reg BX) (.reg DX),
  ANDQ (.reg AX) (.reg DX),
  XORQ (.reg DX) (.reg BX),
  XORQ (.reg DX) (.reg CX),
  MOVQ (.reg BX) (.mem DI 2),
  MOVQ (.reg CX) (.mem SI 2),
  -- dh/sidh/internal/p503/arith_amd64.s:535
  MOVQ (.mem DI 3) (.reg BX),
  MOVQ (.mem SI 3) (.reg CX),
  MOVQ (.reg CX) (.reg DX),
  XORQ (.reg BX) (.reg DX),
  ANDQ (.reg AX) (.reg DX),
  XORQ (.reg DX) (.reg BX),
  XORQ (.reg DX) (.reg CX),
  MOVQ (.reg BX) (.mem DI 3),
  MOVQ (.reg CX) (.mem SI 3),
  -- dh/sidh/internal/p503/arith_amd64.s:536
  MOVQ (.mem DI 4) (.reg BX),
  MOVQ (.mem SI 4) (.reg CX),
  MOVQ (.reg CX) (.reg DX),
  XORQ (.reg BX) (.reg DX),
  ANDQ (.reg AX) (.reg DX),
  XORQ (.reg DX) (.reg BX),
  XORQ (.reg DX) (.reg CX),
  MOVQ (.reg BX) (.mem DI 4),
  MOVQ (.reg CX) (.mem SI 4),
  -- dh/sidh/internal/p503/arith_amd64.s:537
  MOVQ (.mem DI 5) (.reg BX),
  MOVQ (.mem SI 5) (.reg CX),
  MOVQ (.reg CX) (.reg DX),
  XORQ (.reg BX) (.reg DX),
  ANDQ (.reg AX) (.reg DX),
  XORQ (.reg DX) (.reg BX),
  XORQ (.reg DX) (.reg CX),
  MOVQ (.reg BX) (.mem DI 5),
  MOVQ (.reg CX) (.mem SI 5),
  -- dh/sidh/internal/p503/arith_amd64.s:538
  MOVQ (.mem DI 6) (.reg BX),
  MOVQ (.mem SI 6) (.reg CX),
  MOVQ (.reg CX) (.reg DX),
  XORQ (.reg BX) (.reg DX),
  ANDQ (.reg AX) (.reg DX),
  XORQ (.reg DX) (.reg BX),
  XORQ (.reg DX) (.reg CX),
  MOVQ (.reg BX) (.mem DI 6),
  MOVQ (.reg CX) (.mem SI 6),
  -- dh/sidh/internal/p503/arith_amd64.s:539
  MOVQ (.mem DI 7) (.reg BX),
  MOVQ (.mem SI 7) (.reg CX),
  MOVQ (.reg CX) (.reg DX),
  XORQ (.reg BX) (.reg DX),
  ANDQ (.reg AX) (.reg DX),
  XORQ (.reg DX) (.reg BX),
  XORQ (.reg DX) (.reg CX),
  MOVQ (.reg BX) (.mem DI 7),
  MOVQ (.reg CX) (.mem SI 7)
  ]

def cswapP503 : Routine := { code := cswapP503Code, frame := 0, glob := [] }

/-- dh/sidh/internal/p751/arith_amd64.s:103-229 `cswapP751` -/
def cswapP751Code : List Instr := [
  -- dh/sidh/internal/p751/arith_amd64.s:103
  MOVQ (.mem FP 0) (.reg DI),
  -- dh/sidh/internal/p751/arith_amd64.s:104
  MOVQ (.mem FP 1) (.reg SI),
  -- dh/sidh/internal/p751/arith_amd64.s:105
  MOVB (.mem FP 2) (.reg AX),
  -- dh/sidh/internal/p751/arith_amd64.s:106
  MOVBLZX (.reg AX) (.reg AX),
  -- dh/sidh/internal/p751/arith_amd64.s:107
  NEGQ (.reg AX),
  -- dh/sidh/internal/p751/arith_amd64.s:109
  MOVQ (.mem DI 0) (.reg BX),
  -- dh/sidh/internal/p751/arith_amd64.s:110
  MOVQ (.mem SI 0) (.reg CX),
  -- dh/sidh/internal/p751/arith_amd64.s:111
  MOVQ (.reg CX) (.reg DX),
  -- dh/sidh/internal/p751/arith_amd64.s:112
  XORQ (.reg BX) (.reg DX),
  -- dh/sidh/internal/p751/arith_amd64.s:113
  ANDQ (.reg AX) (.reg DX),
  -- dh/sidh/internal/p751/arith_amd64.s:114
  XORQ (.reg DX) (.reg BX),
  -- dh/sidh/internal/p751/arith_amd64.s:115
  XORQ (.reg DX) (.reg CX),
  -- dh/sidh/internal/p751/arith_amd64.s:116
  MOVQ (.reg BX) (.mem DI 0),
  -- dh/sidh/internal/p751/arith_amd64.s:117
  MOVQ (.reg CX) (.mem SI 0),
  -- dh/sidh/internal/p751/arith_amd64.s:119
  MOVQ (.mem DI 1) (.reg BX),
  -- dh/sidh/internal/p751/arith_amd64.s:120
  MOVQ (.mem SI 1) (.reg CX),
  -- dh/sidh/internal/p751/arith_amd64.s:121
  MOVQ (.reg CX) (.reg DX),
  -- dh/sidh/internal/p751/arith_amd64.s:122
  XORQ (.reg BX) (.reg DX),
  -- dh/sidh/internal/p751/arith_amd64.s:123
  ANDQ (.reg AX) (.reg DX),
  -- dh/sidh/internal/p751/arith_amd64.s:124
  XORQ (.reg DX) (.reg BX),
  -- dh/sidh/internal/p751/arith_amd64.s:125
  XORQ (.reg DX) (.reg CX),
  -- dh/sidh/internal/p751/arith_amd64.s:126
  MOVQ (.reg BX) (.mem DI 1),
  -- dh/sidh/internal/p751/arith_amd64.s:127
  MOVQ (.reg CX) (.mem SI 1),
  -- dh/sidh/internal/p751/arith_amd64.s:129
  MOVQ (.mem DI 2) (.reg BX),
  -- dh/sidh/internal/p751/arith_amd64.s:130
  MOVQ (.mem SI 2) (.reg CX),
  -- dh/sidh/internal/p751/arith_amd64.s:131
  MOVQ (.reg CX) (.reg DX),
  -- dh/sidh/internal/p751/arith_amd64.s:132
  XORQ (.reg BX) (.reg DX),
  -- dh/sidh/internal/p751/arith_amd64.s:133
  ANDQ (.reg AX) (.reg DX),
  -- dh/sidh/internal/p751/arith_amd64.s:134
  XORQ (.reg DX) (.reg BX),
  -- dh/sidh/internal/p751/arith_amd64.s:135
  XORQ (.reg DX) (.reg CX),
  -- dh/sidh/internal/p751/arith_amd64.s:136
  MOVQ (.reg BX) (.mem DI 2),
  -- dh/sidh/internal/p751/arith_amd64.s:137
  MOVQ (.reg CX) (.mem SI 2),
  -- dh/sidh/internal/p751/arith_amd64.s:139
  MOVQ (.mem DI 3) (.reg BX),
  -- dh/sidh/internal/p751/arith_amd64.s:140
  MOVQ (.mem SI 3) (.reg CX),
  -- dh/sidh/internal/p751/arith_amd64.s:141
  MOVQ (.reg CX) (.reg DX),
  -- dh/sidh/internal/p751/arith_amd64.s:142
  XORQ (.reg BX) (.reg DX),
  -- dh/sidh/internal/p751/arith_amd64.s:143
  ANDQ (.reg AX) (.reg DX),
  -- dh/sidh/internal/p751/arith_amd64.s:144
  XORQ (.reg DX) (.reg BX),
  -- dh/sidh/internal/p751/arith_amd64.s:145
  XORQ (.reg DX) (.reg CX),
  -- dh/sidh/internal/p751/arith_amd64.s:146
  MOVQ (.reg BX) (.mem DI 3),
  -- dh/sidh/internal/p751/arith_amd64.s:147
  MOVQ (.reg CX) (.mem SI 3),
  -- dh/sidh/internal/p751/arith_amd64.s:149
  MOVQ (.mem DI 4) (.reg BX),
  -- dh/sidh/internal/p751/arith_amd64.s:150
  MOVQ (.mem SI 4) (.reg CX),
  -- dh/sidh/internal/p751/arith_amd64.s:151
  MOVQ (.reg CX) (.reg DX),
  -- dh/sidh/internal/p751/arith_amd64.s:152
  XORQ (.reg BX) (.reg DX),
  -- dh/sidh/internal/p751/arith_amd64.s:153
  ANDQ (.reg AX) (.reg DX),
  -- dh/sidh/internal/p751/arith_amd64.s:154
  XORQ (.reg DX) (.reg BX),
  -- dh/sidh/internal/p751/arith_amd64.s:155
  XORQ (.reg DX) (.reg CX),
  -- dh/sidh/internal/p751/arith_amd64.s:156
  MOVQ (.reg BX) (.mem DI 4),
  -- dh/sidh/internal/p751/arith_amd64.s:157
  MOVQ (.reg CX) (.mem SI 4),
  -- dh/sidh/internal/p751/arith_amd64.s:159
  MOVQ (.mem DI 5) (.reg BX),
  -- dh/sidh/internal/p751/arith_amd64.s:160
  MOVQ (.mem SI 5) (.reg CX),
  -- dh/sidh/internal/p751/arith_amd64.s:161
  MOVQ (.reg CX) (.reg DX),
  -- dh/sidh/internal/p751/arith_amd64.s:162
  XORQ (.reg BX) (.reg DX),
  -- dh/sidh/internal/p751/arith_amd64.s:163
  ANDQ (.reg AX) (.reg DX),
  -- dh/sidh/internal/p751/arith_amd64.s:164
  XORQ (.reg DX) (.reg BX),
  -- dh/sidh/internal/p751/arith_amd64.s:165
  XORQ (.reg DX) (.reg CX),
  -- dh/sidh/internal/p751/arith_amd64.s:166
  MOVQ (.reg BX) (.mem DI 5),
  -- dh/sidh/internal/p751/arith_amd64.s:167
  MOVQ (.reg CX) (.mem SI 5),
  -- dh/sidh/internal/p751/arith_amd64.s:169
  MOVQ (.mem DI 6) (.reg BX),
  -- dh/sidh/internal/p751/arith_amd64.s:170
  MOVQ (.mem SI 6) (.reg CX),
  -- dh/sidh/internal/p751/arith_amd64.s:171
  MOVQ (.reg CX) (.reg DX),
  -- dh/sidh/internal/p751/arith_amd64.s:172
  XORQ (.reg BX) (.reg DX),
  -- dh/sidh/internal/p751/arith_amd64.s:173
  ANDQ (.reg AX) (.reg DX),
  -- dh/sidh/internal/p751/arith_amd64.s:174
  XORQ (.reg DX) (.reg BX),
  -- dh/sidh/internal/p751/arith_amd64.s:175
  XORQ (.reg DX) (.reg CX),
  -- dh/sidh/internal/p751/arith_amd64.s:176
  MOVQ (.reg BX) (.mem DI 6),
  -- dh/sidh/internal/p751/arith_amd64.s:177
  MOVQ (.reg CX) (.mem SI 6),
  -- dh/sidh/internal/p751/arith_amd64.s:179
  MOVQ (.mem DI 7) (.reg BX),
  -- dh/sidh/internal/p751/arith_amd64.s:180
  MOVQ (.mem SI 7) (.reg CX),
  -- dh/sidh/internal/p751/arith_amd64.s:181
  MOVQ (.reg CX) (.reg DX),
  -- dh/sidh/internal/p751/arith_amd64.s:182
  XORQ (.reg BX) (.reg DX),
  -- dh/sidh/internal/p751/arith_amd64.s:183
  ANDQ (.reg AX) (.reg DX),
  -- dh/sidh/internal/p751/arith_amd64.s:184
  XORQ (.reg DX) (.reg BX),
  -- dh/sidh/internal/p751/arith_amd64.s:185
  XORQ (.reg DX) (.reg CX),
  -- dh/sidh/internal/p751/arith_amd64.s:186
  MOVQ (.reg BX) (.mem DI 7),
  -- dh/sidh/internal/p751/arith_amd64.s:187
  MOVQ (.reg CX) (.mem SI 7),
  -- dh/sidh/internal/p751/arith_amd64.s:189
  MOVQ (.mem DI 8) (.reg BX),
  -- dh/sidh/internal/p751/arith_amd64.s:190
  MOVQ (.mem SI 8) (.reg CX),
  -- dh/sidh/internal/p751/arith_amd64.s:191
  MOVQ (.reg CX) (.reg DX),
  -- dh/sidh/internal/p751/arith_amd64.s:192
  XORQ (.reg BX) (.reg DX),
  -- dh/sidh/internal/p751/arith_amd64.s:193
  ANDQ (.reg AX) (.reg DX),
  -- dh/sidh/internal/p751/arith_amd64.s:194
  XORQ (.reg DX) (.reg BX),
  -- dh/sidh/internal/p751/arith_amd64.s:195
  XORQ (.reg DX) (.reg CX),
  -- dh/sidh/internal/p751/arith_amd64.s:196
  MOVQ (.reg BX) (.mem DI 8),
  -- dh/sidh/internal/p751/arith_amd64.s:197
  MOVQ (.reg CX) (.mem SI 8),
  -- dh/sidh/internal/p751/arith_amd64.s:199
  MOVQ (.mem DI 9) (.reg BX),
  -- dh/sidh/internal/p751/arith_amd64.s:200
  MOVQ (.mem SI 9) (.reg CX),
  -- dh/sidh/internal/p751/arith_amd64.s:201
  MOVQ (.reg CX) (.reg DX),
  -- dh/sidh/internal/p751/arith_amd64.s:202
  XORQ (.reg BX) (.reg DX),
  -- dh/sidh/internal/p751/arith_amd64.s:203
  ANDQ (.reg AX) (.reg DX),
  -- dh/sidh/internal/p751/arith_amd64.s:204
  XORQ (.reg DX) (.reg BX),
  -- dh/sidh/internal/p751/arith_amd64.s:205
  XORQ (.reg DX) (.reg CX),
  -- dh/sidh/internal/p751/arith_amd64.s:206
  MOVQ (.reg BX) (.mem DI 9),
  -- dh/sidh/internal/p751/arith_amd64.s:207
  MOVQ (.reg CX) (.mem SI 9),
  -- dh/sidh/internal/p751/arith_amd64.s:209
  MOVQ (.mem DI 10) (.reg BX),
  -- dh/sidh/internal/p751/arith_amd64.s:210
  MOVQ (.mem SI 10) (.reg CX),
  -- dh/sidh/internal/p751/arith_amd64.s:211
  MOVQ (.reg CX) (.reg DX),
  -- dh/sidh/internal/p751/arith_amd64.s:212
  XORQ (.reg BX) (.reg DX),
  -- dh/sidh/internal/p751/arith_amd64.s:213
  ANDQ (.reg AX) (.reg DX),
  -- dh/sidh/internal/p751/arith_amd64.s:214
  XORQ (.reg DX) (.reg BX),
  -- dh/sidh/internal/p751/arith_amd64.s:215
  XORQ (.reg DX) (.reg CX),
  -- dh/sidh/internal/p751/arith_amd64.s:216
  MOVQ (.reg BX) (.mem DI 10),
  -- dh/sidh/internal/p751/arith_amd64.s:217
  MOVQ (.reg CX) (.mem SI 10),
  -- dh/sidh/internal/p751/arith_amd64.s:219
  MOVQ (.mem DI 11) (.reg BX),
  -- dh/sidh/internal/p751/arith_amd64.s:220
  MOVQ (.mem SI 11) (.reg CX),
  -- dh/sidh/internal/p751/arith_amd64.s:221
  MOVQ (.reg CX) (.reg DX),
  -- dh/sidh/internal/p751/arith_amd64.s:222
  XORQ (.reg BX) (.reg DX),
  -- dh/sidh/internal/p751/arith_amd64.s:223
  ANDQ (.reg AX) (.reg DX),
  -- dh/sidh/internal/p751/arith_amd64.s:224
  XORQ (.reg DX) (.reg BX),
  -- dh/sidh/internal/p751/arith_amd64.s:225
  XORQ (.reg DX) (.reg CX),
  -- dh/sidh/internal/p751/arith_amd64.s:226
  MOVQ (.reg BX) (.mem DI 11),
  -- dh/sidh/internal/p751/arith_amd64.s:227
  MOVQ (.reg CX) (.mem SI 11)
  ]

def cswapP751 : Routine := { code := cswapP751Code, frame := 0, glob := [] }

end Model.AsmCsidh
