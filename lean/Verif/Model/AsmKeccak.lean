import Verif.Model.Asm
/-
hash/sha3/keccakf_amd64.s: the macro mKeccakRound as a function of its arguments, and the routine as its uses.
Printed by gen/asmgen_keccak.py; each comment gives the line of /repo the instructions below it come from.
-/
namespace Model.AsmKeccak
open Model Model.Asm

/-- hash/sha3/keccakf_amd64.s:62 -/
def MOVQ_RBI_RCE : List Instr := [MOVQ (.reg R12) (.reg BP)]
/-- hash/sha3/keccakf_amd64.s:63 -/
def XORQ_RT1_RCA : List Instr := [XORQ (.reg AX) (.reg SI)]
/-- hash/sha3/keccakf_amd64.s:64 -/
def XORQ_RT1_RCE : List Instr := [XORQ (.reg AX) (.reg BP)]
/-- hash/sha3/keccakf_amd64.s:65 -/
def XORQ_RBA_RCU : List Instr := [XORQ (.reg R10) (.reg R15)]
/-- hash/sha3/keccakf_amd64.s:66 -/
def XORQ_RBE_RCU : List Instr := [XORQ (.reg R11) (.reg R15)]
/-- hash/sha3/keccakf_amd64.s:67 -/
def XORQ_RDU_RCU : List Instr := [XORQ (.reg R9) (.reg R15)]
/-- hash/sha3/keccakf_amd64.s:68 -/
def XORQ_RDA_RCA : List Instr := [XORQ (.reg BX) (.reg SI)]
/-- hash/sha3/keccakf_amd64.s:69 -/
def XORQ_RDE_RCE : List Instr := [XORQ (.reg CX) (.reg BP)]

/-- hash/sha3/keccakf_amd64.s:73-117: the part of the macro before the round constant -/
def mKeccakRound1 (iState : Nat) : List Instr :=
  -- hash/sha3/keccakf_amd64.s:73
  [ MOVQ (.reg BP) (.reg BX),
    ROLQ 1 (.reg BX),
    MOVQ (.mem iState 2) (.reg R12),
    XORQ (.mem iState 7) (.reg DX),
    XORQ (.reg R15) (.reg BX),
    XORQ (.mem iState 12) (.reg R12),
    XORQ (.mem iState 17) (.reg DX),
    XORQ (.reg DX) (.reg R12),
    MOVQ (.reg R12) (.reg CX),
    ROLQ 1 (.reg CX),
    MOVQ (.mem iState 3) (.reg R13),
    XORQ (.mem iState 8) (.reg R8),
    XORQ (.reg SI) (.reg CX),
    XORQ (.mem iState 13) (.reg R13),
    XORQ (.mem iState 18) (.reg R8),
    XORQ (.reg R8) (.reg R13),
    MOVQ (.reg R13) (.reg DX),
    ROLQ 1 (.reg DX),
    MOVQ (.reg R15) (.reg R8),
    XORQ (.reg BP) (.reg DX),
    ROLQ 1 (.reg R8),
    MOVQ (.reg SI) (.reg R9),
    XORQ (.reg R12) (.reg R8),
    ROLQ 1 (.reg R9),
    MOVQ (.mem iState 0) (.reg R10),
    MOVQ (.mem iState 6) (.reg R11),
    XORQ (.reg R13) (.reg R9),
    MOVQ (.mem iState 12) (.reg R12),
    MOVQ (.mem iState 18) (.reg R13),
    MOVQ (.mem iState 24) (.reg R14),
    XORQ (.reg CX) (.reg R11),
    ROLQ 44 (.reg R11),
    XORQ (.reg DX) (.reg R12),
    XORQ (.reg BX) (.reg R10),
    ROLQ 43 (.reg R12),
    MOVQ (.reg R11) (.reg SI) ]

/-- hash/sha3/keccakf_amd64.s:119-320: the part after it -/
def mKeccakRound2 (iState oState : Nat)
    (B_RBI_RCE G_RT1_RCA G_RT1_RCE G_RBA_RCU K_RT1_RCA K_RT1_RCE K_RBA_RCU M_RT1_RCA M_RT1_RCE M_RBE_RCU S_RDU_RCU S_RDA_RCA S_RDE_RCE : List Instr) : List Instr :=
  -- hash/sha3/keccakf_amd64.s:119
  [ ORQ (.reg R12) (.reg SI),
    XORQ (.reg R10) (.reg AX),
    XORQ (.reg AX) (.reg SI),
    MOVQ (.reg SI) (.mem oState 0),
    XORQ (.reg R9) (.reg R14),
    ROLQ 14 (.reg R14),
    MOVQ (.reg R10) (.reg R15),
    ANDQ (.reg R11) (.reg R15),
    XORQ (.reg R14) (.reg R15),
    MOVQ (.reg R15) (.mem oState 4),
    XORQ (.reg R8) (.reg R13),
    ROLQ 21 (.reg R13),
    MOVQ (.reg R13) (.reg AX),
    ANDQ (.reg R14) (.reg AX),
    XORQ (.reg R12) (.reg AX),
    MOVQ (.reg AX) (.mem oState 2),
    NOTQ (.reg R12),
    ORQ (.reg R10) (.reg R14),
    ORQ (.reg R13) (.reg R12),
    XORQ (.reg R13) (.reg R14),
    XORQ (.reg R11) (.reg R12),
    MOVQ (.reg R14) (.mem oState 3),
    MOVQ (.reg R12) (.mem oState 1) ] ++
  B_RBI_RCE ++
  -- hash/sha3/keccakf_amd64.s:148
  [ MOVQ (.mem iState 9) (.reg R11),
    XORQ (.reg R9) (.reg R11),
    MOVQ (.mem iState 10) (.reg R12),
    ROLQ 20 (.reg R11),
    XORQ (.reg BX) (.reg R12),
    ROLQ 3 (.reg R12),
    MOVQ (.mem iState 3) (.reg R10),
    MOVQ (.reg R11) (.reg AX),
    ORQ (.reg R12) (.reg AX),
    XORQ (.reg R8) (.reg R10),
    MOVQ (.mem iState 16) (.reg R13),
    MOVQ (.mem iState 22) (.reg R14),
    ROLQ 28 (.reg R10),
    XORQ (.reg R10) (.reg AX),
    MOVQ (.reg AX) (.mem oState 5) ] ++
  G_RT1_RCA ++
  -- hash/sha3/keccakf_amd64.s:165
  [ XORQ (.reg CX) (.reg R13),
    ROLQ 45 (.reg R13),
    MOVQ (.reg R12) (.reg AX),
    ANDQ (.reg R13) (.reg AX),
    XORQ (.reg R11) (.reg AX),
    MOVQ (.reg AX) (.mem oState 6) ] ++
  G_RT1_RCE ++
  -- hash/sha3/keccakf_amd64.s:173
  [ XORQ (.reg DX) (.reg R14),
    ROLQ 61 (.reg R14),
    MOVQ (.reg R14) (.reg AX),
    ORQ (.reg R10) (.reg AX),
    XORQ (.reg R13) (.reg AX),
    MOVQ (.reg AX) (.mem oState 8),
    ANDQ (.reg R11) (.reg R10),
    XORQ (.reg R14) (.reg R10),
    MOVQ (.reg R10) (.mem oState 9),
    NOTQ (.reg R14) ] ++
  G_RBA_RCU ++
  -- hash/sha3/keccakf_amd64.s:186
  [ ORQ (.reg R14) (.reg R13),
    XORQ (.reg R12) (.reg R13),
    MOVQ (.reg R13) (.mem oState 7),
    MOVQ (.mem iState 1) (.reg R10),
    MOVQ (.mem iState 7) (.reg R11),
    MOVQ (.mem iState 13) (.reg R12),
    MOVQ (.mem iState 19) (.reg R13),
    MOVQ (.mem iState 20) (.reg R14),
    XORQ (.reg DX) (.reg R11),
    ROLQ 6 (.reg R11),
    XORQ (.reg R8) (.reg R12),
    ROLQ 25 (.reg R12),
    MOVQ (.reg R11) (.reg AX),
    ORQ (.reg R12) (.reg AX),
    XORQ (.reg CX) (.reg R10),
    ROLQ 1 (.reg R10),
    XORQ (.reg R10) (.reg AX),
    MOVQ (.reg AX) (.mem oState 10) ] ++
  K_RT1_RCA ++
  -- hash/sha3/keccakf_amd64.s:208
  [ XORQ (.reg R9) (.reg R13),
    ROLQ 8 (.reg R13),
    MOVQ (.reg R12) (.reg AX),
    ANDQ (.reg R13) (.reg AX),
    XORQ (.reg R11) (.reg AX),
    MOVQ (.reg AX) (.mem oState 11) ] ++
  K_RT1_RCE ++
  -- hash/sha3/keccakf_amd64.s:216
  [ XORQ (.reg BX) (.reg R14),
    ROLQ 18 (.reg R14),
    NOTQ (.reg R13),
    MOVQ (.reg R13) (.reg AX),
    ANDQ (.reg R14) (.reg AX),
    XORQ (.reg R12) (.reg AX),
    MOVQ (.reg AX) (.mem oState 12),
    MOVQ (.reg R14) (.reg AX),
    ORQ (.reg R10) (.reg AX),
    XORQ (.reg R13) (.reg AX),
    MOVQ (.reg AX) (.mem oState 13),
    ANDQ (.reg R11) (.reg R10),
    XORQ (.reg R14) (.reg R10),
    MOVQ (.reg R10) (.mem oState 14) ] ++
  K_RBA_RCU ++
  -- hash/sha3/keccakf_amd64.s:235
  [ MOVQ (.mem iState 5) (.reg R11),
    XORQ (.reg BX) (.reg R11),
    MOVQ (.mem iState 11) (.reg R12),
    ROLQ 36 (.reg R11),
    XORQ (.reg CX) (.reg R12),
    MOVQ (.mem iState 4) (.reg R10),
    ROLQ 10 (.reg R12),
    MOVQ (.reg R11) (.reg AX),
    MOVQ (.mem iState 17) (.reg R13),
    ANDQ (.reg R12) (.reg AX),
    XORQ (.reg R9) (.reg R10),
    MOVQ (.mem iState 23) (.reg R14),
    ROLQ 27 (.reg R10),
    XORQ (.reg R10) (.reg AX),
    MOVQ (.reg AX) (.mem oState 15) ] ++
  M_RT1_RCA ++
  -- hash/sha3/keccakf_amd64.s:252
  [ XORQ (.reg DX) (.reg R13),
    ROLQ 15 (.reg R13),
    MOVQ (.reg R12) (.reg AX),
    ORQ (.reg R13) (.reg AX),
    XORQ (.reg R11) (.reg AX),
    MOVQ (.reg AX) (.mem oState 16) ] ++
  M_RT1_RCE ++
  -- hash/sha3/keccakf_amd64.s:260
  [ XORQ (.reg R8) (.reg R14),
    ROLQ 56 (.reg R14),
    NOTQ (.reg R13),
    MOVQ (.reg R13) (.reg AX),
    ORQ (.reg R14) (.reg AX),
    XORQ (.reg R12) (.reg AX),
    MOVQ (.reg AX) (.mem oState 17),
    ORQ (.reg R10) (.reg R11),
    XORQ (.reg R14) (.reg R11),
    MOVQ (.reg R11) (.mem oState 19),
    ANDQ (.reg R10) (.reg R14),
    XORQ (.reg R13) (.reg R14),
    MOVQ (.reg R14) (.mem oState 18) ] ++
  M_RBE_RCU ++
  -- hash/sha3/keccakf_amd64.s:278
  [ MOVQ (.mem iState 2) (.reg R10),
    MOVQ (.mem iState 8) (.reg R11),
    MOVQ (.mem iState 14) (.reg R12),
    XORQ (.reg DX) (.reg R10),
    MOVQ (.mem iState 15) (.reg R13),
    ROLQ 62 (.reg R10),
    XORQ (.reg R8) (.reg R11),
    MOVQ (.mem iState 21) (.reg R14),
    ROLQ 55 (.reg R11),
    XORQ (.reg R9) (.reg R12),
    MOVQ (.reg R10) (.reg R9),
    XORQ (.reg CX) (.reg R14),
    ROLQ 2 (.reg R14),
    ANDQ (.reg R11) (.reg R9),
    XORQ (.reg R14) (.reg R9),
    MOVQ (.reg R9) (.mem oState 24),
    ROLQ 39 (.reg R12) ] ++
  S_RDU_RCU ++
  -- hash/sha3/keccakf_amd64.s:298
  [ NOTQ (.reg R11),
    XORQ (.reg BX) (.reg R13),
    MOVQ (.reg R11) (.reg BX),
    ANDQ (.reg R12) (.reg BX),
    XORQ (.reg R10) (.reg BX),
    MOVQ (.reg BX) (.mem oState 20) ] ++
  S_RDA_RCA ++
  -- hash/sha3/keccakf_amd64.s:306
  [ ROLQ 41 (.reg R13),
    MOVQ (.reg R12) (.reg CX),
    ORQ (.reg R13) (.reg CX),
    XORQ (.reg R11) (.reg CX),
    MOVQ (.reg CX) (.mem oState 21) ] ++
  S_RDE_RCE ++
  -- hash/sha3/keccakf_amd64.s:313
  [ MOVQ (.reg R13) (.reg DX),
    MOVQ (.reg R14) (.reg R8),
    ANDQ (.reg R14) (.reg DX),
    ORQ (.reg R10) (.reg R8),
    XORQ (.reg R12) (.reg DX),
    XORQ (.reg R13) (.reg R8),
    MOVQ (.reg DX) (.mem oState 22),
    MOVQ (.reg R8) (.mem oState 23) ]

/-- hash/sha3/keccakf_amd64.s:71-321; an argument NOP is the empty list -/
def mKeccakRound (iState oState rc : Nat)
    (B_RBI_RCE G_RT1_RCA G_RT1_RCE G_RBA_RCU K_RT1_RCA K_RT1_RCE K_RBA_RCU M_RT1_RCA M_RT1_RCE M_RBE_RCU S_RDU_RCU S_RDA_RCA S_RDE_RCE : List Instr) : List Instr :=
  mKeccakRound1 iState ++
  -- hash/sha3/keccakf_amd64.s:118
  MOVQ (.imm rc) (.reg AX) ::
  mKeccakRound2 iState oState B_RBI_RCE G_RT1_RCA G_RT1_RCE G_RBA_RCU K_RT1_RCA K_RT1_RCE K_RBA_RCU M_RT1_RCA M_RT1_RCE M_RBE_RCU S_RDU_RCU S_RDA_RCA S_RDE_RCE

/-- hash/sha3/keccakf_amd64.s:324-389 -/
def keccakF1600Code : List Instr :=
  -- hash/sha3/keccakf_amd64.s:324
  [ MOVQ (.mem FP 0) (.reg DI),
    NOTQ (.mem DI 1),
    NOTQ (.mem DI 2),
    NOTQ (.mem DI 8),
    NOTQ (.mem DI 12),
    NOTQ (.mem DI 17),
    NOTQ (.mem DI 20),
    MOVQ (.mem DI 0) (.reg SI),
    MOVQ (.mem DI 1) (.reg BP),
    MOVQ (.mem DI 4) (.reg R15),
    XORQ (.mem DI 5) (.reg SI),
    XORQ (.mem DI 6) (.reg BP),
    XORQ (.mem DI 9) (.reg R15),
    XORQ (.mem DI 10) (.reg SI),
    XORQ (.mem DI 11) (.reg BP),
    XORQ (.mem DI 14) (.reg R15),
    XORQ (.mem DI 15) (.reg SI),
    XORQ (.mem DI 16) (.reg BP),
    XORQ (.mem DI 19) (.reg R15),
    XORQ (.mem DI 20) (.reg SI),
    XORQ (.mem DI 21) (.reg BP),
    MOVQ (.mem DI 22) (.reg DX),
    MOVQ (.mem DI 23) (.reg R8),
    XORQ (.mem DI 24) (.reg R15) ] ++
  -- hash/sha3/keccakf_amd64.s:357
  mKeccakRound DI SP 0x0000000000000001 MOVQ_RBI_RCE XORQ_RT1_RCA XORQ_RT1_RCE XORQ_RBA_RCU XORQ_RT1_RCA XORQ_RT1_RCE XORQ_RBA_RCU XORQ_RT1_RCA XORQ_RT1_RCE XORQ_RBE_RCU XORQ_RDU_RCU XORQ_RDA_RCA XORQ_RDE_RCE ++
  -- hash/sha3/keccakf_amd64.s:358
  mKeccakRound SP DI 0x0000000000008082 MOVQ_RBI_RCE XORQ_RT1_RCA XORQ_RT1_RCE XORQ_RBA_RCU XORQ_RT1_RCA XORQ_RT1_RCE XORQ_RBA_RCU XORQ_RT1_RCA XORQ_RT1_RCE XORQ_RBE_RCU XORQ_RDU_RCU XORQ_RDA_RCA XORQ_RDE_RCE ++
  -- hash/sha3/keccakf_amd64.s:359
  mKeccakRound DI SP 0x800000000000808a MOVQ_RBI_RCE XORQ_RT1_RCA XORQ_RT1_RCE XORQ_RBA_RCU XORQ_RT1_RCA XORQ_RT1_RCE XORQ_RBA_RCU XORQ_RT1_RCA XORQ_RT1_RCE XORQ_RBE_RCU XORQ_RDU_RCU XORQ_RDA_RCA XORQ_RDE_RCE ++
  -- hash/sha3/keccakf_amd64.s:360
  mKeccakRound SP DI 0x8000000080008000 MOVQ_RBI_RCE XORQ_RT1_RCA XORQ_RT1_RCE XORQ_RBA_RCU XORQ_RT1_RCA XORQ_RT1_RCE XORQ_RBA_RCU XORQ_RT1_RCA XORQ_RT1_RCE XORQ_RBE_RCU XORQ_RDU_RCU XORQ_RDA_RCA XORQ_RDE_RCE ++
  -- hash/sha3/keccakf_amd64.s:361
  mKeccakRound DI SP 0x000000000000808b MOVQ_RBI_RCE XORQ_RT1_RCA XORQ_RT1_RCE XORQ_RBA_RCU XORQ_RT1_RCA XORQ_RT1_RCE XORQ_RBA_RCU XORQ_RT1_RCA XORQ_RT1_RCE XORQ_RBE_RCU XORQ_RDU_RCU XORQ_RDA_RCA XORQ_RDE_RCE ++
  -- hash/sha3/keccakf_amd64.s:362
  mKeccakRound SP DI 0x0000000080000001 MOVQ_RBI_RCE XORQ_RT1_RCA XORQ_RT1_RCE XORQ_RBA_RCU XORQ_RT1_RCA XORQ_RT1_RCE XORQ_RBA_RCU XORQ_RT1_RCA XORQ_RT1_RCE XORQ_RBE_RCU XORQ_RDU_RCU XORQ_RDA_RCA XORQ_RDE_RCE ++
  -- hash/sha3/keccakf_amd64.s:363
  mKeccakRound DI SP 0x8000000080008081 MOVQ_RBI_RCE XORQ_RT1_RCA XORQ_RT1_RCE XORQ_RBA_RCU XORQ_RT1_RCA XORQ_RT1_RCE XORQ_RBA_RCU XORQ_RT1_RCA XORQ_RT1_RCE XORQ_RBE_RCU XORQ_RDU_RCU XORQ_RDA_RCA XORQ_RDE_RCE ++
  -- hash/sha3/keccakf_amd64.s:364
  mKeccakRound SP DI 0x8000000000008009 MOVQ_RBI_RCE XORQ_RT1_RCA XORQ_RT1_RCE XORQ_RBA_RCU XORQ_RT1_RCA XORQ_RT1_RCE XORQ_RBA_RCU XORQ_RT1_RCA XORQ_RT1_RCE XORQ_RBE_RCU XORQ_RDU_RCU XORQ_RDA_RCA XORQ_RDE_RCE ++
  -- hash/sha3/keccakf_amd64.s:365
  mKeccakRound DI SP 0x000000000000008a MOVQ_RBI_RCE XORQ_RT1_RCA XORQ_RT1_RCE XORQ_RBA_RCU XORQ_RT1_RCA XORQ_RT1_RCE XORQ_RBA_RCU XORQ_RT1_RCA XORQ_RT1_RCE XORQ_RBE_RCU XORQ_RDU_RCU XORQ_RDA_RCA XORQ_RDE_RCE ++
  -- hash/sha3/keccakf_amd64.s:366
  mKeccakRound SP DI 0x0000000000000088 MOVQ_RBI_RCE XORQ_RT1_RCA XORQ_RT1_RCE XORQ_RBA_RCU XORQ_RT1_RCA XORQ_RT1_RCE XORQ_RBA_RCU XORQ_RT1_RCA XORQ_RT1_RCE XORQ_RBE_RCU XORQ_RDU_RCU XORQ_RDA_RCA XORQ_RDE_RCE ++
  -- hash/sha3/keccakf_amd64.s:367
  mKeccakRound DI SP 0x0000000080008009 MOVQ_RBI_RCE XORQ_RT1_RCA XORQ_RT1_RCE XORQ_RBA_RCU XORQ_RT1_RCA XORQ_RT1_RCE XORQ_RBA_RCU XORQ_RT1_RCA XORQ_RT1_RCE XORQ_RBE_RCU XORQ_RDU_RCU XORQ_RDA_RCA XORQ_RDE_RCE ++
  -- hash/sha3/keccakf_amd64.s:368
  mKeccakRound SP DI 0x000000008000000a MOVQ_RBI_RCE XORQ_RT1_RCA XORQ_RT1_RCE XORQ_RBA_RCU XORQ_RT1_RCA XORQ_RT1_RCE XORQ_RBA_RCU XORQ_RT1_RCA XORQ_RT1_RCE XORQ_RBE_RCU XORQ_RDU_RCU XORQ_RDA_RCA XORQ_RDE_RCE ++
  -- hash/sha3/keccakf_amd64.s:369
  mKeccakRound DI SP 0x000000008000808b MOVQ_RBI_RCE XORQ_RT1_RCA XORQ_RT1_RCE XORQ_RBA_RCU XORQ_RT1_RCA XORQ_RT1_RCE XORQ_RBA_RCU XORQ_RT1_RCA XORQ_RT1_RCE XORQ_RBE_RCU XORQ_RDU_RCU XORQ_RDA_RCA XORQ_RDE_RCE ++
  -- hash/sha3/keccakf_amd64.s:370
  mKeccakRound SP DI 0x800000000000008b MOVQ_RBI_RCE XORQ_RT1_RCA XORQ_RT1_RCE XORQ_RBA_RCU XORQ_RT1_RCA XORQ_RT1_RCE XORQ_RBA_RCU XORQ_RT1_RCA XORQ_RT1_RCE XORQ_RBE_RCU XORQ_RDU_RCU XORQ_RDA_RCA XORQ_RDE_RCE ++
  -- hash/sha3/keccakf_amd64.s:371
  mKeccakRound DI SP 0x8000000000008089 MOVQ_RBI_RCE XORQ_RT1_RCA XORQ_RT1_RCE XORQ_RBA_RCU XORQ_RT1_RCA XORQ_RT1_RCE XORQ_RBA_RCU XORQ_RT1_RCA XORQ_RT1_RCE XORQ_RBE_RCU XORQ_RDU_RCU XORQ_RDA_RCA XORQ_RDE_RCE ++
  -- hash/sha3/keccakf_amd64.s:372
  mKeccakRound SP DI 0x8000000000008003 MOVQ_RBI_RCE XORQ_RT1_RCA XORQ_RT1_RCE XORQ_RBA_RCU XORQ_RT1_RCA XORQ_RT1_RCE XORQ_RBA_RCU XORQ_RT1_RCA XORQ_RT1_RCE XORQ_RBE_RCU XORQ_RDU_RCU XORQ_RDA_RCA XORQ_RDE_RCE ++
  -- hash/sha3/keccakf_amd64.s:373
  mKeccakRound DI SP 0x8000000000008002 MOVQ_RBI_RCE XORQ_RT1_RCA XORQ_RT1_RCE XORQ_RBA_RCU XORQ_RT1_RCA XORQ_RT1_RCE XORQ_RBA_RCU XORQ_RT1_RCA XORQ_RT1_RCE XORQ_RBE_RCU XORQ_RDU_RCU XORQ_RDA_RCA XORQ_RDE_RCE ++
  -- hash/sha3/keccakf_amd64.s:374
  mKeccakRound SP DI 0x8000000000000080 MOVQ_RBI_RCE XORQ_RT1_RCA XORQ_RT1_RCE XORQ_RBA_RCU XORQ_RT1_RCA XORQ_RT1_RCE XORQ_RBA_RCU XORQ_RT1_RCA XORQ_RT1_RCE XORQ_RBE_RCU XORQ_RDU_RCU XORQ_RDA_RCA XORQ_RDE_RCE ++
  -- hash/sha3/keccakf_amd64.s:375
  mKeccakRound DI SP 0x000000000000800a MOVQ_RBI_RCE XORQ_RT1_RCA XORQ_RT1_RCE XORQ_RBA_RCU XORQ_RT1_RCA XORQ_RT1_RCE XORQ_RBA_RCU XORQ_RT1_RCA XORQ_RT1_RCE XORQ_RBE_RCU XORQ_RDU_RCU XORQ_RDA_RCA XORQ_RDE_RCE ++
  -- hash/sha3/keccakf_amd64.s:376
  mKeccakRound SP DI 0x800000008000000a MOVQ_RBI_RCE XORQ_RT1_RCA XORQ_RT1_RCE XORQ_RBA_RCU XORQ_RT1_RCA XORQ_RT1_RCE XORQ_RBA_RCU XORQ_RT1_RCA XORQ_RT1_RCE XORQ_RBE_RCU XORQ_RDU_RCU XORQ_RDA_RCA XORQ_RDE_RCE ++
  -- hash/sha3/keccakf_amd64.s:377
  mKeccakRound DI SP 0x8000000080008081 MOVQ_RBI_RCE XORQ_RT1_RCA XORQ_RT1_RCE XORQ_RBA_RCU XORQ_RT1_RCA XORQ_RT1_RCE XORQ_RBA_RCU XORQ_RT1_RCA XORQ_RT1_RCE XORQ_RBE_RCU XORQ_RDU_RCU XORQ_RDA_RCA XORQ_RDE_RCE ++
  -- hash/sha3/keccakf_amd64.s:378
  mKeccakRound SP DI 0x8000000000008080 MOVQ_RBI_RCE XORQ_RT1_RCA XORQ_RT1_RCE XORQ_RBA_RCU XORQ_RT1_RCA XORQ_RT1_RCE XORQ_RBA_RCU XORQ_RT1_RCA XORQ_RT1_RCE XORQ_RBE_RCU XORQ_RDU_RCU XORQ_RDA_RCA XORQ_RDE_RCE ++
  -- hash/sha3/keccakf_amd64.s:379
  mKeccakRound DI SP 0x0000000080000001 MOVQ_RBI_RCE XORQ_RT1_RCA XORQ_RT1_RCE XORQ_RBA_RCU XORQ_RT1_RCA XORQ_RT1_RCE XORQ_RBA_RCU XORQ_RT1_RCA XORQ_RT1_RCE XORQ_RBE_RCU XORQ_RDU_RCU XORQ_RDA_RCA XORQ_RDE_RCE ++
  -- hash/sha3/keccakf_amd64.s:380
  mKeccakRound SP DI 0x8000000080008008 [] [] [] [] [] [] [] [] [] [] [] [] [] ++
  -- hash/sha3/keccakf_amd64.s:383
  [ NOTQ (.mem DI 1),
    NOTQ (.mem DI 2),
    NOTQ (.mem DI 8),
    NOTQ (.mem DI 12),
    NOTQ (.mem DI 17),
    NOTQ (.mem DI 20) ]

/-- hash/sha3/keccakf_amd64.s:323 `keccakF1600`; the frame of 200 bytes -/
def keccakF1600 : Routine := { code := keccakF1600Code, frame := 25, glob := [] }

end Model.AsmKeccak
