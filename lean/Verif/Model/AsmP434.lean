import Verif.Model.Asm
import Verif.Model.SidhParams
/-
The routines of dh/sidh/internal/p434/arith_amd64.s, one straight-line program for each kind of CPU: what remains of the text after
macro expansion and after following the jumps `CMPB ·HasBMI2(SB), $1; JE` and `CMPB ·HasADXandBMI2(SB), $1; JE`.
Printed by gen/asmgen.py; each comment gives the line of /repo/dh/sidh/internal the instructions below it come from.
-/
namespace Model.Asm434
open Model Model.Asm

/-- p434/params.go:`P434p1`, an array of 12 words. -/
def p1 : List W64 := Sidh.prime434.p1 ++ List.replicate 5 0

/-- p434/arith_amd64.s:399-448 `addP434` -/
def addCode : List Instr := [
  -- p434/arith_amd64.s:399
  MOVQ (.mem FP 0) (.reg DX),
  -- p434/arith_amd64.s:400
  MOVQ (.mem FP 1) (.reg DI),
  -- p434/arith_amd64.s:401
  MOVQ (.mem FP 2) (.reg SI),
  -- p434/arith_amd64.s:404
  XORQ (.reg CX) (.reg CX),
  -- p434/arith_amd64.s:407
  MOVQ (.mem DI 0) (.reg R8),
  ADDQ (.mem SI 0) (.reg R8),
  -- p434/arith_amd64.s:408
  MOVQ (.mem DI 1) (.reg R9),
  ADCQ (.mem SI 1) (.reg R9),
  -- p434/arith_amd64.s:409
  MOVQ (.mem DI 2) (.reg R10),
  ADCQ (.mem SI 2) (.reg R10),
  -- p434/arith_amd64.s:410
  MOVQ (.mem DI 3) (.reg R11),
  ADCQ (.mem SI 3) (.reg R11),
  -- p434/arith_amd64.s:411
  MOVQ (.mem DI 4) (.reg R12),
  ADCQ (.mem SI 4) (.reg R12),
  -- p434/arith_amd64.s:412
  MOVQ (.mem DI 5) (.reg R13),
  ADCQ (.mem SI 5) (.reg R13),
  -- p434/arith_amd64.s:413
  MOVQ (.mem DI 6) (.reg R14),
  ADCQ (.mem SI 6) (.reg R14),
  -- p434/arith_amd64.s:415
  XORQ (.reg DI) (.reg DI),
  -- p434/arith_amd64.s:417
  MOVQ (.imm 0xfffffffffffffffe) (.reg AX),
  SUBQ (.reg AX) (.reg R8),
  -- p434/arith_amd64.s:418
  MOVQ (.imm 0xffffffffffffffff) (.reg AX),
  SBBQ (.reg AX) (.reg R9),
  -- p434/arith_amd64.s:419
  SBBQ (.reg AX) (.reg R10),
  -- p434/arith_amd64.s:420
  MOVQ (.imm 0xfb82ecf5c5ffffff) (.reg AX),
  SBBQ (.reg AX) (.reg R11),
  -- p434/arith_amd64.s:421
  MOVQ (.imm 0xf78cb8f062b15d47) (.reg AX),
  SBBQ (.reg AX) (.reg R12),
  -- p434/arith_amd64.s:422
  MOVQ (.imm 0xd9f8bfad038a40ac) (.reg AX),
  SBBQ (.reg AX) (.reg R13),
  -- p434/arith_amd64.s:423
  MOVQ (.imm 0x4683e4e2ee688) (.reg AX),
  SBBQ (.reg AX) (.reg R14),
  -- p434/arith_amd64.s:426
  SBBQ (.imm 0) (.reg CX),
  -- p434/arith_amd64.s:429
  MOVQ (.imm 0xfffffffffffffffe) (.reg R15),
  ANDQ (.reg CX) (.reg R15),
  -- p434/arith_amd64.s:430
  MOVQ (.imm 0xffffffffffffffff) (.reg AX),
  ANDQ (.reg CX) (.reg AX),
  -- p434/arith_amd64.s:432
  ADDQ (.reg R8) (.reg R15),
  MOVQ (.reg R15) (.mem DX 0),
  -- p434/arith_amd64.s:433
  ADCQ (.reg AX) (.reg R9),
  MOVQ (.reg R9) (.mem DX 1),
  -- p434/arith_amd64.s:434
  ADCQ (.reg AX) (.reg R10),
  MOVQ (.reg R10) (.mem DX 2),
  -- p434/arith_amd64.s:436
  ADCQ (.imm 0) (.reg DI),
  -- p434/arith_amd64.s:437
  MOVQ (.imm 0xfb82ecf5c5ffffff) (.reg R15),
  ANDQ (.reg CX) (.reg R15),
  -- p434/arith_amd64.s:438
  MOVQ (.imm 0xf78cb8f062b15d47) (.reg R8),
  ANDQ (.reg CX) (.reg R8),
  -- p434/arith_amd64.s:439
  MOVQ (.imm 0xd9f8bfad038a40ac) (.reg R9),
  ANDQ (.reg CX) (.reg R9),
  -- p434/arith_amd64.s:440
  MOVQ (.imm 0x4683e4e2ee688) (.reg R10),
  ANDQ (.reg CX) (.reg R10),
  -- p434/arith_amd64.s:441
  BTQ0 (.reg DI),
  -- p434/arith_amd64.s:443
  ADCQ (.reg R11) (.reg R15),
  MOVQ (.reg R15) (.mem DX 3),
  -- p434/arith_amd64.s:444
  ADCQ (.reg R12) (.reg R8),
  MOVQ (.reg R8) (.mem DX 4),
  -- p434/arith_amd64.s:445
  ADCQ (.reg R13) (.reg R9),
  MOVQ (.reg R9) (.mem DX 5),
  -- p434/arith_amd64.s:446
  ADCQ (.reg R14) (.reg R10),
  MOVQ (.reg R10) (.mem DX 6)
  ]

def add : Routine := { code := addCode, frame := 0, glob := [] }

/-- p434/arith_amd64.s:503-542 `subP434` -/
def subCode : List Instr := [
  -- p434/arith_amd64.s:503
  MOVQ (.mem FP 0) (.reg DX),
  -- p434/arith_amd64.s:504
  MOVQ (.mem FP 1) (.reg DI),
  -- p434/arith_amd64.s:505
  MOVQ (.mem FP 2) (.reg SI),
  -- p434/arith_amd64.s:508
  XORQ (.reg CX) (.reg CX),
  -- p434/arith_amd64.s:510
  MOVQ (.mem DI 0) (.reg R8),
  SUBQ (.mem SI 0) (.reg R8),
  -- p434/arith_amd64.s:511
  MOVQ (.mem DI 1) (.reg R9),
  SBBQ (.mem SI 1) (.reg R9),
  -- p434/arith_amd64.s:512
  MOVQ (.mem DI 2) (.reg R10),
  SBBQ (.mem SI 2) (.reg R10),
  -- p434/arith_amd64.s:513
  MOVQ (.mem DI 3) (.reg R11),
  SBBQ (.mem SI 3) (.reg R11),
  -- p434/arith_amd64.s:514
  MOVQ (.mem DI 4) (.reg R12),
  SBBQ (.mem SI 4) (.reg R12),
  -- p434/arith_amd64.s:515
  MOVQ (.mem DI 5) (.reg R13),
  SBBQ (.mem SI 5) (.reg R13),
  -- p434/arith_amd64.s:516
  MOVQ (.mem DI 6) (.reg R14),
  SBBQ (.mem SI 6) (.reg R14),
  -- p434/arith_amd64.s:519
  SBBQ (.imm 0) (.reg CX),
  -- p434/arith_amd64.s:520
  XORQ (.reg R15) (.reg R15),
  -- p434/arith_amd64.s:523
  MOVQ (.imm 0xfffffffffffffffe) (.reg DI),
  ANDQ (.reg CX) (.reg DI),
  -- p434/arith_amd64.s:524
  MOVQ (.imm 0xffffffffffffffff) (.reg SI),
  ANDQ (.reg CX) (.reg SI),
  -- p434/arith_amd64.s:525
  MOVQ (.imm 0xfb82ecf5c5ffffff) (.reg AX),
  ANDQ (.reg CX) (.reg AX),
  -- p434/arith_amd64.s:527
  ADDQ (.reg DI) (.reg R8),
  MOVQ (.reg R8) (.mem DX 0),
  -- p434/arith_amd64.s:528
  ADCQ (.reg SI) (.reg R9),
  MOVQ (.reg R9) (.mem DX 1),
  -- p434/arith_amd64.s:529
  ADCQ (.reg SI) (.reg R10),
  MOVQ (.reg R10) (.mem DX 2),
  -- p434/arith_amd64.s:530
  ADCQ (.reg AX) (.reg R11),
  MOVQ (.reg R11) (.mem DX 3),
  -- p434/arith_amd64.s:531
  ADCQ (.imm 0) (.reg R15),
  -- p434/arith_amd64.s:533
  MOVQ (.imm 0xf78cb8f062b15d47) (.reg R8),
  ANDQ (.reg CX) (.reg R8),
  -- p434/arith_amd64.s:534
  MOVQ (.imm 0xd9f8bfad038a40ac) (.reg R9),
  ANDQ (.reg CX) (.reg R9),
  -- p434/arith_amd64.s:535
  MOVQ (.imm 0x4683e4e2ee688) (.reg R10),
  ANDQ (.reg CX) (.reg R10),
  -- p434/arith_amd64.s:537
  BTQ0 (.reg R15),
  -- p434/arith_amd64.s:539
  ADCQ (.reg R8) (.reg R12),
  MOVQ (.reg R12) (.mem DX 4),
  -- p434/arith_amd64.s:540
  ADCQ (.reg R9) (.reg R13),
  MOVQ (.reg R13) (.mem DX 5),
  -- p434/arith_amd64.s:541
  ADCQ (.reg R10) (.reg R14),
  MOVQ (.reg R14) (.mem DX 6)
  ]

def sub : Routine := { code := subCode, frame := 0, glob := [] }

/-- p434/arith_amd64.s:451-500 `adlP434` -/
def adlCode : List Instr := [
  -- p434/arith_amd64.s:451
  MOVQ (.mem FP 0) (.reg DX),
  -- p434/arith_amd64.s:452
  MOVQ (.mem FP 1) (.reg DI),
  -- p434/arith_amd64.s:453
  MOVQ (.mem FP 2) (.reg SI),
  -- p434/arith_amd64.s:455
  MOVQ (.mem DI 0) (.reg R8),
  -- p434/arith_amd64.s:456
  ADDQ (.mem SI 0) (.reg R8),
  -- p434/arith_amd64.s:457
  MOVQ (.mem DI 1) (.reg R9),
  -- p434/arith_amd64.s:458
  ADCQ (.mem SI 1) (.reg R9),
  -- p434/arith_amd64.s:459
  MOVQ (.mem DI 2) (.reg R10),
  -- p434/arith_amd64.s:460
  ADCQ (.mem SI 2) (.reg R10),
  -- p434/arith_amd64.s:461
  MOVQ (.mem DI 3) (.reg R11),
  -- p434/arith_amd64.s:462
  ADCQ (.mem SI 3) (.reg R11),
  -- p434/arith_amd64.s:463
  MOVQ (.mem DI 4) (.reg R12),
  -- p434/arith_amd64.s:464
  ADCQ (.mem SI 4) (.reg R12),
  -- p434/arith_amd64.s:465
  MOVQ (.mem DI 5) (.reg R13),
  -- p434/arith_amd64.s:466
  ADCQ (.mem SI 5) (.reg R13),
  -- p434/arith_amd64.s:467
  MOVQ (.mem DI 6) (.reg R14),
  -- p434/arith_amd64.s:468
  ADCQ (.mem SI 6) (.reg R14),
  -- p434/arith_amd64.s:469
  MOVQ (.mem DI 7) (.reg R15),
  -- p434/arith_amd64.s:470
  ADCQ (.mem SI 7) (.reg R15),
  -- p434/arith_amd64.s:471
  MOVQ (.mem DI 8) (.reg AX),
  -- p434/arith_amd64.s:472
  ADCQ (.mem SI 8) (.reg AX),
  -- p434/arith_amd64.s:473
  MOVQ (.mem DI 9) (.reg BX),
  -- p434/arith_amd64.s:474
  ADCQ (.mem SI 9) (.reg BX),
  -- p434/arith_amd64.s:475
  MOVQ (.mem DI 10) (.reg CX),
  -- p434/arith_amd64.s:476
  ADCQ (.mem SI 10) (.reg CX),
  -- p434/arith_amd64.s:478
  MOVQ (.reg R8) (.mem DX 0),
  -- p434/arith_amd64.s:479
  MOVQ (.reg R9) (.mem DX 1),
  -- p434/arith_amd64.s:480
  MOVQ (.reg R10) (.mem DX 2),
  -- p434/arith_amd64.s:481
  MOVQ (.reg R11) (.mem DX 3),
  -- p434/arith_amd64.s:482
  MOVQ (.reg R12) (.mem DX 4),
  -- p434/arith_amd64.s:483
  MOVQ (.reg R13) (.mem DX 5),
  -- p434/arith_amd64.s:484
  MOVQ (.reg R14) (.mem DX 6),
  -- p434/arith_amd64.s:485
  MOVQ (.reg R15) (.mem DX 7),
  -- p434/arith_amd64.s:486
  MOVQ (.reg AX) (.mem DX 8),
  -- p434/arith_amd64.s:487
  MOVQ (.reg BX) (.mem DX 9),
  -- p434/arith_amd64.s:488
  MOVQ (.reg CX) (.mem DX 10),
  -- p434/arith_amd64.s:490
  MOVQ (.mem DI 11) (.reg R8),
  -- p434/arith_amd64.s:491
  ADCQ (.mem SI 11) (.reg R8),
  -- p434/arith_amd64.s:492
  MOVQ (.mem DI 12) (.reg R9),
  -- p434/arith_amd64.s:493
  ADCQ (.mem SI 12) (.reg R9),
  -- p434/arith_amd64.s:494
  MOVQ (.mem DI 13) (.reg R10),
  -- p434/arith_amd64.s:495
  ADCQ (.mem SI 13) (.reg R10),
  -- p434/arith_amd64.s:497
  MOVQ (.reg R8) (.mem DX 11),
  -- p434/arith_amd64.s:498
  MOVQ (.reg R9) (.mem DX 12),
  -- p434/arith_amd64.s:499
  MOVQ (.reg R10) (.mem DX 13)
  ]

def adl : Routine := { code := adlCode, frame := 0, glob := [] }

/-- p434/arith_amd64.s:545-605 `sulP434` -/
def sulCode : List Instr := [
  -- p434/arith_amd64.s:545
  MOVQ (.mem FP 0) (.reg DX),
  -- p434/arith_amd64.s:546
  MOVQ (.mem FP 1) (.reg DI),
  -- p434/arith_amd64.s:547
  MOVQ (.mem FP 2) (.reg SI),
  -- p434/arith_amd64.s:550
  XORQ (.reg CX) (.reg CX),
  -- p434/arith_amd64.s:553
  MOVQ (.mem DI 0) (.reg R8),
  SUBQ (.mem SI 0) (.reg R8),
  -- p434/arith_amd64.s:554
  MOVQ (.mem DI 1) (.reg R9),
  SBBQ (.mem SI 1) (.reg R9),
  -- p434/arith_amd64.s:555
  MOVQ (.mem DI 2) (.reg R10),
  SBBQ (.mem SI 2) (.reg R10),
  -- p434/arith_amd64.s:556
  MOVQ (.mem DI 3) (.reg R11),
  SBBQ (.mem SI 3) (.reg R11),
  -- p434/arith_amd64.s:557
  MOVQ (.mem DI 4) (.reg R12),
  SBBQ (.mem SI 4) (.reg R12),
  -- p434/arith_amd64.s:558
  MOVQ (.mem DI 5) (.reg R13),
  SBBQ (.mem SI 5) (.reg R13),
  -- p434/arith_amd64.s:559
  MOVQ (.mem DI 6) (.reg R14),
  SBBQ (.mem SI 6) (.reg R14),
  -- p434/arith_amd64.s:560
  MOVQ (.mem DI 7) (.reg R15),
  SBBQ (.mem SI 7) (.reg R15),
  -- p434/arith_amd64.s:561
  MOVQ (.mem DI 8) (.reg AX),
  SBBQ (.mem SI 8) (.reg AX),
  -- p434/arith_amd64.s:562
  MOVQ (.mem DI 9) (.reg BX),
  SBBQ (.mem SI 9) (.reg BX),
  -- p434/arith_amd64.s:564
  MOVQ (.reg R8) (.mem DX 0),
  -- p434/arith_amd64.s:565
  MOVQ (.reg R9) (.mem DX 1),
  -- p434/arith_amd64.s:566
  MOVQ (.reg R10) (.mem DX 2),
  -- p434/arith_amd64.s:567
  MOVQ (.reg R11) (.mem DX 3),
  -- p434/arith_amd64.s:568
  MOVQ (.reg R12) (.mem DX 4),
  -- p434/arith_amd64.s:569
  MOVQ (.reg R13) (.mem DX 5),
  -- p434/arith_amd64.s:570
  MOVQ (.reg R14) (.mem DX 6),
  -- p434/arith_amd64.s:571
  MOVQ (.reg R15) (.mem DX 7),
  -- p434/arith_amd64.s:572
  MOVQ (.reg AX) (.mem DX 8),
  -- p434/arith_amd64.s:573
  MOVQ (.reg BX) (.mem DX 9),
  -- p434/arith_amd64.s:576
  MOVQ (.mem DI 10) (.reg R8),
  SBBQ (.mem SI 10) (.reg R8),
  -- p434/arith_amd64.s:577
  MOVQ (.mem DI 11) (.reg R9),
  SBBQ (.mem SI 11) (.reg R9),
  -- p434/arith_amd64.s:578
  MOVQ (.mem DI 12) (.reg R10),
  SBBQ (.mem SI 12) (.reg R10),
  -- p434/arith_amd64.s:579
  MOVQ (.mem DI 13) (.reg R11),
  SBBQ (.mem SI 13) (.reg R11),
  -- p434/arith_amd64.s:582
  SBBQ (.imm 0) (.reg CX),
  -- p434/arith_amd64.s:584
  MOVQ (.reg R8) (.mem DX 10),
  -- p434/arith_amd64.s:585
  MOVQ (.reg R9) (.mem DX 11),
  -- p434/arith_amd64.s:586
  MOVQ (.reg R10) (.mem DX 12),
  -- p434/arith_amd64.s:587
  MOVQ (.reg R11) (.mem DX 13),
  -- p434/arith_amd64.s:590
  MOVQ (.imm 0xffffffffffffffff) (.reg R8),
  ANDQ (.reg CX) (.reg R8),
  -- p434/arith_amd64.s:592
  MOVQ (.imm 0xfdc1767ae2ffffff) (.reg R9),
  ANDQ (.reg CX) (.reg R9),
  -- p434/arith_amd64.s:593
  MOVQ (.imm 0x7bc65c783158aea3) (.reg R10),
  ANDQ (.reg CX) (.reg R10),
  -- p434/arith_amd64.s:594
  MOVQ (.imm 0x6cfc5fd681c52056) (.reg R11),
  ANDQ (.reg CX) (.reg R11),
  -- p434/arith_amd64.s:595
  MOVQ (.imm 0x2341f27177344) (.reg R12),
  ANDQ (.reg CX) (.reg R12),
  -- p434/arith_amd64.s:597
  MOVQ (.mem DX 7) (.reg AX),
  ADDQ (.reg R8) (.reg AX),
  MOVQ (.reg AX) (.mem DX 7),
  -- p434/arith_amd64.s:598
  MOVQ (.mem DX 8) (.reg AX),
  ADCQ (.reg R8) (.reg AX),
  MOVQ (.reg AX) (.mem DX 8),
  -- p434/arith_amd64.s:599
  MOVQ (.mem DX 9) (.reg AX),
  ADCQ (.reg R8) (.reg AX),
  MOVQ (.reg AX) (.mem DX 9),
  -- p434/arith_amd64.s:600
  MOVQ (.mem DX 10) (.reg AX),
  ADCQ (.reg R9) (.reg AX),
  MOVQ (.reg AX) (.mem DX 10),
  -- p434/arith_amd64.s:601
  MOVQ (.mem DX 11) (.reg AX),
  ADCQ (.reg R10) (.reg AX),
  MOVQ (.reg AX) (.mem DX 11),
  -- p434/arith_amd64.s:602
  MOVQ (.mem DX 12) (.reg AX),
  ADCQ (.reg R11) (.reg AX),
  MOVQ (.reg AX) (.mem DX 12),
  -- p434/arith_amd64.s:603
  MOVQ (.mem DX 13) (.reg AX),
  ADCQ (.reg R12) (.reg AX),
  MOVQ (.reg AX) (.mem DX 13)
  ]

def sul : Routine := { code := sulCode, frame := 0, glob := [] }

/-- p434/arith_amd64.s:608-645 `modP434` -/
def modCode : List Instr := [
  -- p434/arith_amd64.s:608
  MOVQ (.mem FP 0) (.reg DI),
  -- p434/arith_amd64.s:611
  XORQ (.reg AX) (.reg AX),
  -- p434/arith_amd64.s:614
  MOVQ (.imm 0xffffffffffffffff) (.reg R8),
  -- p434/arith_amd64.s:615
  SUBQ (.reg R8) (.mem DI 0),
  -- p434/arith_amd64.s:617
  MOVQ (.imm 0xfdc1767ae2ffffff) (.reg R9),
  -- p434/arith_amd64.s:618
  SBBQ (.reg R8) (.mem DI 1),
  -- p434/arith_amd64.s:619
  SBBQ (.reg R8) (.mem DI 2),
  -- p434/arith_amd64.s:620
  MOVQ (.imm 0x7bc65c783158aea3) (.reg R10),
  -- p434/arith_amd64.s:621
  SBBQ (.reg R9) (.mem DI 3),
  -- p434/arith_amd64.s:622
  MOVQ (.imm 0x6cfc5fd681c52056) (.reg R11),
  -- p434/arith_amd64.s:623
  SBBQ (.reg R10) (.mem DI 4),
  -- p434/arith_amd64.s:624
  MOVQ (.imm 0x2341f27177344) (.reg R12),
  -- p434/arith_amd64.s:625
  SBBQ (.reg R11) (.mem DI 5),
  -- p434/arith_amd64.s:626
  SBBQ (.reg R12) (.mem DI 6),
  -- p434/arith_amd64.s:629
  SBBQ (.imm 0) (.reg AX),
  -- p434/arith_amd64.s:632
  ANDQ (.reg AX) (.reg R8),
  -- p434/arith_amd64.s:633
  ANDQ (.reg AX) (.reg R9),
  -- p434/arith_amd64.s:634
  ANDQ (.reg AX) (.reg R10),
  -- p434/arith_amd64.s:635
  ANDQ (.reg AX) (.reg R11),
  -- p434/arith_amd64.s:636
  ANDQ (.reg AX) (.reg R12),
  -- p434/arith_amd64.s:638
  ADDQ (.reg R8) (.mem DI 0),
  -- p434/arith_amd64.s:639
  ADCQ (.reg R8) (.mem DI 1),
  -- p434/arith_amd64.s:640
  ADCQ (.reg R8) (.mem DI 2),
  -- p434/arith_amd64.s:641
  ADCQ (.reg R9) (.mem DI 3),
  -- p434/arith_amd64.s:642
  ADCQ (.reg R10) (.mem DI 4),
  -- p434/arith_amd64.s:643
  ADCQ (.reg R11) (.mem DI 5),
  -- p434/arith_amd64.s:644
  ADCQ (.reg R12) (.mem DI 6)
  ]

def mod : Routine := { code := modCode, frame := 0, glob := [] }

/-- p434/arith_amd64.s:650-1202 `mulP434` -/
def mulCode : List Instr := [
  -- p434/arith_amd64.s:650
  MOVQ (.mem FP 0) (.reg CX),
  -- p434/arith_amd64.s:651
  MOVQ (.mem FP 1) (.reg DI),
  -- p434/arith_amd64.s:652
  MOVQ (.mem FP 2) (.reg SI),
  -- p434/arith_amd64.s:659
  XORQ (.reg AX) (.reg AX),
  -- p434/arith_amd64.s:660
  MOVQ (.mem DI 4) (.reg R8),
  -- p434/arith_amd64.s:661
  MOVQ (.mem DI 5) (.reg R9),
  -- p434/arith_amd64.s:662
  MOVQ (.mem DI 6) (.reg R10),
  -- p434/arith_amd64.s:663
  XORQ (.reg R11) (.reg R11),
  -- p434/arith_amd64.s:664
  ADDQ (.mem DI 0) (.reg R8),
  -- p434/arith_amd64.s:665
  ADCQ (.mem DI 1) (.reg R9),
  -- p434/arith_amd64.s:666
  ADCQ (.mem DI 2) (.reg R10),
  -- p434/arith_amd64.s:667
  ADCQ (.mem DI 3) (.reg R11),
  -- p434/arith_amd64.s:669
  SBBQ (.imm 0) (.reg AX),
  -- p434/arith_amd64.s:670
  MOVQ (.reg AX) (.mem SP 8),
  -- p434/arith_amd64.s:672
  MOVQ (.reg R8) (.mem CX 0),
  -- p434/arith_amd64.s:673
  MOVQ (.reg R9) (.mem CX 1),
  -- p434/arith_amd64.s:674
  MOVQ (.reg R10) (.mem CX 2),
  -- p434/arith_amd64.s:675
  MOVQ (.reg R11) (.mem CX 3),
  -- p434/arith_amd64.s:678
  XORQ (.reg DX) (.reg DX),
  -- p434/arith_amd64.s:679
  MOVQ (.mem SI 4) (.reg R12),
  -- p434/arith_amd64.s:680
  MOVQ (.mem SI 5) (.reg R13),
  -- p434/arith_amd64.s:681
  MOVQ (.mem SI 6) (.reg R14),
  -- p434/arith_amd64.s:682
  XORQ (.reg R15) (.reg R15),
  -- p434/arith_amd64.s:683
  ADDQ (.mem SI 0) (.reg R12),
  -- p434/arith_amd64.s:684
  ADCQ (.mem SI 1) (.reg R13),
  -- p434/arith_amd64.s:685
  ADCQ (.mem SI 2) (.reg R14),
  -- p434/arith_amd64.s:686
  ADCQ (.mem SI 3) (.reg R15),
  -- p434/arith_amd64.s:687
  SBBQ (.imm 0) (.reg DX),
  -- p434/arith_amd64.s:690
  MOVQ (.reg DX) (.mem SP 9),
  -- p434/arith_amd64.s:693
  MOVQ (.mem CX 0) (.reg AX),
  -- p434/arith_amd64.s:694
  MULQ (.reg R12),
  -- p434/arith_amd64.s:695
  MOVQ (.reg AX) (.mem SP 0),
  -- p434/arith_amd64.s:696
  MOVQ (.reg DX) (.reg R8),
  -- p434/arith_amd64.s:698
  XORQ (.reg R9) (.reg R9),
  -- p434/arith_amd64.s:699
  MOVQ (.mem CX 0) (.reg AX),
  -- p434/arith_amd64.s:700
  MULQ (.reg R13),
  -- p434/arith_amd64.s:701
  ADDQ (.reg AX) (.reg R8),
  -- p434/arith_amd64.s:702
  ADCQ (.reg DX) (.reg R9),
  -- p434/arith_amd64.s:704
  XORQ (.reg R10) (.reg R10),
  -- p434/arith_amd64.s:705
  MOVQ (.mem CX 1) (.reg AX),
  -- p434/arith_amd64.s:706
  MULQ (.reg R12),
  -- p434/arith_amd64.s:707
  ADDQ (.reg AX) (.reg R8),
  -- p434/arith_amd64.s:708
  MOVQ (.reg R8) (.mem SP 1),
  -- p434/arith_amd64.s:709
  ADCQ (.reg DX) (.reg R9),
  -- p434/arith_amd64.s:710
  ADCQ (.imm 0) (.reg R10),
  -- p434/arith_amd64.s:712
  XORQ (.reg R8) (.reg R8),
  -- p434/arith_amd64.s:713
  MOVQ (.mem CX 0) (.reg AX),
  -- p434/arith_amd64.s:714
  MULQ (.reg R14),
  -- p434/arith_amd64.s:715
  ADDQ (.reg AX) (.reg R9),
  -- p434/arith_amd64.s:716
  ADCQ (.reg DX) (.reg R10),
  -- p434/arith_amd64.s:717
  ADCQ (.imm 0) (.reg R8),
  -- p434/arith_amd64.s:719
  MOVQ (.mem CX 2) (.reg AX),
  -- p434/arith_amd64.s:720
  MULQ (.reg R12),
  -- p434/arith_amd64.s:721
  ADDQ (.reg AX) (.reg R9),
  -- p434/arith_amd64.s:722
  ADCQ (.reg DX) (.reg R10),
  -- p434/arith_amd64.s:723
  ADCQ (.imm 0) (.reg R8),
  -- p434/arith_amd64.s:725
  MOVQ (.mem CX 1) (.reg AX),
  -- p434/arith_amd64.s:726
  MULQ (.reg R13),
  -- p434/arith_amd64.s:727
  ADDQ (.reg AX) (.reg R9),
  -- p434/arith_amd64.s:728
  MOVQ (.reg R9) (.mem SP 2),
  -- p434/arith_amd64.s:729
  ADCQ (.reg DX) (.reg R10),
  -- p434/arith_amd64.s:730
  ADCQ (.imm 0) (.reg R8),
  -- p434/arith_amd64.s:732
  XORQ (.reg R9) (.reg R9),
  -- p434/arith_amd64.s:733
  MOVQ (.mem CX 0) (.reg AX),
  -- p434/arith_amd64.s:734
  MULQ (.reg R15),
  -- p434/arith_amd64.s:735
  ADDQ (.reg AX) (.reg R10),
  -- p434/arith_amd64.s:736
  ADCQ (.reg DX) (.reg R8),
  -- p434/arith_amd64.s:737
  ADCQ (.imm 0) (.reg R9),
  -- p434/arith_amd64.s:739
  MOVQ (.mem CX 3) (.reg AX),
  -- p434/arith_amd64.s:740
  MULQ (.reg R12),
  -- p434/arith_amd64.s:741
  ADDQ (.reg AX) (.reg R10),
  -- p434/arith_amd64.s:742
  ADCQ (.reg DX) (.reg R8),
  -- p434/arith_amd64.s:743
  ADCQ (.imm 0) (.reg R9),
  -- p434/arith_amd64.s:745
  MOVQ (.mem CX 1) (.reg AX),
  -- p434/arith_amd64.s:746
  MULQ (.reg R14),
  -- p434/arith_amd64.s:747
  ADDQ (.reg AX) (.reg R10),
  -- p434/arith_amd64.s:748
  ADCQ (.reg DX) (.reg R8),
  -- p434/arith_amd64.s:749
  ADCQ (.imm 0) (.reg R9),
  -- p434/arith_amd64.s:751
  MOVQ (.mem CX 2) (.reg AX),
  -- p434/arith_amd64.s:752
  MULQ (.reg R13),
  -- p434/arith_amd64.s:753
  ADDQ (.reg AX) (.reg R10),
  -- p434/arith_amd64.s:754
  MOVQ (.reg R10) (.mem SP 3),
  -- p434/arith_amd64.s:755
  ADCQ (.reg DX) (.reg R8),
  -- p434/arith_amd64.s:756
  ADCQ (.imm 0) (.reg R9),
  -- p434/arith_amd64.s:758
  XORQ (.reg R10) (.reg R10),
  -- p434/arith_amd64.s:759
  MOVQ (.mem CX 1) (.reg AX),
  -- p434/arith_amd64.s:760
  MULQ (.reg R15),
  -- p434/arith_amd64.s:761
  ADDQ (.reg AX) (.reg R8),
  -- p434/arith_amd64.s:762
  ADCQ (.reg DX) (.reg R9),
  -- p434/arith_amd64.s:763
  ADCQ (.imm 0) (.reg R10),
  -- p434/arith_amd64.s:765
  MOVQ (.mem CX 3) (.reg AX),
  -- p434/arith_amd64.s:766
  MULQ (.reg R13),
  -- p434/arith_amd64.s:767
  ADDQ (.reg AX) (.reg R8),
  -- p434/arith_amd64.s:768
  ADCQ (.reg DX) (.reg R9),
  -- p434/arith_amd64.s:769
  ADCQ (.imm 0) (.reg R10),
  -- p434/arith_amd64.s:771
  MOVQ (.mem CX 2) (.reg AX),
  -- p434/arith_amd64.s:772
  MULQ (.reg R14),
  -- p434/arith_amd64.s:773
  ADDQ (.reg AX) (.reg R8),
  -- p434/arith_amd64.s:774
  MOVQ (.reg R8) (.mem SP 4),
  -- p434/arith_amd64.s:775
  ADCQ (.reg DX) (.reg R9),
  -- p434/arith_amd64.s:776
  ADCQ (.imm 0) (.reg R10),
  -- p434/arith_amd64.s:778
  XORQ (.reg R11) (.reg R11),
  -- p434/arith_amd64.s:779
  MOVQ (.mem CX 2) (.reg AX),
  -- p434/arith_amd64.s:780
  MULQ (.reg R15),
  -- p434/arith_amd64.s:781
  ADDQ (.reg AX) (.reg R9),
  -- p434/arith_amd64.s:782
  ADCQ (.reg DX) (.reg R10),
  -- p434/arith_amd64.s:783
  ADCQ (.imm 0) (.reg R11),
  -- p434/arith_amd64.s:785
  MOVQ (.mem CX 3) (.reg AX),
  -- p434/arith_amd64.s:786
  MULQ (.reg R14),
  -- p434/arith_amd64.s:787
  ADDQ (.reg AX) (.reg R9),
  -- p434/arith_amd64.s:788
  MOVQ (.reg R9) (.mem SP 5),
  -- p434/arith_amd64.s:789
  ADCQ (.reg DX) (.reg R10),
  -- p434/arith_amd64.s:790
  ADCQ (.imm 0) (.reg R11),
  -- p434/arith_amd64.s:792
  MOVQ (.mem CX 3) (.reg AX),
  -- p434/arith_amd64.s:793
  MULQ (.reg R15),
  -- p434/arith_amd64.s:794
  ADDQ (.reg AX) (.reg R10),
  -- p434/arith_amd64.s:795
  MOVQ (.reg R10) (.mem SP 6),
  -- p434/arith_amd64.s:796
  ADCQ (.reg DX) (.reg R11),
  -- p434/arith_amd64.s:797
  MOVQ (.reg R11) (.mem SP 7),
  -- p434/arith_amd64.s:800
  MOVQ (.mem SP 8) (.reg AX),
  -- p434/arith_amd64.s:801
  ANDQ (.reg AX) (.reg R12),
  -- p434/arith_amd64.s:802
  ANDQ (.reg AX) (.reg R13),
  -- p434/arith_amd64.s:803
  ANDQ (.reg AX) (.reg R14),
  -- p434/arith_amd64.s:804
  ANDQ (.reg AX) (.reg R15),
  -- p434/arith_amd64.s:807
  MOVQ (.mem SP 9) (.reg AX),
  -- p434/arith_amd64.s:808
  MOVQ (.mem CX 0) (.reg R8),
  -- p434/arith_amd64.s:809
  ANDQ (.reg AX) (.reg R8),
  -- p434/arith_amd64.s:810
  MOVQ (.mem CX 1) (.reg R9),
  -- p434/arith_amd64.s:811
  ANDQ (.reg AX) (.reg R9),
  -- p434/arith_amd64.s:812
  MOVQ (.mem CX 2) (.reg R10),
  -- p434/arith_amd64.s:813
  ANDQ (.reg AX) (.reg R10),
  -- p434/arith_amd64.s:814
  MOVQ (.mem CX 3) (.reg R11),
  -- p434/arith_amd64.s:815
  ANDQ (.reg AX) (.reg R11),
  -- p434/arith_amd64.s:818
  ADDQ (.reg R8) (.reg R12),
  -- p434/arith_amd64.s:819
  ADCQ (.reg R9) (.reg R13),
  -- p434/arith_amd64.s:820
  ADCQ (.reg R10) (.reg R14),
  -- p434/arith_amd64.s:821
  ADCQ (.reg R11) (.reg R15),
  -- p434/arith_amd64.s:824
  MOVQ (.mem SP 4) (.reg AX),
  -- p434/arith_amd64.s:825
  ADDQ (.reg AX) (.reg R12),
  -- p434/arith_amd64.s:826
  MOVQ (.mem SP 5) (.reg AX),
  -- p434/arith_amd64.s:827
  ADCQ (.reg AX) (.reg R13),
  -- p434/arith_amd64.s:828
  MOVQ (.mem SP 6) (.reg AX),
  -- p434/arith_amd64.s:829
  ADCQ (.reg AX) (.reg R14),
  -- p434/arith_amd64.s:830
  MOVQ (.mem SP 7) (.reg AX),
  -- p434/arith_amd64.s:831
  ADCQ (.reg AX) (.reg R15),
  -- p434/arith_amd64.s:832
  MOVQ (.reg R12) (.mem SP 10),
  -- p434/arith_amd64.s:833
  MOVQ (.reg R13) (.mem SP 11),
  -- p434/arith_amd64.s:834
  MOVQ (.reg R14) (.mem SP 12),
  -- p434/arith_amd64.s:835
  MOVQ (.reg R15) (.mem SP 13),
  -- p434/arith_amd64.s:838
  MOVQ (.mem DI 0) (.reg R11),
  -- p434/arith_amd64.s:839
  MOVQ (.mem SI 0) (.reg AX),
  -- p434/arith_amd64.s:840
  MULQ (.reg R11),
  -- p434/arith_amd64.s:841
  XORQ (.reg R9) (.reg R9),
  -- p434/arith_amd64.s:842
  MOVQ (.reg AX) (.mem CX 0),
  -- p434/arith_amd64.s:843
  MOVQ (.reg DX) (.reg R8),
  -- p434/arith_amd64.s:845
  MOVQ (.mem DI 2) (.reg R14),
  -- p434/arith_amd64.s:846
  MOVQ (.mem SI 1) (.reg AX),
  -- p434/arith_amd64.s:847
  MULQ (.reg R11),
  -- p434/arith_amd64.s:848
  XORQ (.reg R10) (.reg R10),
  -- p434/arith_amd64.s:849
  ADDQ (.reg AX) (.reg R8),
  -- p434/arith_amd64.s:850
  ADCQ (.reg DX) (.reg R9),
  -- p434/arith_amd64.s:852
  MOVQ (.mem DI 1) (.reg R12),
  -- p434/arith_amd64.s:853
  MOVQ (.mem SI 0) (.reg AX),
  -- p434/arith_amd64.s:854
  MULQ (.reg R12),
  -- p434/arith_amd64.s:855
  ADDQ (.reg AX) (.reg R8),
  -- p434/arith_amd64.s:856
  MOVQ (.reg R8) (.mem CX 1),
  -- p434/arith_amd64.s:857
  ADCQ (.reg DX) (.reg R9),
  -- p434/arith_amd64.s:858
  ADCQ (.imm 0) (.reg R10),
  -- p434/arith_amd64.s:860
  XORQ (.reg R8) (.reg R8),
  -- p434/arith_amd64.s:861
  MOVQ (.mem SI 2) (.reg AX),
  -- p434/arith_amd64.s:862
  MULQ (.reg R11),
  -- p434/arith_amd64.s:863
  ADDQ (.reg AX) (.reg R9),
  -- p434/arith_amd64.s:864
  ADCQ (.reg DX) (.reg R10),
  -- p434/arith_amd64.s:865
  ADCQ (.imm 0) (.reg R8),
  -- p434/arith_amd64.s:867
  MOVQ (.mem SI 0) (.reg R13),
  -- p434/arith_amd64.s:868
  MOVQ (.reg R14) (.reg AX),
  -- p434/arith_amd64.s:869
  MULQ (.reg R13),
  -- p434/arith_amd64.s:870
  ADDQ (.reg AX) (.reg R9),
  -- p434/arith_amd64.s:871
  ADCQ (.reg DX) (.reg R10),
  -- p434/arith_amd64.s:872
  ADCQ (.imm 0) (.reg R8),
  -- p434/arith_amd64.s:874
  MOVQ (.mem SI 1) (.reg AX),
  -- p434/arith_amd64.s:875
  MULQ (.reg R12),
  -- p434/arith_amd64.s:876
  ADDQ (.reg AX) (.reg R9),
  -- p434/arith_amd64.s:877
  MOVQ (.reg R9) (.mem CX 2),
  -- p434/arith_amd64.s:878
  ADCQ (.reg DX) (.reg R10),
  -- p434/arith_amd64.s:879
  ADCQ (.imm 0) (.reg R8),
  -- p434/arith_amd64.s:881
  XORQ (.reg R9) (.reg R9),
  -- p434/arith_amd64.s:882
  MOVQ (.mem SI 3) (.reg AX),
  -- p434/arith_amd64.s:883
  MULQ (.reg R11),
  -- p434/arith_amd64.s:884
  MOVQ (.mem DI 3) (.reg R15),
  -- p434/arith_amd64.s:885
  ADDQ (.reg AX) (.reg R10),
  -- p434/arith_amd64.s:886
  ADCQ (.reg DX) (.reg R8),
  -- p434/arith_amd64.s:887
  ADCQ (.imm 0) (.reg R9),
  -- p434/arith_amd64.s:889
  MOVQ (.reg R15) (.reg AX),
  -- p434/arith_amd64.s:890
  MULQ (.reg R13),
  -- p434/arith_amd64.s:891
  ADDQ (.reg AX) (.reg R10),
  -- p434/arith_amd64.s:892
  ADCQ (.reg DX) (.reg R8),
  -- p434/arith_amd64.s:893
  ADCQ (.imm 0) (.reg R9),
  -- p434/arith_amd64.s:895
  MOVQ (.mem SI 2) (.reg AX),
  -- p434/arith_amd64.s:896
  MULQ (.reg R12),
  -- p434/arith_amd64.s:897
  ADDQ (.reg AX) (.reg R10),
  -- p434/arith_amd64.s:898
  ADCQ (.reg DX) (.reg R8),
  -- p434/arith_amd64.s:899
  ADCQ (.imm 0) (.reg R9),
  -- p434/arith_amd64.s:901
  MOVQ (.mem SI 1) (.reg AX),
  -- p434/arith_amd64.s:902
  MULQ (.reg R14),
  -- p434/arith_amd64.s:903
  ADDQ (.reg AX) (.reg R10),
  -- p434/arith_amd64.s:904
  MOVQ (.reg R10) (.mem CX 3),
  -- p434/arith_amd64.s:905
  ADCQ (.reg DX) (.reg R8),
  -- p434/arith_amd64.s:906
  ADCQ (.imm 0) (.reg R9),
  -- p434/arith_amd64.s:908
  XORQ (.reg R10) (.reg R10),
  -- p434/arith_amd64.s:909
  MOVQ (.mem SI 3) (.reg AX),
  -- p434/arith_amd64.s:910
  MULQ (.reg R12),
  -- p434/arith_amd64.s:911
  ADDQ (.reg AX) (.reg R8),
  -- p434/arith_amd64.s:912
  ADCQ (.reg DX) (.reg R9),
  -- p434/arith_amd64.s:913
  ADCQ (.imm 0) (.reg R10),
  -- p434/arith_amd64.s:915
  MOVQ (.mem SI 1) (.reg AX),
  -- p434/arith_amd64.s:916
  MULQ (.reg R15),
  -- p434/arith_amd64.s:917
  ADDQ (.reg AX) (.reg R8),
  -- p434/arith_amd64.s:918
  ADCQ (.reg DX) (.reg R9),
  -- p434/arith_amd64.s:919
  ADCQ (.imm 0) (.reg R10),
  -- p434/arith_amd64.s:921
  MOVQ (.mem SI 2) (.reg AX),
  -- p434/arith_amd64.s:922
  MULQ (.reg R14),
  -- p434/arith_amd64.s:923
  ADDQ (.reg AX) (.reg R8),
  -- p434/arith_amd64.s:924
  MOVQ (.reg R8) (.mem CX 4),
  -- p434/arith_amd64.s:925
  ADCQ (.reg DX) (.reg R9),
  -- p434/arith_amd64.s:926
  ADCQ (.imm 0) (.reg R10),
  -- p434/arith_amd64.s:928
  XORQ (.reg R8) (.reg R8),
  -- p434/arith_amd64.s:929
  MOVQ (.mem SI 3) (.reg AX),
  -- p434/arith_amd64.s:930
  MULQ (.reg R14),
  -- p434/arith_amd64.s:931
  ADDQ (.reg AX) (.reg R9),
  -- p434/arith_amd64.s:932
  ADCQ (.reg DX) (.reg R10),
  -- p434/arith_amd64.s:933
  ADCQ (.imm 0) (.reg R8),
  -- p434/arith_amd64.s:935
  MOVQ (.mem SI 2) (.reg AX),
  -- p434/arith_amd64.s:936
  MULQ (.reg R15),
  -- p434/arith_amd64.s:937
  ADDQ (.reg AX) (.reg R9),
  -- p434/arith_amd64.s:938
  MOVQ (.reg R9) (.mem CX 5),
  -- p434/arith_amd64.s:939
  ADCQ (.reg DX) (.reg R10),
  -- p434/arith_amd64.s:940
  ADCQ (.imm 0) (.reg R8),
  -- p434/arith_amd64.s:942
  MOVQ (.mem SI 3) (.reg AX),
  -- p434/arith_amd64.s:943
  MULQ (.reg R15),
  -- p434/arith_amd64.s:944
  ADDQ (.reg AX) (.reg R10),
  -- p434/arith_amd64.s:945
  MOVQ (.reg R10) (.mem CX 6),
  -- p434/arith_amd64.s:946
  ADCQ (.reg DX) (.reg R8),
  -- p434/arith_amd64.s:947
  MOVQ (.reg R8) (.mem CX 7),
  -- p434/arith_amd64.s:951
  MOVQ (.mem DI 4) (.reg R11),
  -- p434/arith_amd64.s:952
  MOVQ (.mem SI 4) (.reg AX),
  -- p434/arith_amd64.s:953
  MULQ (.reg R11),
  -- p434/arith_amd64.s:954
  XORQ (.reg R9) (.reg R9),
  -- p434/arith_amd64.s:955
  MOVQ (.reg AX) (.mem CX 8),
  -- p434/arith_amd64.s:956
  MOVQ (.reg DX) (.reg R8),
  -- p434/arith_amd64.s:958
  MOVQ (.mem DI 6) (.reg R14),
  -- p434/arith_amd64.s:959
  MOVQ (.mem SI 5) (.reg AX),
  -- p434/arith_amd64.s:960
  MULQ (.reg R11),
  -- p434/arith_amd64.s:961
  XORQ (.reg R10) (.reg R10),
  -- p434/arith_amd64.s:962
  ADDQ (.reg AX) (.reg R8),
  -- p434/arith_amd64.s:963
  ADCQ (.reg DX) (.reg R9),
  -- p434/arith_amd64.s:965
  MOVQ (.mem DI 5) (.reg R12),
  -- p434/arith_amd64.s:966
  MOVQ (.mem SI 4) (.reg AX),
  -- p434/arith_amd64.s:967
  MULQ (.reg R12),
  -- p434/arith_amd64.s:968
  ADDQ (.reg AX) (.reg R8),
  -- p434/arith_amd64.s:969
  MOVQ (.reg R8) (.mem CX 9),
  -- p434/arith_amd64.s:970
  ADCQ (.reg DX) (.reg R9),
  -- p434/arith_amd64.s:971
  ADCQ (.imm 0) (.reg R10),
  -- p434/arith_amd64.s:973
  XORQ (.reg R8) (.reg R8),
  -- p434/arith_amd64.s:974
  MOVQ (.mem SI 6) (.reg AX),
  -- p434/arith_amd64.s:975
  MULQ (.reg R11),
  -- p434/arith_amd64.s:976
  ADDQ (.reg AX) (.reg R9),
  -- p434/arith_amd64.s:977
  ADCQ (.reg DX) (.reg R10),
  -- p434/arith_amd64.s:978
  ADCQ (.imm 0) (.reg R8),
  -- p434/arith_amd64.s:980
  MOVQ (.mem SI 4) (.reg R13),
  -- p434/arith_amd64.s:981
  MOVQ (.reg R14) (.reg AX),
  -- p434/arith_amd64.s:982
  MULQ (.reg R13),
  -- p434/arith_amd64.s:983
  ADDQ (.reg AX) (.reg R9),
  -- p434/arith_amd64.s:984
  ADCQ (.reg DX) (.reg R10),
  -- p434/arith_amd64.s:985
  ADCQ (.imm 0) (.reg R8),
  -- p434/arith_amd64.s:987
  MOVQ (.mem SI 5) (.reg AX),
  -- p434/arith_amd64.s:988
  MULQ (.reg R12),
  -- p434/arith_amd64.s:989
  ADDQ (.reg AX) (.reg R9),
  -- p434/arith_amd64.s:990
  MOVQ (.reg R9) (.mem CX 10),
  -- p434/arith_amd64.s:991
  ADCQ (.reg DX) (.reg R10),
  -- p434/arith_amd64.s:992
  ADCQ (.imm 0) (.reg R8),
  -- p434/arith_amd64.s:994
  MOVQ (.mem SI 6) (.reg AX),
  -- p434/arith_amd64.s:995
  MULQ (.reg R12),
  -- p434/arith_amd64.s:996
  XORQ (.reg R12) (.reg R12),
  -- p434/arith_amd64.s:997
  ADDQ (.reg AX) (.reg R10),
  -- p434/arith_amd64.s:998
  ADCQ (.reg DX) (.reg R8),
  -- p434/arith_amd64.s:999
  ADCQ (.imm 0) (.reg R12),
  -- p434/arith_amd64.s:1001
  MOVQ (.mem SI 5) (.reg AX),
  -- p434/arith_amd64.s:1002
  MULQ (.reg R14),
  -- p434/arith_amd64.s:1003
  ADDQ (.reg AX) (.reg R10),
  -- p434/arith_amd64.s:1004
  ADCQ (.reg DX) (.reg R8),
  -- p434/arith_amd64.s:1005
  ADCQ (.imm 0) (.reg R12),
  -- p434/arith_amd64.s:1006
  MOVQ (.reg R10) (.mem CX 11),
  -- p434/arith_amd64.s:1008
  MOVQ (.mem SI 6) (.reg AX),
  -- p434/arith_amd64.s:1009
  MULQ (.reg R14),
  -- p434/arith_amd64.s:1010
  ADDQ (.reg AX) (.reg R8),
  -- p434/arith_amd64.s:1011
  ADCQ (.imm 0) (.reg R12),
  -- p434/arith_amd64.s:1012
  MOVQ (.reg R8) (.mem CX 12),
  -- p434/arith_amd64.s:1014
  ADDQ (.reg R12) (.reg DX),
  -- p434/arith_amd64.s:1017
  MOVQ (.mem SP 0) (.reg R8),
  -- p434/arith_amd64.s:1018
  SUBQ (.mem CX 0) (.reg R8),
  -- p434/arith_amd64.s:1019
  MOVQ (.mem SP 1) (.reg R9),
  -- p434/arith_amd64.s:1020
  SBBQ (.mem CX 1) (.reg R9),
  -- p434/arith_amd64.s:1021
  MOVQ (.mem SP 2) (.reg R10),
  -- p434/arith_amd64.s:1022
  SBBQ (.mem CX 2) (.reg R10),
  -- p434/arith_amd64.s:1023
  MOVQ (.mem SP 3) (.reg R11),
  -- p434/arith_amd64.s:1024
  SBBQ (.mem CX 3) (.reg R11),
  -- p434/arith_amd64.s:1025
  MOVQ (.mem SP 10) (.reg R12),
  -- p434/arith_amd64.s:1026
  SBBQ (.mem CX 4) (.reg R12),
  -- p434/arith_amd64.s:1027
  MOVQ (.mem SP 11) (.reg R13),
  -- p434/arith_amd64.s:1028
  SBBQ (.mem CX 5) (.reg R13),
  -- p434/arith_amd64.s:1029
  MOVQ (.mem SP 12) (.reg R14),
  -- p434/arith_amd64.s:1030
  SBBQ (.mem CX 6) (.reg R14),
  -- p434/arith_amd64.s:1031
  MOVQ (.mem SP 13) (.reg R15),
  -- p434/arith_amd64.s:1032
  SBBQ (.mem CX 7) (.reg R15),
  -- p434/arith_amd64.s:1035
  MOVQ (.mem CX 8) (.reg AX),
  -- p434/arith_amd64.s:1036
  SUBQ (.reg AX) (.reg R8),
  -- p434/arith_amd64.s:1037
  MOVQ (.mem CX 9) (.reg AX),
  -- p434/arith_amd64.s:1038
  SBBQ (.reg AX) (.reg R9),
  -- p434/arith_amd64.s:1039
  MOVQ (.mem CX 10) (.reg AX),
  -- p434/arith_amd64.s:1040
  SBBQ (.reg AX) (.reg R10),
  -- p434/arith_amd64.s:1041
  MOVQ (.mem CX 11) (.reg AX),
  -- p434/arith_amd64.s:1042
  SBBQ (.reg AX) (.reg R11),
  -- p434/arith_amd64.s:1043
  MOVQ (.mem CX 12) (.reg AX),
  -- p434/arith_amd64.s:1044
  SBBQ (.reg AX) (.reg R12),
  -- p434/arith_amd64.s:1045
  SBBQ (.reg DX) (.reg R13),
  -- p434/arith_amd64.s:1046
  SBBQ (.imm 0) (.reg R14),
  -- p434/arith_amd64.s:1047
  SBBQ (.imm 0) (.reg R15),
  -- p434/arith_amd64.s:1050
  ADDQ (.mem CX 4) (.reg R8),
  -- p434/arith_amd64.s:1051
  MOVQ (.reg R8) (.mem CX 4),
  -- p434/arith_amd64.s:1052
  ADCQ (.mem CX 5) (.reg R9),
  -- p434/arith_amd64.s:1053
  MOVQ (.reg R9) (.mem CX 5),
  -- p434/arith_amd64.s:1054
  ADCQ (.mem CX 6) (.reg R10),
  -- p434/arith_amd64.s:1055
  MOVQ (.reg R10) (.mem CX 6),
  -- p434/arith_amd64.s:1056
  ADCQ (.mem CX 7) (.reg R11),
  -- p434/arith_amd64.s:1057
  MOVQ (.reg R11) (.mem CX 7),
  -- p434/arith_amd64.s:1058
  ADCQ (.mem CX 8) (.reg R12),
  -- p434/arith_amd64.s:1059
  MOVQ (.reg R12) (.mem CX 8),
  -- p434/arith_amd64.s:1060
  ADCQ (.mem CX 9) (.reg R13),
  -- p434/arith_amd64.s:1061
  MOVQ (.reg R13) (.mem CX 9),
  -- p434/arith_amd64.s:1062
  ADCQ (.mem CX 10) (.reg R14),
  -- p434/arith_amd64.s:1063
  MOVQ (.reg R14) (.mem CX 10),
  -- p434/arith_amd64.s:1064
  ADCQ (.mem CX 11) (.reg R15),
  -- p434/arith_amd64.s:1065
  MOVQ (.reg R15) (.mem CX 11),
  -- p434/arith_amd64.s:1066
  MOVQ (.mem CX 12) (.reg R12),
  -- p434/arith_amd64.s:1067
  ADCQ (.imm 0) (.reg R12),
  -- p434/arith_amd64.s:1068
  MOVQ (.reg R12) (.mem CX 12),
  -- p434/arith_amd64.s:1069
  ADCQ (.imm 0) (.reg DX),
  -- p434/arith_amd64.s:1070
  MOVQ (.reg DX) (.mem CX 13)
  ]

def mul : Routine := { code := mulCode, frame := 14, glob := [] }

/-- p434/arith_amd64.s:650-1202 `mulP434`, with BMI2 and ADX -/
def mul_adxCode : List Instr := [
  -- p434/arith_amd64.s:650
  MOVQ (.mem FP 0) (.reg CX),
  -- p434/arith_amd64.s:651
  MOVQ (.mem FP 1) (.reg DI),
  -- p434/arith_amd64.s:652
  MOVQ (.mem FP 2) (.reg SI),
  -- p434/arith_amd64.s:1076
  XORQ (.reg AX) (.reg AX),
  -- p434/arith_amd64.s:1077
  MOVQ (.mem DI 0) (.reg R8),
  -- p434/arith_amd64.s:1078
  MOVQ (.mem DI 1) (.reg R9),
  -- p434/arith_amd64.s:1079
  MOVQ (.mem DI 2) (.reg R10),
  -- p434/arith_amd64.s:1080
  MOVQ (.mem DI 3) (.reg R11),
  -- p434/arith_amd64.s:1082
  MOVQ (.reg BP) (.mem SP 14),
  -- p434/arith_amd64.s:1084
  ADDQ (.mem DI 4) (.reg R8),
  -- p434/arith_amd64.s:1085
  ADCQ (.mem DI 5) (.reg R9),
  -- p434/arith_amd64.s:1086
  ADCQ (.mem DI 6) (.reg R10),
  -- p434/arith_amd64.s:1087
  ADCQ (.imm 0) (.reg R11),
  -- p434/arith_amd64.s:1088
  SBBQ (.imm 0) (.reg AX),
  -- p434/arith_amd64.s:1089
  MOVQ (.reg R8) (.mem SP 0),
  -- p434/arith_amd64.s:1090
  MOVQ (.reg R9) (.mem SP 1),
  -- p434/arith_amd64.s:1091
  MOVQ (.reg R10) (.mem SP 2),
  -- p434/arith_amd64.s:1092
  MOVQ (.reg R11) (.mem SP 3),
  -- p434/arith_amd64.s:1095
  XORQ (.reg BX) (.reg BX),
  -- p434/arith_amd64.s:1096
  MOVQ (.mem SI 0) (.reg R12),
  -- p434/arith_amd64.s:1097
  MOVQ (.mem SI 1) (.reg R13),
  -- p434/arith_amd64.s:1098
  MOVQ (.mem SI 2) (.reg R14),
  -- p434/arith_amd64.s:1099
  MOVQ (.mem SI 3) (.reg R15),
  -- p434/arith_amd64.s:1100
  ADDQ (.mem SI 4) (.reg R12),
  -- p434/arith_amd64.s:1101
  ADCQ (.mem SI 5) (.reg R13),
  -- p434/arith_amd64.s:1102
  ADCQ (.mem SI 6) (.reg R14),
  -- p434/arith_amd64.s:1103
  ADCQ (.imm 0) (.reg R15),
  -- p434/arith_amd64.s:1104
  SBBQ (.imm 0) (.reg BX),
  -- p434/arith_amd64.s:1105
  MOVQ (.reg R12) (.mem SP 4),
  -- p434/arith_amd64.s:1106
  MOVQ (.reg R13) (.mem SP 5),
  -- p434/arith_amd64.s:1107
  MOVQ (.reg R14) (.mem SP 6),
  -- p434/arith_amd64.s:1108
  MOVQ (.reg R15) (.mem SP 7),
  -- p434/arith_amd64.s:1111
  ANDQ (.reg AX) (.reg R12),
  -- p434/arith_amd64.s:1112
  ANDQ (.reg AX) (.reg R13),
  -- p434/arith_amd64.s:1113
  ANDQ (.reg AX) (.reg R14),
  -- p434/arith_amd64.s:1114
  ANDQ (.reg AX) (.reg R15),
  -- p434/arith_amd64.s:1117
  ANDQ (.reg BX) (.reg R8),
  -- p434/arith_amd64.s:1118
  ANDQ (.reg BX) (.reg R9),
  -- p434/arith_amd64.s:1119
  ANDQ (.reg BX) (.reg R10),
  -- p434/arith_amd64.s:1120
  ANDQ (.reg BX) (.reg R11),
  -- p434/arith_amd64.s:1123
  ADDQ (.reg R12) (.reg R8),
  -- p434/arith_amd64.s:1124
  ADCQ (.reg R13) (.reg R9),
  -- p434/arith_amd64.s:1125
  ADCQ (.reg R14) (.reg R10),
  -- p434/arith_amd64.s:1126
  ADCQ (.reg R15) (.reg R11),
  -- p434/arith_amd64.s:1127
  MOVQ (.reg R8) (.mem SP 8),
  -- p434/arith_amd64.s:1128
  MOVQ (.reg R9) (.mem SP 9),
  -- p434/arith_amd64.s:1129
  MOVQ (.reg R10) (.mem SP 10),
  -- p434/arith_amd64.s:1130
  MOVQ (.reg R11) (.mem SP 11),
  -- p434/arith_amd64.s:1133
  MOVQ (.mem SP 0) (.reg DX),
  MULXQ (.mem SP 4) (.reg R9) (.reg R8),
  MOVQ (.reg R9) (.mem SP 0),
  MULXQ (.mem SP 5) (.reg R10) (.reg R9),
  XORQ (.reg AX) (.reg AX),
  ADOXQ (.reg R10) (.reg R8),
  MULXQ (.mem SP 6) (.reg R11) (.reg R10),
  ADOXQ (.reg R11) (.reg R9),
  MULXQ (.mem SP 7) (.reg R12) (.reg R11),
  ADOXQ (.reg R12) (.reg R10),
  MOVQ (.mem SP 1) (.reg DX),
  MULXQ (.mem SP 4) (.reg R12) (.reg R13),
  ADOXQ (.reg AX) (.reg R11),
  XORQ (.reg AX) (.reg AX),
  MULXQ (.mem SP 5) (.reg R15) (.reg R14),
  ADOXQ (.reg R8) (.reg R12),
  MOVQ (.reg R12) (.mem SP 1),
  ADCXQ (.reg R15) (.reg R13),
  MULXQ (.mem SP 6) (.reg BX) (.reg R15),
  ADCXQ (.reg BX) (.reg R14),
  ADOXQ (.reg R9) (.reg R13),
  MULXQ (.mem SP 7) (.reg BP) (.reg BX),
  ADCXQ (.reg BP) (.reg R15),
  ADCXQ (.reg AX) (.reg BX),
  ADOXQ (.reg R10) (.reg R14),
  MOVQ (.mem SP 2) (.reg DX),
  MULXQ (.mem SP 4) (.reg R8) (.reg R9),
  ADOXQ (.reg R11) (.reg R15),
  ADOXQ (.reg AX) (.reg BX),
  XORQ (.reg AX) (.reg AX),
  MULXQ (.mem SP 5) (.reg R11) (.reg R10),
  ADOXQ (.reg R13) (.reg R8),
  MOVQ (.reg R8) (.mem SP 2),
  ADCXQ (.reg R11) (.reg R9),
  MULXQ (.mem SP 6) (.reg R12) (.reg R11),
  ADCXQ (.reg R12) (.reg R10),
  ADOXQ (.reg R14) (.reg R9),
  MULXQ (.mem SP 7) (.reg BP) (.reg R12),
  ADCXQ (.reg BP) (.reg R11),
  ADCXQ (.reg AX) (.reg R12),
  ADOXQ (.reg R15) (.reg R10),
  ADOXQ (.reg BX) (.reg R11),
  ADOXQ (.reg AX) (.reg R12),
  MOVQ (.mem SP 3) (.reg DX),
  MULXQ (.mem SP 4) (.reg R8) (.reg R13),
  XORQ (.reg AX) (.reg AX),
  MULXQ (.mem SP 5) (.reg R15) (.reg R14),
  ADCXQ (.reg R15) (.reg R13),
  ADOXQ (.reg R8) (.reg R9),
  MULXQ (.mem SP 6) (.reg BX) (.reg R15),
  ADCXQ (.reg BX) (.reg R14),
  ADOXQ (.reg R13) (.reg R10),
  MULXQ (.mem SP 7) (.reg BP) (.reg BX),
  ADCXQ (.reg BP) (.reg R15),
  ADCXQ (.reg AX) (.reg BX),
  ADOXQ (.reg R14) (.reg R11),
  ADOXQ (.reg R15) (.reg R12),
  ADOXQ (.reg AX) (.reg BX),
  MOVQ (.reg R9) (.mem SP 3),
  MOVQ (.reg R10) (.mem SP 4),
  MOVQ (.reg R11) (.mem SP 5),
  MOVQ (.reg R12) (.mem SP 6),
  MOVQ (.reg BX) (.mem SP 7),
  -- p434/arith_amd64.s:1135
  MOVQ (.mem DI 0) (.reg DX),
  MULXQ (.mem SI 0) (.reg R9) (.reg R8),
  MOVQ (.reg R9) (.mem CX 0),
  MULXQ (.mem SI 1) (.reg R10) (.reg R9),
  XORQ (.reg AX) (.reg AX),
  ADOXQ (.reg R10) (.reg R8),
  MULXQ (.mem SI 2) (.reg R11) (.reg R10),
  ADOXQ (.reg R11) (.reg R9),
  MULXQ (.mem SI 3) (.reg R12) (.reg R11),
  ADOXQ (.reg R12) (.reg R10),
  MOVQ (.mem DI 1) (.reg DX),
  MULXQ (.mem SI 0) (.reg R12) (.reg R13),
  ADOXQ (.reg AX) (.reg R11),
  XORQ (.reg AX) (.reg AX),
  MULXQ (.mem SI 1) (.reg R15) (.reg R14),
  ADOXQ (.reg R8) (.reg R12),
  MOVQ (.reg R12) (.mem CX 1),
  ADCXQ (.reg R15) (.reg R13),
  MULXQ (.mem SI 2) (.reg BX) (.reg R15),
  ADCXQ (.reg BX) (.reg R14),
  ADOXQ (.reg R9) (.reg R13),
  MULXQ (.mem SI 3) (.reg BP) (.reg BX),
  ADCXQ (.reg BP) (.reg R15),
  ADCXQ (.reg AX) (.reg BX),
  ADOXQ (.reg R10) (.reg R14),
  MOVQ (.mem DI 2) (.reg DX),
  MULXQ (.mem SI 0) (.reg R8) (.reg R9),
  ADOXQ (.reg R11) (.reg R15),
  ADOXQ (.reg AX) (.reg BX),
  XORQ (.reg AX) (.reg AX),
  MULXQ (.mem SI 1) (.reg R11) (.reg R10),
  ADOXQ (.reg R13) (.reg R8),
  MOVQ (.reg R8) (.mem CX 2),
  ADCXQ (.reg R11) (.reg R9),
  MULXQ (.mem SI 2) (.reg R12) (.reg R11),
  ADCXQ (.reg R12) (.reg R10),
  ADOXQ (.reg R14) (.reg R9),
  MULXQ (.mem SI 3) (.reg BP) (.reg R12),
  ADCXQ (.reg BP) (.reg R11),
  ADCXQ (.reg AX) (.reg R12),
  ADOXQ (.reg R15) (.reg R10),
  ADOXQ (.reg BX) (.reg R11),
  ADOXQ (.reg AX) (.reg R12),
  MOVQ (.mem DI 3) (.reg DX),
  MULXQ (.mem SI 0) (.reg R8) (.reg R13),
  XORQ (.reg AX) (.reg AX),
  MULXQ (.mem SI 1) (.reg R15) (.reg R14),
  ADCXQ (.reg R15) (.reg R13),
  ADOXQ (.reg R8) (.reg R9),
  MULXQ (.mem SI 2) (.reg BX) (.reg R15),
  ADCXQ (.reg BX) (.reg R14),
  ADOXQ (.reg R13) (.reg R10),
  MULXQ (.mem SI 3) (.reg BP) (.reg BX),
  ADCXQ (.reg BP) (.reg R15),
  ADCXQ (.reg AX) (.reg BX),
  ADOXQ (.reg R14) (.reg R11),
  ADOXQ (.reg R15) (.reg R12),
  ADOXQ (.reg AX) (.reg BX),
  MOVQ (.reg R9) (.mem CX 3),
  MOVQ (.reg R10) (.mem CX 4),
  MOVQ (.reg R11) (.mem CX 5),
  MOVQ (.reg R12) (.mem CX 6),
  MOVQ (.reg BX) (.mem CX 7),
  -- p434/arith_amd64.s:1137
  MOVQ (.mem DI 4) (.reg DX),
  MULXQ (.mem SI 4) (.reg R9) (.reg R8),
  MOVQ (.reg R9) (.mem CX 8),
  MULXQ (.mem SI 5) (.reg R10) (.reg R9),
  XORQ (.reg AX) (.reg AX),
  ADOXQ (.reg R10) (.reg R8),
  MULXQ (.mem SI 6) (.reg R11) (.reg R10),
  ADOXQ (.reg R11) (.reg R9),
  MOVQ (.mem DI 5) (.reg DX),
  MULXQ (.mem SI 4) (.reg R12) (.reg R11),
  ADOXQ (.reg AX) (.reg R10),
  XORQ (.reg AX) (.reg AX),
  MULXQ (.mem SI 5) (.reg R14) (.reg R13),
  ADOXQ (.reg R8) (.reg R12),
  MOVQ (.reg R12) (.mem CX 9),
  ADCXQ (.reg R14) (.reg R11),
  MULXQ (.mem SI 6) (.reg R8) (.reg R14),
  ADOXQ (.reg R9) (.reg R11),
  ADCXQ (.reg R8) (.reg R13),
  ADCXQ (.reg AX) (.reg R14),
  ADOXQ (.reg R10) (.reg R13),
  MOVQ (.mem DI 6) (.reg DX),
  MULXQ (.mem SI 4) (.reg R8) (.reg R9),
  ADOXQ (.reg AX) (.reg R14),
  XORQ (.reg AX) (.reg AX),
  MULXQ (.mem SI 5) (.reg R10) (.reg R12),
  ADOXQ (.reg R11) (.reg R8),
  MOVQ (.reg R8) (.mem CX 10),
  ADCXQ (.reg R13) (.reg R9),
  MULXQ (.mem SI 6) (.reg R11) (.reg R8),
  ADCXQ (.reg R14) (.reg R12),
  ADCXQ (.reg AX) (.reg R8),
  ADOXQ (.reg R10) (.reg R9),
  ADOXQ (.reg R12) (.reg R11),
  ADOXQ (.reg AX) (.reg R8),
  MOVQ (.reg R9) (.mem CX 11),
  MOVQ (.reg R11) (.mem CX 12),
  MOVQ (.reg R8) (.mem CX 13),
  -- p434/arith_amd64.s:1140
  MOVQ (.mem SP 8) (.reg R8),
  -- p434/arith_amd64.s:1141
  MOVQ (.mem SP 9) (.reg R9),
  -- p434/arith_amd64.s:1142
  MOVQ (.mem SP 10) (.reg R10),
  -- p434/arith_amd64.s:1143
  MOVQ (.mem SP 11) (.reg R11),
  -- p434/arith_amd64.s:1145
  MOVQ (.mem SP 4) (.reg AX),
  -- p434/arith_amd64.s:1146
  ADDQ (.reg AX) (.reg R8),
  -- p434/arith_amd64.s:1147
  MOVQ (.mem SP 5) (.reg AX),
  -- p434/arith_amd64.s:1148
  ADCQ (.reg AX) (.reg R9),
  -- p434/arith_amd64.s:1149
  MOVQ (.mem SP 6) (.reg AX),
  -- p434/arith_amd64.s:1150
  ADCQ (.reg AX) (.reg R10),
  -- p434/arith_amd64.s:1151
  MOVQ (.mem SP 7) (.reg AX),
  -- p434/arith_amd64.s:1152
  ADCQ (.reg AX) (.reg R11),
  -- p434/arith_amd64.s:1155
  MOVQ (.mem SP 0) (.reg R12),
  -- p434/arith_amd64.s:1156
  MOVQ (.mem SP 1) (.reg R13),
  -- p434/arith_amd64.s:1157
  MOVQ (.mem SP 2) (.reg R14),
  -- p434/arith_amd64.s:1158
  MOVQ (.mem SP 3) (.reg R15),
  -- p434/arith_amd64.s:1159
  SUBQ (.mem CX 0) (.reg R12),
  -- p434/arith_amd64.s:1160
  SBBQ (.mem CX 1) (.reg R13),
  -- p434/arith_amd64.s:1161
  SBBQ (.mem CX 2) (.reg R14),
  -- p434/arith_amd64.s:1162
  SBBQ (.mem CX 3) (.reg R15),
  -- p434/arith_amd64.s:1163
  SBBQ (.mem CX 4) (.reg R8),
  -- p434/arith_amd64.s:1164
  SBBQ (.mem CX 5) (.reg R9),
  -- p434/arith_amd64.s:1165
  SBBQ (.mem CX 6) (.reg R10),
  -- p434/arith_amd64.s:1166
  SBBQ (.mem CX 7) (.reg R11),
  -- p434/arith_amd64.s:1169
  SUBQ (.mem CX 8) (.reg R12),
  -- p434/arith_amd64.s:1170
  SBBQ (.mem CX 9) (.reg R13),
  -- p434/arith_amd64.s:1171
  SBBQ (.mem CX 10) (.reg R14),
  -- p434/arith_amd64.s:1172
  SBBQ (.mem CX 11) (.reg R15),
  -- p434/arith_amd64.s:1173
  SBBQ (.mem CX 12) (.reg R8),
  -- p434/arith_amd64.s:1174
  SBBQ (.mem CX 13) (.reg R9),
  -- p434/arith_amd64.s:1175
  SBBQ (.imm 0) (.reg R10),
  -- p434/arith_amd64.s:1176
  SBBQ (.imm 0) (.reg R11),
  -- p434/arith_amd64.s:1178
  ADDQ (.mem CX 4) (.reg R12),
  -- p434/arith_amd64.s:1179
  MOVQ (.reg R12) (.mem CX 4),
  -- p434/arith_amd64.s:1180
  ADCQ (.mem CX 5) (.reg R13),
  -- p434/arith_amd64.s:1181
  MOVQ (.reg R13) (.mem CX 5),
  -- p434/arith_amd64.s:1182
  ADCQ (.mem CX 6) (.reg R14),
  -- p434/arith_amd64.s:1183
  MOVQ (.reg R14) (.mem CX 6),
  -- p434/arith_amd64.s:1184
  ADCQ (.mem CX 7) (.reg R15),
  -- p434/arith_amd64.s:1185
  MOVQ (.reg R15) (.mem CX 7),
  -- p434/arith_amd64.s:1186
  ADCQ (.mem CX 8) (.reg R8),
  -- p434/arith_amd64.s:1187
  MOVQ (.reg R8) (.mem CX 8),
  -- p434/arith_amd64.s:1188
  ADCQ (.mem CX 9) (.reg R9),
  -- p434/arith_amd64.s:1189
  MOVQ (.reg R9) (.mem CX 9),
  -- p434/arith_amd64.s:1190
  ADCQ (.mem CX 10) (.reg R10),
  -- p434/arith_amd64.s:1191
  MOVQ (.reg R10) (.mem CX 10),
  -- p434/arith_amd64.s:1192
  ADCQ (.mem CX 11) (.reg R11),
  -- p434/arith_amd64.s:1193
  MOVQ (.reg R11) (.mem CX 11),
  -- p434/arith_amd64.s:1194
  MOVQ (.mem CX 12) (.reg R12),
  -- p434/arith_amd64.s:1195
  ADCQ (.imm 0) (.reg R12),
  -- p434/arith_amd64.s:1196
  MOVQ (.reg R12) (.mem CX 12),
  -- p434/arith_amd64.s:1197
  MOVQ (.mem CX 13) (.reg R13),
  -- p434/arith_amd64.s:1198
  ADCQ (.imm 0) (.reg R13),
  -- p434/arith_amd64.s:1199
  MOVQ (.reg R13) (.mem CX 13),
  -- p434/arith_amd64.s:1201
  MOVQ (.mem SP 14) (.reg BP)
  ]

def mul_adx : Routine := { code := mul_adxCode, frame := 14, glob := [] }

/-- p434/arith_amd64.s:1205-1232 `rdcP434` -/
def rdcCode : List Instr := [
  -- p434/arith_amd64.s:1205
  MOVQ (.mem FP 0) (.reg SI),
  -- p434/arith_amd64.s:1206
  MOVQ (.mem FP 1) (.reg DI),
  -- p434/arith_amd64.s:1213
  MOVQ (.mem DI 0) (.reg R14),
  MOVQ (.glob 2 3) (.reg AX),
  MULQ (.reg R14),
  XORQ (.reg R10) (.reg R10),
  MOVQ (.reg AX) (.reg R8),
  MOVQ (.reg DX) (.reg R9),
  MOVQ (.glob 2 4) (.reg AX),
  MULQ (.reg R14),
  XORQ (.reg R11) (.reg R11),
  ADDQ (.reg AX) (.reg R9),
  ADCQ (.reg DX) (.reg R10),
  MOVQ (.mem DI 1) (.reg CX),
  MOVQ (.glob 2 3) (.reg AX),
  MULQ (.reg CX),
  ADDQ (.reg AX) (.reg R9),
  ADCQ (.reg DX) (.reg R10),
  ADCQ (.imm 0) (.reg R11),
  XORQ (.reg R12) (.reg R12),
  MOVQ (.glob 2 5) (.reg AX),
  MULQ (.reg R14),
  ADDQ (.reg AX) (.reg R10),
  ADCQ (.reg DX) (.reg R11),
  ADCQ (.imm 0) (.reg R12),
  MOVQ (.glob 2 4) (.reg AX),
  MULQ (.reg CX),
  ADDQ (.reg AX) (.reg R10),
  ADCQ (.reg DX) (.reg R11),
  ADCQ (.imm 0) (.reg R12),
  MOVQ (.glob 2 6) (.reg AX),
  MULQ (.reg R14),
  XORQ (.reg R13) (.reg R13),
  ADDQ (.reg AX) (.reg R11),
  ADCQ (.reg DX) (.reg R12),
  ADCQ (.imm 0) (.reg R13),
  MOVQ (.glob 2 5) (.reg AX),
  MULQ (.reg CX),
  ADDQ (.reg AX) (.reg R11),
  ADCQ (.reg DX) (.reg R12),
  ADCQ (.imm 0) (.reg R13),
  MOVQ (.glob 2 6) (.reg AX),
  MULQ (.reg CX),
  ADDQ (.reg AX) (.reg R12),
  ADCQ (.reg DX) (.reg R13),
  XORQ (.reg CX) (.reg CX),
  ADDQ (.mem DI 3) (.reg R8),
  ADCQ (.mem DI 4) (.reg R9),
  ADCQ (.mem DI 5) (.reg R10),
  ADCQ (.mem DI 6) (.reg R11),
  ADCQ (.mem DI 7) (.reg R12),
  ADCQ (.mem DI 8) (.reg R13),
  ADCQ (.mem DI 9) (.reg CX),
  MOVQ (.reg R8) (.mem DI 3),
  MOVQ (.reg R9) (.mem DI 4),
  MOVQ (.reg R10) (.mem DI 5),
  MOVQ (.reg R11) (.mem DI 6),
  MOVQ (.reg R12) (.mem DI 7),
  MOVQ (.reg R13) (.mem DI 8),
  MOVQ (.reg CX) (.mem DI 9),
  MOVQ (.mem DI 10) (.reg R8),
  MOVQ (.mem DI 11) (.reg R9),
  MOVQ (.mem DI 12) (.reg R10),
  MOVQ (.mem DI 13) (.reg R11),
  ADCQ (.imm 0) (.reg R8),
  ADCQ (.imm 0) (.reg R9),
  ADCQ (.imm 0) (.reg R10),
  ADCQ (.imm 0) (.reg R11),
  MOVQ (.reg R8) (.mem DI 10),
  MOVQ (.reg R9) (.mem DI 11),
  MOVQ (.reg R10) (.mem DI 12),
  MOVQ (.reg R11) (.mem DI 13),
  MOVQ (.mem DI 2) (.reg R14),
  MOVQ (.glob 2 3) (.reg AX),
  MULQ (.reg R14),
  XORQ (.reg R10) (.reg R10),
  MOVQ (.reg AX) (.reg R8),
  MOVQ (.reg DX) (.reg R9),
  MOVQ (.glob 2 4) (.reg AX),
  MULQ (.reg R14),
  XORQ (.reg R11) (.reg R11),
  ADDQ (.reg AX) (.reg R9),
  ADCQ (.reg DX) (.reg R10),
  MOVQ (.mem DI 3) (.reg CX),
  MOVQ (.glob 2 3) (.reg AX),
  MULQ (.reg CX),
  ADDQ (.reg AX) (.reg R9),
  ADCQ (.reg DX) (.reg R10),
  ADCQ (.imm 0) (.reg R11),
  XORQ (.reg R12) (.reg R12),
  MOVQ (.glob 2 5) (.reg AX),
  MULQ (.reg R14),
  ADDQ (.reg AX) (.reg R10),
  ADCQ (.reg DX) (.reg R11),
  ADCQ (.imm 0) (.reg R12),
  MOVQ (.glob 2 4) (.reg AX),
  MULQ (.reg CX),
  ADDQ (.reg AX) (.reg R10),
  ADCQ (.reg DX) (.reg R11),
  ADCQ (.imm 0) (.reg R12),
  MOVQ (.glob 2 6) (.reg AX),
  MULQ (.reg R14),
  XORQ (.reg R13) (.reg R13),
  ADDQ (.reg AX) (.reg R11),
  ADCQ (.reg DX) (.reg R12),
  ADCQ (.imm 0) (.reg R13),
  MOVQ (.glob 2 5) (.reg AX),
  MULQ (.reg CX),
  ADDQ (.reg AX) (.reg R11),
  ADCQ (.reg DX) (.reg R12),
  ADCQ (.imm 0) (.reg R13),
  MOVQ (.glob 2 6) (.reg AX),
  MULQ (.reg CX),
  ADDQ (.reg AX) (.reg R12),
  ADCQ (.reg DX) (.reg R13),
  XORQ (.reg CX) (.reg CX),
  ADDQ (.mem DI 5) (.reg R8),
  ADCQ (.mem DI 6) (.reg R9),
  ADCQ (.mem DI 7) (.reg R10),
  ADCQ (.mem DI 8) (.reg R11),
  ADCQ (.mem DI 9) (.reg R12),
  ADCQ (.mem DI 10) (.reg R13),
  ADCQ (.mem DI 11) (.reg CX),
  MOVQ (.reg R8) (.mem DI 5),
  MOVQ (.reg R9) (.mem DI 6),
  MOVQ (.reg R10) (.mem DI 7),
  MOVQ (.reg R11) (.mem DI 8),
  MOVQ (.reg R12) (.mem DI 9),
  MOVQ (.reg R13) (.mem DI 10),
  MOVQ (.reg CX) (.mem DI 11),
  MOVQ (.mem DI 12) (.reg R8),
  MOVQ (.mem DI 13) (.reg R9),
  ADCQ (.imm 0) (.reg R8),
  ADCQ (.imm 0) (.reg R9),
  MOVQ (.reg R8) (.mem DI 12),
  MOVQ (.reg R9) (.mem DI 13),
  MOVQ (.mem DI 4) (.reg R14),
  MOVQ (.glob 2 3) (.reg AX),
  MULQ (.reg R14),
  XORQ (.reg R10) (.reg R10),
  MOVQ (.reg AX) (.reg R8),
  MOVQ (.reg DX) (.reg R9),
  MOVQ (.glob 2 4) (.reg AX),
  MULQ (.reg R14),
  XORQ (.reg R11) (.reg R11),
  ADDQ (.reg AX) (.reg R9),
  ADCQ (.reg DX) (.reg R10),
  MOVQ (.mem DI 5) (.reg CX),
  MOVQ (.glob 2 3) (.reg AX),
  MULQ (.reg CX),
  ADDQ (.reg AX) (.reg R9),
  ADCQ (.reg DX) (.reg R10),
  ADCQ (.imm 0) (.reg R11),
  XORQ (.reg R12) (.reg R12),
  MOVQ (.glob 2 5) (.reg AX),
  MULQ (.reg R14),
  ADDQ (.reg AX) (.reg R10),
  ADCQ (.reg DX) (.reg R11),
  ADCQ (.imm 0) (.reg R12),
  MOVQ (.glob 2 4) (.reg AX),
  MULQ (.reg CX),
  ADDQ (.reg AX) (.reg R10),
  ADCQ (.reg DX) (.reg R11),
  ADCQ (.imm 0) (.reg R12),
  MOVQ (.glob 2 6) (.reg AX),
  MULQ (.reg R14),
  XORQ (.reg R13) (.reg R13),
  ADDQ (.reg AX) (.reg R11),
  ADCQ (.reg DX) (.reg R12),
  ADCQ (.imm 0) (.reg R13),
  MOVQ (.glob 2 5) (.reg AX),
  MULQ (.reg CX),
  ADDQ (.reg AX) (.reg R11),
  ADCQ (.reg DX) (.reg R12),
  ADCQ (.imm 0) (.reg R13),
  MOVQ (.glob 2 6) (.reg AX),
  MULQ (.reg CX),
  ADDQ (.reg AX) (.reg R12),
  ADCQ (.reg DX) (.reg R13),
  XORQ (.reg CX) (.reg CX),
  ADDQ (.mem DI 7) (.reg R8),
  ADCQ (.mem DI 8) (.reg R9),
  ADCQ (.mem DI 9) (.reg R10),
  ADCQ (.mem DI 10) (.reg R11),
  ADCQ (.mem DI 11) (.reg R12),
  ADCQ (.mem DI 12) (.reg R13),
  ADCQ (.mem DI 13) (.reg CX),
  MOVQ (.reg R8) (.mem SI 0),
  MOVQ (.reg R9) (.mem SI 1),
  MOVQ (.reg R10) (.mem DI 9),
  MOVQ (.reg R11) (.mem DI 10),
  MOVQ (.reg R12) (.mem DI 11),
  MOVQ (.reg R13) (.mem DI 12),
  MOVQ (.reg CX) (.mem DI 13),
  MOVQ (.mem DI 6) (.reg R13),
  XORQ (.reg R10) (.reg R10),
  MOVQ (.glob 2 3) (.reg AX),
  MULQ (.reg R13),
  MOVQ (.reg AX) (.reg R8),
  MOVQ (.reg DX) (.reg R9),
  XORQ (.reg R11) (.reg R11),
  MOVQ (.glob 2 4) (.reg AX),
  MULQ (.reg R13),
  ADDQ (.reg AX) (.reg R9),
  ADCQ (.reg DX) (.reg R10),
  XORQ (.reg R12) (.reg R12),
  MOVQ (.glob 2 5) (.reg AX),
  MULQ (.reg R13),
  ADDQ (.reg AX) (.reg R10),
  ADCQ (.reg DX) (.reg R11),
  MOVQ (.glob 2 6) (.reg AX),
  MULQ (.reg R13),
  ADDQ (.reg AX) (.reg R11),
  ADCQ (.reg DX) (.reg R12),
  ADDQ (.mem DI 9) (.reg R8),
  ADCQ (.mem DI 10) (.reg R9),
  ADCQ (.mem DI 11) (.reg R10),
  ADCQ (.mem DI 12) (.reg R11),
  ADCQ (.mem DI 13) (.reg R12),
  MOVQ (.reg R8) (.mem SI 2),
  MOVQ (.reg R9) (.mem SI 3),
  MOVQ (.reg R10) (.mem SI 4),
  MOVQ (.reg R11) (.mem SI 5),
  MOVQ (.reg R12) (.mem SI 6)
  ]

def rdc : Routine := { code := rdcCode, frame := 0, glob := [p1] }

/-- p434/arith_amd64.s:1205-1232 `rdcP434`, with BMI2 and ADX -/
def rdc_adxCode : List Instr := [
  -- p434/arith_amd64.s:1205
  MOVQ (.mem FP 0) (.reg SI),
  -- p434/arith_amd64.s:1206
  MOVQ (.mem FP 1) (.reg DI),
  -- p434/arith_amd64.s:1227
  XORQ (.reg AX) (.reg AX),
  MOVQ (.mem DI 0) (.reg DX),
  MULXQ (.glob 2 3) (.reg R8) (.reg R9),
  MULXQ (.glob 2 4) (.reg R12) (.reg R10),
  MULXQ (.glob 2 5) (.reg R13) (.reg R11),
  ADOXQ (.reg R12) (.reg R9),
  ADOXQ (.reg R13) (.reg R10),
  MULXQ (.glob 2 6) (.reg R13) (.reg R12),
  ADOXQ (.reg R13) (.reg R11),
  ADOXQ (.reg AX) (.reg R12),
  XORQ (.reg AX) (.reg AX),
  MOVQ (.mem DI 1) (.reg DX),
  MULXQ (.glob 2 3) (.reg R13) (.reg CX),
  ADCXQ (.reg R13) (.reg R9),
  ADCXQ (.reg CX) (.reg R10),
  MULXQ (.glob 2 4) (.reg CX) (.reg R13),
  ADCXQ (.reg R13) (.reg R11),
  ADOXQ (.reg CX) (.reg R10),
  MULXQ (.glob 2 5) (.reg CX) (.reg R13),
  ADCXQ (.reg R13) (.reg R12),
  ADOXQ (.reg CX) (.reg R11),
  MULXQ (.glob 2 6) (.reg CX) (.reg R13),
  ADCXQ (.reg AX) (.reg R13),
  ADOXQ (.reg CX) (.reg R12),
  ADOXQ (.reg AX) (.reg R13),
  XORQ (.reg CX) (.reg CX),
  ADDQ (.mem DI 3) (.reg R8),
  ADCQ (.mem DI 4) (.reg R9),
  ADCQ (.mem DI 5) (.reg R10),
  ADCQ (.mem DI 6) (.reg R11),
  ADCQ (.mem DI 7) (.reg R12),
  ADCQ (.mem DI 8) (.reg R13),
  ADCQ (.mem DI 9) (.reg CX),
  MOVQ (.reg R8) (.mem DI 3),
  MOVQ (.reg R9) (.mem DI 4),
  MOVQ (.reg R10) (.mem DI 5),
  MOVQ (.reg R11) (.mem DI 6),
  MOVQ (.reg R12) (.mem DI 7),
  MOVQ (.reg R13) (.mem DI 8),
  MOVQ (.reg CX) (.mem DI 9),
  MOVQ (.mem DI 10) (.reg R8),
  MOVQ (.mem DI 11) (.reg R9),
  MOVQ (.mem DI 12) (.reg R10),
  MOVQ (.mem DI 13) (.reg R11),
  ADCQ (.imm 0) (.reg R8),
  ADCQ (.imm 0) (.reg R9),
  ADCQ (.imm 0) (.reg R10),
  ADCQ (.imm 0) (.reg R11),
  MOVQ (.reg R8) (.mem DI 10),
  MOVQ (.reg R9) (.mem DI 11),
  MOVQ (.reg R10) (.mem DI 12),
  MOVQ (.reg R11) (.mem DI 13),
  XORQ (.reg AX) (.reg AX),
  MOVQ (.mem DI 2) (.reg DX),
  MULXQ (.glob 2 3) (.reg R8) (.reg R9),
  MULXQ (.glob 2 4) (.reg R12) (.reg R10),
  MULXQ (.glob 2 5) (.reg R13) (.reg R11),
  ADOXQ (.reg R12) (.reg R9),
  ADOXQ (.reg R13) (.reg R10),
  MULXQ (.glob 2 6) (.reg R13) (.reg R12),
  ADOXQ (.reg R13) (.reg R11),
  ADOXQ (.reg AX) (.reg R12),
  XORQ (.reg AX) (.reg AX),
  MOVQ (.mem DI 3) (.reg DX),
  MULXQ (.glob 2 3) (.reg R13) (.reg CX),
  ADCXQ (.reg R13) (.reg R9),
  ADCXQ (.reg CX) (.reg R10),
  MULXQ (.glob 2 4) (.reg CX) (.reg R13),
  ADCXQ (.reg R13) (.reg R11),
  ADOXQ (.reg CX) (.reg R10),
  MULXQ (.glob 2 5) (.reg CX) (.reg R13),
  ADCXQ (.reg R13) (.reg R12),
  ADOXQ (.reg CX) (.reg R11),
  MULXQ (.glob 2 6) (.reg CX) (.reg R13),
  ADCXQ (.reg AX) (.reg R13),
  ADOXQ (.reg CX) (.reg R12),
  ADOXQ (.reg AX) (.reg R13),
  XORQ (.reg CX) (.reg CX),
  ADDQ (.mem DI 5) (.reg R8),
  ADCQ (.mem DI 6) (.reg R9),
  ADCQ (.mem DI 7) (.reg R10),
  ADCQ (.mem DI 8) (.reg R11),
  ADCQ (.mem DI 9) (.reg R12),
  ADCQ (.mem DI 10) (.reg R13),
  ADCQ (.mem DI 11) (.reg CX),
  MOVQ (.reg R8) (.mem DI 5),
  MOVQ (.reg R9) (.mem DI 6),
  MOVQ (.reg R10) (.mem DI 7),
  MOVQ (.reg R11) (.mem DI 8),
  MOVQ (.reg R12) (.mem DI 9),
  MOVQ (.reg R13) (.mem DI 10),
  MOVQ (.reg CX) (.mem DI 11),
  MOVQ (.mem DI 12) (.reg R8),
  MOVQ (.mem DI 13) (.reg R9),
  ADCQ (.imm 0) (.reg R8),
  ADCQ (.imm 0) (.reg R9),
  MOVQ (.reg R8) (.mem DI 12),
  MOVQ (.reg R9) (.mem DI 13),
  XORQ (.reg AX) (.reg AX),
  MOVQ (.mem DI 4) (.reg DX),
  MULXQ (.glob 2 3) (.reg R8) (.reg R9),
  MULXQ (.glob 2 4) (.reg R12) (.reg R10),
  MULXQ (.glob 2 5) (.reg R13) (.reg R11),
  ADOXQ (.reg R12) (.reg R9),
  ADOXQ (.reg R13) (.reg R10),
  MULXQ (.glob 2 6) (.reg R13) (.reg R12),
  ADOXQ (.reg R13) (.reg R11),
  ADOXQ (.reg AX) (.reg R12),
  XORQ (.reg AX) (.reg AX),
  MOVQ (.mem DI 5) (.reg DX),
  MULXQ (.glob 2 3) (.reg R13) (.reg CX),
  ADCXQ (.reg R13) (.reg R9),
  ADCXQ (.reg CX) (.reg R10),
  MULXQ (.glob 2 4) (.reg CX) (.reg R13),
  ADCXQ (.reg R13) (.reg R11),
  ADOXQ (.reg CX) (.reg R10),
  MULXQ (.glob 2 5) (.reg CX) (.reg R13),
  ADCXQ (.reg R13) (.reg R12),
  ADOXQ (.reg CX) (.reg R11),
  MULXQ (.glob 2 6) (.reg CX) (.reg R13),
  ADCXQ (.reg AX) (.reg R13),
  ADOXQ (.reg CX) (.reg R12),
  ADOXQ (.reg AX) (.reg R13),
  XORQ (.reg CX) (.reg CX),
  ADDQ (.mem DI 7) (.reg R8),
  ADCQ (.mem DI 8) (.reg R9),
  ADCQ (.mem DI 9) (.reg R10),
  ADCQ (.mem DI 10) (.reg R11),
  ADCQ (.mem DI 11) (.reg R12),
  ADCQ (.mem DI 12) (.reg R13),
  ADCQ (.mem DI 13) (.reg CX),
  MOVQ (.reg R8) (.mem SI 0),
  MOVQ (.reg R9) (.mem SI 1),
  MOVQ (.reg R10) (.mem DI 9),
  MOVQ (.reg R11) (.mem DI 10),
  MOVQ (.reg R12) (.mem DI 11),
  MOVQ (.reg R13) (.mem DI 12),
  MOVQ (.reg CX) (.mem DI 13),
  XORQ (.reg AX) (.reg AX),
  MOVQ (.mem DI 6) (.reg DX),
  MULXQ (.glob 2 3) (.reg R8) (.reg R9),
  MULXQ (.glob 2 4) (.reg R12) (.reg R10),
  MULXQ (.glob 2 5) (.reg R13) (.reg R11),
  ADOXQ (.reg R12) (.reg R9),
  ADOXQ (.reg R13) (.reg R10),
  MULXQ (.glob 2 6) (.reg R13) (.reg R12),
  ADOXQ (.reg R13) (.reg R11),
  ADOXQ (.reg AX) (.reg R12),
  ADDQ (.mem DI 9) (.reg R8),
  ADCQ (.mem DI 10) (.reg R9),
  ADCQ (.mem DI 11) (.reg R10),
  ADCQ (.mem DI 12) (.reg R11),
  ADCQ (.mem DI 13) (.reg R12),
  MOVQ (.reg R8) (.mem SI 2),
  MOVQ (.reg R9) (.mem SI 3),
  MOVQ (.reg R10) (.mem SI 4),
  MOVQ (.reg R11) (.mem SI 5),
  MOVQ (.reg R12) (.mem SI 6)
  ]

def rdc_adx : Routine := { code := rdc_adxCode, frame := 0, glob := [p1] }

/-- The code of `addP434` that runs on each kind of CPU. -/
def addOn : Cpu → Routine
  | .base => add
  | .bmi2 => add
  | .adx => add

/-- The code of `subP434` that runs on each kind of CPU. -/
def subOn : Cpu → Routine
  | .base => sub
  | .bmi2 => sub
  | .adx => sub

/-- The code of `adlP434` that runs on each kind of CPU. -/
def adlOn : Cpu → Routine
  | .base => adl
  | .bmi2 => adl
  | .adx => adl

/-- The code of `sulP434` that runs on each kind of CPU. -/
def sulOn : Cpu → Routine
  | .base => sul
  | .bmi2 => sul
  | .adx => sul

/-- The code of `modP434` that runs on each kind of CPU. -/
def modOn : Cpu → Routine
  | .base => mod
  | .bmi2 => mod
  | .adx => mod

/-- The code of `mulP434` that runs on each kind of CPU. -/
def mulOn : Cpu → Routine
  | .base => mul
  | .bmi2 => mul
  | .adx => mul_adx

/-- The code of `rdcP434` that runs on each kind of CPU. -/
def rdcOn : Cpu → Routine
  | .base => rdc
  | .bmi2 => rdc
  | .adx => rdc_adx

end Model.Asm434
