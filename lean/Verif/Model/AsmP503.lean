import Verif.Model.Asm
import Verif.Model.SidhParams
/-
The routines of dh/sidh/internal/p503/arith_amd64.s, one straight-line program for each kind of CPU: what remains of the text after
macro expansion and after following the jumps `CMPB ·HasBMI2(SB), $1; JE` and `CMPB ·HasADXandBMI2(SB), $1; JE`.
Printed by gen/asmgen.py; each comment gives the line of /repo/dh/sidh/internal the instructions below it come from.
-/
namespace Model.Asm503
open Model Model.Asm

/-- p503/params.go:`P503p1`, an array of 12 words. -/
def p1 : List W64 := Sidh.prime503.p1 ++ List.replicate 4 0

/-- p503/arith_amd64.s:549-626 `addP503` -/
def addCode : List Instr := [
  -- p503/arith_amd64.s:549
  MOVQ (.mem FP 0) (.reg DX),
  -- p503/arith_amd64.s:550
  MOVQ (.mem FP 1) (.reg DI),
  -- p503/arith_amd64.s:551
  MOVQ (.mem FP 2) (.reg SI),
  -- p503/arith_amd64.s:554
  XORQ (.reg CX) (.reg CX),
  -- p503/arith_amd64.s:557
  MOVQ (.mem DI 0) (.reg R8),
  -- p503/arith_amd64.s:558
  MOVQ (.mem DI 1) (.reg R9),
  -- p503/arith_amd64.s:559
  MOVQ (.mem DI 2) (.reg R10),
  -- p503/arith_amd64.s:560
  MOVQ (.mem DI 3) (.reg R11),
  -- p503/arith_amd64.s:561
  MOVQ (.mem DI 4) (.reg R12),
  -- p503/arith_amd64.s:562
  MOVQ (.mem DI 5) (.reg R13),
  -- p503/arith_amd64.s:563
  MOVQ (.mem DI 6) (.reg R14),
  -- p503/arith_amd64.s:564
  MOVQ (.mem DI 7) (.reg R15),
  -- p503/arith_amd64.s:565
  ADDQ (.mem SI 0) (.reg R8),
  -- p503/arith_amd64.s:566
  ADCQ (.mem SI 1) (.reg R9),
  -- p503/arith_amd64.s:567
  ADCQ (.mem SI 2) (.reg R10),
  -- p503/arith_amd64.s:568
  ADCQ (.mem SI 3) (.reg R11),
  -- p503/arith_amd64.s:569
  ADCQ (.mem SI 4) (.reg R12),
  -- p503/arith_amd64.s:570
  ADCQ (.mem SI 5) (.reg R13),
  -- p503/arith_amd64.s:571
  ADCQ (.mem SI 6) (.reg R14),
  -- p503/arith_amd64.s:572
  ADCQ (.mem SI 7) (.reg R15),
  -- p503/arith_amd64.s:574
  MOVQ (.imm 0xfffffffffffffffe) (.reg AX),
  -- p503/arith_amd64.s:575
  SUBQ (.reg AX) (.reg R8),
  -- p503/arith_amd64.s:576
  MOVQ (.imm 0xffffffffffffffff) (.reg AX),
  -- p503/arith_amd64.s:577
  SBBQ (.reg AX) (.reg R9),
  -- p503/arith_amd64.s:578
  SBBQ (.reg AX) (.reg R10),
  -- p503/arith_amd64.s:579
  MOVQ (.imm 0x57ffffffffffffff) (.reg AX),
  -- p503/arith_amd64.s:580
  SBBQ (.reg AX) (.reg R11),
  -- p503/arith_amd64.s:581
  MOVQ (.imm 0x2610b7b44423cf41) (.reg AX),
  -- p503/arith_amd64.s:582
  SBBQ (.reg AX) (.reg R12),
  -- p503/arith_amd64.s:583
  MOVQ (.imm 0x3737ed90f6fcfb5e) (.reg AX),
  -- p503/arith_amd64.s:584
  SBBQ (.reg AX) (.reg R13),
  -- p503/arith_amd64.s:585
  MOVQ (.imm 0xc08b8d7bb4ef49a0) (.reg AX),
  -- p503/arith_amd64.s:586
  SBBQ (.reg AX) (.reg R14),
  -- p503/arith_amd64.s:587
  MOVQ (.imm 0x80cdea83023c3c) (.reg AX),
  -- p503/arith_amd64.s:588
  SBBQ (.reg AX) (.reg R15),
  -- p503/arith_amd64.s:591
  SBBQ (.imm 0) (.reg CX),
  -- p503/arith_amd64.s:594
  MOVQ (.reg R8) (.mem DX 0),
  -- p503/arith_amd64.s:595
  MOVQ (.reg R9) (.mem DX 1),
  -- p503/arith_amd64.s:596
  MOVQ (.reg R10) (.mem DX 2),
  -- p503/arith_amd64.s:597
  MOVQ (.reg R11) (.mem DX 3),
  -- p503/arith_amd64.s:598
  MOVQ (.reg R12) (.mem DX 4),
  -- p503/arith_amd64.s:599
  MOVQ (.reg R13) (.mem DX 5),
  -- p503/arith_amd64.s:600
  MOVQ (.reg R14) (.mem DX 6),
  -- p503/arith_amd64.s:601
  MOVQ (.reg R15) (.mem DX 7),
  -- p503/arith_amd64.s:604
  MOVQ (.imm 0xfffffffffffffffe) (.reg R8),
  -- p503/arith_amd64.s:605
  MOVQ (.imm 0xffffffffffffffff) (.reg R9),
  -- p503/arith_amd64.s:606
  MOVQ (.imm 0x57ffffffffffffff) (.reg R10),
  -- p503/arith_amd64.s:607
  MOVQ (.imm 0x2610b7b44423cf41) (.reg R11),
  -- p503/arith_amd64.s:608
  MOVQ (.imm 0x3737ed90f6fcfb5e) (.reg R12),
  -- p503/arith_amd64.s:609
  MOVQ (.imm 0xc08b8d7bb4ef49a0) (.reg R13),
  -- p503/arith_amd64.s:610
  MOVQ (.imm 0x80cdea83023c3c) (.reg R14),
  -- p503/arith_amd64.s:611
  ANDQ (.reg CX) (.reg R8),
  -- p503/arith_amd64.s:612
  ANDQ (.reg CX) (.reg R9),
  -- p503/arith_amd64.s:613
  ANDQ (.reg CX) (.reg R10),
  -- p503/arith_amd64.s:614
  ANDQ (.reg CX) (.reg R11),
  -- p503/arith_amd64.s:615
  ANDQ (.reg CX) (.reg R12),
  -- p503/arith_amd64.s:616
  ANDQ (.reg CX) (.reg R13),
  -- p503/arith_amd64.s:617
  ANDQ (.reg CX) (.reg R14),
  -- p503/arith_amd64.s:618
  MOVQ (.mem DX 0) (.reg AX),
  ADDQ (.reg R8) (.reg AX),
  MOVQ (.reg AX) (.mem DX 0),
  -- p503/arith_amd64.s:619
  MOVQ (.mem DX 1) (.reg AX),
  ADCQ (.reg R9) (.reg AX),
  MOVQ (.reg AX) (.mem DX 1),
  -- p503/arith_amd64.s:620
  MOVQ (.mem DX 2) (.reg AX),
  ADCQ (.reg R9) (.reg AX),
  MOVQ (.reg AX) (.mem DX 2),
  -- p503/arith_amd64.s:621
  MOVQ (.mem DX 3) (.reg AX),
  ADCQ (.reg R10) (.reg AX),
  MOVQ (.reg AX) (.mem DX 3),
  -- p503/arith_amd64.s:622
  MOVQ (.mem DX 4) (.reg AX),
  ADCQ (.reg R11) (.reg AX),
  MOVQ (.reg AX) (.mem DX 4),
  -- p503/arith_amd64.s:623
  MOVQ (.mem DX 5) (.reg AX),
  ADCQ (.reg R12) (.reg AX),
  MOVQ (.reg AX) (.mem DX 5),
  -- p503/arith_amd64.s:624
  MOVQ (.mem DX 6) (.reg AX),
  ADCQ (.reg R13) (.reg AX),
  MOVQ (.reg AX) (.mem DX 6),
  -- p503/arith_amd64.s:625
  MOVQ (.mem DX 7) (.reg AX),
  ADCQ (.reg R14) (.reg AX),
  MOVQ (.reg AX) (.mem DX 7)
  ]

def add : Routine := { code := addCode, frame := 0, glob := [] }

/-- p503/arith_amd64.s:630-692 `subP503` -/
def subCode : List Instr := [
  -- p503/arith_amd64.s:630
  MOVQ (.mem FP 0) (.reg DX),
  -- p503/arith_amd64.s:631
  MOVQ (.mem FP 1) (.reg DI),
  -- p503/arith_amd64.s:632
  MOVQ (.mem FP 2) (.reg SI),
  -- p503/arith_amd64.s:635
  XORQ (.reg CX) (.reg CX),
  -- p503/arith_amd64.s:637
  MOVQ (.mem DI 0) (.reg R8),
  -- p503/arith_amd64.s:638
  MOVQ (.mem DI 1) (.reg R9),
  -- p503/arith_amd64.s:639
  MOVQ (.mem DI 2) (.reg R10),
  -- p503/arith_amd64.s:640
  MOVQ (.mem DI 3) (.reg R11),
  -- p503/arith_amd64.s:641
  MOVQ (.mem DI 4) (.reg R12),
  -- p503/arith_amd64.s:642
  MOVQ (.mem DI 5) (.reg R13),
  -- p503/arith_amd64.s:643
  MOVQ (.mem DI 6) (.reg R14),
  -- p503/arith_amd64.s:644
  MOVQ (.mem DI 7) (.reg R15),
  -- p503/arith_amd64.s:646
  SUBQ (.mem SI 0) (.reg R8),
  -- p503/arith_amd64.s:647
  SBBQ (.mem SI 1) (.reg R9),
  -- p503/arith_amd64.s:648
  SBBQ (.mem SI 2) (.reg R10),
  -- p503/arith_amd64.s:649
  SBBQ (.mem SI 3) (.reg R11),
  -- p503/arith_amd64.s:650
  SBBQ (.mem SI 4) (.reg R12),
  -- p503/arith_amd64.s:651
  SBBQ (.mem SI 5) (.reg R13),
  -- p503/arith_amd64.s:652
  SBBQ (.mem SI 6) (.reg R14),
  -- p503/arith_amd64.s:653
  SBBQ (.mem SI 7) (.reg R15),
  -- p503/arith_amd64.s:656
  SBBQ (.imm 0) (.reg CX),
  -- p503/arith_amd64.s:659
  MOVQ (.reg R8) (.mem DX 0),
  -- p503/arith_amd64.s:660
  MOVQ (.reg R9) (.mem DX 1),
  -- p503/arith_amd64.s:661
  MOVQ (.reg R10) (.mem DX 2),
  -- p503/arith_amd64.s:662
  MOVQ (.reg R11) (.mem DX 3),
  -- p503/arith_amd64.s:663
  MOVQ (.reg R12) (.mem DX 4),
  -- p503/arith_amd64.s:664
  MOVQ (.reg R13) (.mem DX 5),
  -- p503/arith_amd64.s:665
  MOVQ (.reg R14) (.mem DX 6),
  -- p503/arith_amd64.s:666
  MOVQ (.reg R15) (.mem DX 7),
  -- p503/arith_amd64.s:669
  MOVQ (.imm 0xfffffffffffffffe) (.reg R8),
  -- p503/arith_amd64.s:670
  MOVQ (.imm 0xffffffffffffffff) (.reg R9),
  -- p503/arith_amd64.s:671
  MOVQ (.imm 0x57ffffffffffffff) (.reg R10),
  -- p503/arith_amd64.s:672
  MOVQ (.imm 0x2610b7b44423cf41) (.reg R11),
  -- p503/arith_amd64.s:673
  MOVQ (.imm 0x3737ed90f6fcfb5e) (.reg R12),
  -- p503/arith_amd64.s:674
  MOVQ (.imm 0xc08b8d7bb4ef49a0) (.reg R13),
  -- p503/arith_amd64.s:675
  MOVQ (.imm 0x80cdea83023c3c) (.reg R14),
  -- p503/arith_amd64.s:676
  ANDQ (.reg CX) (.reg R8),
  -- p503/arith_amd64.s:677
  ANDQ (.reg CX) (.reg R9),
  -- p503/arith_amd64.s:678
  ANDQ (.reg CX) (.reg R10),
  -- p503/arith_amd64.s:679
  ANDQ (.reg CX) (.reg R11),
  -- p503/arith_amd64.s:680
  ANDQ (.reg CX) (.reg R12),
  -- p503/arith_amd64.s:681
  ANDQ (.reg CX) (.reg R13),
  -- p503/arith_amd64.s:682
  ANDQ (.reg CX) (.reg R14),
  -- p503/arith_amd64.s:683
  MOVQ (.mem DX 0) (.reg AX),
  ADDQ (.reg R8) (.reg AX),
  MOVQ (.reg AX) (.mem DX 0),
  -- p503/arith_amd64.s:684
  MOVQ (.mem DX 1) (.reg AX),
  ADCQ (.reg R9) (.reg AX),
  MOVQ (.reg AX) (.mem DX 1),
  -- p503/arith_amd64.s:685
  MOVQ (.mem DX 2) (.reg AX),
  ADCQ (.reg R9) (.reg AX),
  MOVQ (.reg AX) (.mem DX 2),
  -- p503/arith_amd64.s:686
  MOVQ (.mem DX 3) (.reg AX),
  ADCQ (.reg R10) (.reg AX),
  MOVQ (.reg AX) (.mem DX 3),
  -- p503/arith_amd64.s:687
  MOVQ (.mem DX 4) (.reg AX),
  ADCQ (.reg R11) (.reg AX),
  MOVQ (.reg AX) (.mem DX 4),
  -- p503/arith_amd64.s:688
  MOVQ (.mem DX 5) (.reg AX),
  ADCQ (.reg R12) (.reg AX),
  MOVQ (.reg AX) (.mem DX 5),
  -- p503/arith_amd64.s:689
  MOVQ (.mem DX 6) (.reg AX),
  ADCQ (.reg R13) (.reg AX),
  MOVQ (.reg AX) (.mem DX 6),
  -- p503/arith_amd64.s:690
  MOVQ (.mem DX 7) (.reg AX),
  ADCQ (.reg R14) (.reg AX),
  MOVQ (.reg AX) (.mem DX 7)
  ]

def sub : Routine := { code := subCode, frame := 0, glob := [] }

/-- p503/arith_amd64.s:1521-1579 `adlP503` -/
def adlCode : List Instr := [
  -- p503/arith_amd64.s:1521
  MOVQ (.mem FP 0) (.reg DX),
  -- p503/arith_amd64.s:1522
  MOVQ (.mem FP 1) (.reg DI),
  -- p503/arith_amd64.s:1523
  MOVQ (.mem FP 2) (.reg SI),
  -- p503/arith_amd64.s:1525
  MOVQ (.mem DI 0) (.reg R8),
  -- p503/arith_amd64.s:1526
  MOVQ (.mem DI 1) (.reg R9),
  -- p503/arith_amd64.s:1527
  MOVQ (.mem DI 2) (.reg R10),
  -- p503/arith_amd64.s:1528
  MOVQ (.mem DI 3) (.reg R11),
  -- p503/arith_amd64.s:1529
  MOVQ (.mem DI 4) (.reg R12),
  -- p503/arith_amd64.s:1530
  MOVQ (.mem DI 5) (.reg R13),
  -- p503/arith_amd64.s:1531
  MOVQ (.mem DI 6) (.reg R14),
  -- p503/arith_amd64.s:1532
  MOVQ (.mem DI 7) (.reg R15),
  -- p503/arith_amd64.s:1533
  MOVQ (.mem DI 8) (.reg AX),
  -- p503/arith_amd64.s:1534
  MOVQ (.mem DI 9) (.reg BX),
  -- p503/arith_amd64.s:1535
  MOVQ (.mem DI 10) (.reg CX),
  -- p503/arith_amd64.s:1537
  ADDQ (.mem SI 0) (.reg R8),
  -- p503/arith_amd64.s:1538
  ADCQ (.mem SI 1) (.reg R9),
  -- p503/arith_amd64.s:1539
  ADCQ (.mem SI 2) (.reg R10),
  -- p503/arith_amd64.s:1540
  ADCQ (.mem SI 3) (.reg R11),
  -- p503/arith_amd64.s:1541
  ADCQ (.mem SI 4) (.reg R12),
  -- p503/arith_amd64.s:1542
  ADCQ (.mem SI 5) (.reg R13),
  -- p503/arith_amd64.s:1543
  ADCQ (.mem SI 6) (.reg R14),
  -- p503/arith_amd64.s:1544
  ADCQ (.mem SI 7) (.reg R15),
  -- p503/arith_amd64.s:1545
  ADCQ (.mem SI 8) (.reg AX),
  -- p503/arith_amd64.s:1546
  ADCQ (.mem SI 9) (.reg BX),
  -- p503/arith_amd64.s:1547
  ADCQ (.mem SI 10) (.reg CX),
  -- p503/arith_amd64.s:1549
  MOVQ (.reg R8) (.mem DX 0),
  -- p503/arith_amd64.s:1550
  MOVQ (.reg R9) (.mem DX 1),
  -- p503/arith_amd64.s:1551
  MOVQ (.reg R10) (.mem DX 2),
  -- p503/arith_amd64.s:1552
  MOVQ (.reg R11) (.mem DX 3),
  -- p503/arith_amd64.s:1553
  MOVQ (.reg R12) (.mem DX 4),
  -- p503/arith_amd64.s:1554
  MOVQ (.reg R13) (.mem DX 5),
  -- p503/arith_amd64.s:1555
  MOVQ (.reg R14) (.mem DX 6),
  -- p503/arith_amd64.s:1556
  MOVQ (.reg R15) (.mem DX 7),
  -- p503/arith_amd64.s:1557
  MOVQ (.reg AX) (.mem DX 8),
  -- p503/arith_amd64.s:1558
  MOVQ (.reg BX) (.mem DX 9),
  -- p503/arith_amd64.s:1559
  MOVQ (.reg CX) (.mem DX 10),
  -- p503/arith_amd64.s:1561
  MOVQ (.mem DI 11) (.reg R8),
  -- p503/arith_amd64.s:1562
  MOVQ (.mem DI 12) (.reg R9),
  -- p503/arith_amd64.s:1563
  MOVQ (.mem DI 13) (.reg R10),
  -- p503/arith_amd64.s:1564
  MOVQ (.mem DI 14) (.reg R11),
  -- p503/arith_amd64.s:1565
  MOVQ (.mem DI 15) (.reg R12),
  -- p503/arith_amd64.s:1567
  ADCQ (.mem SI 11) (.reg R8),
  -- p503/arith_amd64.s:1568
  ADCQ (.mem SI 12) (.reg R9),
  -- p503/arith_amd64.s:1569
  ADCQ (.mem SI 13) (.reg R10),
  -- p503/arith_amd64.s:1570
  ADCQ (.mem SI 14) (.reg R11),
  -- p503/arith_amd64.s:1571
  ADCQ (.mem SI 15) (.reg R12),
  -- p503/arith_amd64.s:1573
  MOVQ (.reg R8) (.mem DX 11),
  -- p503/arith_amd64.s:1574
  MOVQ (.reg R9) (.mem DX 12),
  -- p503/arith_amd64.s:1575
  MOVQ (.reg R10) (.mem DX 13),
  -- p503/arith_amd64.s:1576
  MOVQ (.reg R11) (.mem DX 14),
  -- p503/arith_amd64.s:1577
  MOVQ (.reg R12) (.mem DX 15)
  ]

def adl : Routine := { code := adlCode, frame := 0, glob := [] }

/-- p503/arith_amd64.s:1583-1673 `sulP503` -/
def sulCode : List Instr := [
  -- p503/arith_amd64.s:1583
  MOVQ (.mem FP 0) (.reg DX),
  -- p503/arith_amd64.s:1584
  MOVQ (.mem FP 1) (.reg DI),
  -- p503/arith_amd64.s:1585
  MOVQ (.mem FP 2) (.reg SI),
  -- p503/arith_amd64.s:1587
  XORQ (.reg CX) (.reg CX),
  -- p503/arith_amd64.s:1590
  MOVQ (.mem DI 0) (.reg R8),
  -- p503/arith_amd64.s:1591
  MOVQ (.mem DI 1) (.reg R9),
  -- p503/arith_amd64.s:1592
  MOVQ (.mem DI 2) (.reg R10),
  -- p503/arith_amd64.s:1593
  MOVQ (.mem DI 3) (.reg R11),
  -- p503/arith_amd64.s:1594
  MOVQ (.mem DI 4) (.reg R12),
  -- p503/arith_amd64.s:1595
  MOVQ (.mem DI 5) (.reg R13),
  -- p503/arith_amd64.s:1596
  MOVQ (.mem DI 6) (.reg R14),
  -- p503/arith_amd64.s:1597
  MOVQ (.mem DI 7) (.reg R15),
  -- p503/arith_amd64.s:1598
  MOVQ (.mem DI 8) (.reg AX),
  -- p503/arith_amd64.s:1599
  MOVQ (.mem DI 9) (.reg BX),
  -- p503/arith_amd64.s:1601
  SUBQ (.mem SI 0) (.reg R8),
  -- p503/arith_amd64.s:1602
  SBBQ (.mem SI 1) (.reg R9),
  -- p503/arith_amd64.s:1603
  SBBQ (.mem SI 2) (.reg R10),
  -- p503/arith_amd64.s:1604
  SBBQ (.mem SI 3) (.reg R11),
  -- p503/arith_amd64.s:1605
  SBBQ (.mem SI 4) (.reg R12),
  -- p503/arith_amd64.s:1606
  SBBQ (.mem SI 5) (.reg R13),
  -- p503/arith_amd64.s:1607
  SBBQ (.mem SI 6) (.reg R14),
  -- p503/arith_amd64.s:1608
  SBBQ (.mem SI 7) (.reg R15),
  -- p503/arith_amd64.s:1609
  SBBQ (.mem SI 8) (.reg AX),
  -- p503/arith_amd64.s:1610
  SBBQ (.mem SI 9) (.reg BX),
  -- p503/arith_amd64.s:1612
  MOVQ (.reg R8) (.mem DX 0),
  -- p503/arith_amd64.s:1613
  MOVQ (.reg R9) (.mem DX 1),
  -- p503/arith_amd64.s:1614
  MOVQ (.reg R10) (.mem DX 2),
  -- p503/arith_amd64.s:1615
  MOVQ (.reg R11) (.mem DX 3),
  -- p503/arith_amd64.s:1616
  MOVQ (.reg R12) (.mem DX 4),
  -- p503/arith_amd64.s:1617
  MOVQ (.reg R13) (.mem DX 5),
  -- p503/arith_amd64.s:1618
  MOVQ (.reg R14) (.mem DX 6),
  -- p503/arith_amd64.s:1619
  MOVQ (.reg R15) (.mem DX 7),
  -- p503/arith_amd64.s:1620
  MOVQ (.reg AX) (.mem DX 8),
  -- p503/arith_amd64.s:1621
  MOVQ (.reg BX) (.mem DX 9),
  -- p503/arith_amd64.s:1624
  MOVQ (.mem DI 10) (.reg R8),
  -- p503/arith_amd64.s:1625
  MOVQ (.mem DI 11) (.reg R9),
  -- p503/arith_amd64.s:1626
  MOVQ (.mem DI 12) (.reg R10),
  -- p503/arith_amd64.s:1627
  MOVQ (.mem DI 13) (.reg R11),
  -- p503/arith_amd64.s:1628
  MOVQ (.mem DI 14) (.reg R12),
  -- p503/arith_amd64.s:1629
  MOVQ (.mem DI 15) (.reg R13),
  -- p503/arith_amd64.s:1631
  SBBQ (.mem SI 10) (.reg R8),
  -- p503/arith_amd64.s:1632
  SBBQ (.mem SI 11) (.reg R9),
  -- p503/arith_amd64.s:1633
  SBBQ (.mem SI 12) (.reg R10),
  -- p503/arith_amd64.s:1634
  SBBQ (.mem SI 13) (.reg R11),
  -- p503/arith_amd64.s:1635
  SBBQ (.mem SI 14) (.reg R12),
  -- p503/arith_amd64.s:1636
  SBBQ (.mem SI 15) (.reg R13),
  -- p503/arith_amd64.s:1638
  MOVQ (.reg R8) (.mem DX 10),
  -- p503/arith_amd64.s:1639
  MOVQ (.reg R9) (.mem DX 11),
  -- p503/arith_amd64.s:1640
  MOVQ (.reg R10) (.mem DX 12),
  -- p503/arith_amd64.s:1641
  MOVQ (.reg R11) (.mem DX 13),
  -- p503/arith_amd64.s:1642
  MOVQ (.reg R12) (.mem DX 14),
  -- p503/arith_amd64.s:1643
  MOVQ (.reg R13) (.mem DX 15),
  -- p503/arith_amd64.s:1646
  SBBQ (.imm 0) (.reg CX),
  -- p503/arith_amd64.s:1649
  MOVQ (.imm 0xffffffffffffffff) (.reg R8),
  -- p503/arith_amd64.s:1651
  MOVQ (.imm 0xabffffffffffffff) (.reg R9),
  -- p503/arith_amd64.s:1652
  MOVQ (.imm 0x13085bda2211e7a0) (.reg R10),
  -- p503/arith_amd64.s:1653
  MOVQ (.imm 0x1b9bf6c87b7e7daf) (.reg R11),
  -- p503/arith_amd64.s:1654
  MOVQ (.imm 0x6045c6bdda77a4d0) (.reg R12),
  -- p503/arith_amd64.s:1655
  MOVQ (.imm 0x4066f541811e1e) (.reg R13),
  -- p503/arith_amd64.s:1657
  ANDQ (.reg CX) (.reg R8),
  -- p503/arith_amd64.s:1658
  ANDQ (.reg CX) (.reg R9),
  -- p503/arith_amd64.s:1659
  ANDQ (.reg CX) (.reg R10),
  -- p503/arith_amd64.s:1660
  ANDQ (.reg CX) (.reg R11),
  -- p503/arith_amd64.s:1661
  ANDQ (.reg CX) (.reg R12),
  -- p503/arith_amd64.s:1662
  ANDQ (.reg CX) (.reg R13),
  -- p503/arith_amd64.s:1664
  MOVQ (.mem DX 8) (.reg AX),
  ADDQ (.reg R8) (.reg AX),
  MOVQ (.reg AX) (.mem DX 8),
  -- p503/arith_amd64.s:1665
  MOVQ (.mem DX 9) (.reg AX),
  ADCQ (.reg R8) (.reg AX),
  MOVQ (.reg AX) (.mem DX 9),
  -- p503/arith_amd64.s:1666
  MOVQ (.mem DX 10) (.reg AX),
  ADCQ (.reg R8) (.reg AX),
  MOVQ (.reg AX) (.mem DX 10),
  -- p503/arith_amd64.s:1667
  MOVQ (.mem DX 11) (.reg AX),
  ADCQ (.reg R9) (.reg AX),
  MOVQ (.reg AX) (.mem DX 11),
  -- p503/arith_amd64.s:1668
  MOVQ (.mem DX 12) (.reg AX),
  ADCQ (.reg R10) (.reg AX),
  MOVQ (.reg AX) (.mem DX 12),
  -- p503/arith_amd64.s:1669
  MOVQ (.mem DX 13) (.reg AX),
  ADCQ (.reg R11) (.reg AX),
  MOVQ (.reg AX) (.mem DX 13),
  -- p503/arith_amd64.s:1670
  MOVQ (.mem DX 14) (.reg AX),
  ADCQ (.reg R12) (.reg AX),
  MOVQ (.reg AX) (.mem DX 14),
  -- p503/arith_amd64.s:1671
  MOVQ (.mem DX 15) (.reg AX),
  ADCQ (.reg R13) (.reg AX),
  MOVQ (.reg AX) (.mem DX 15)
  ]

def sul : Routine := { code := sulCode, frame := 0, glob := [] }

/-- p503/arith_amd64.s:465-509 `modP503` -/
def modCode : List Instr := [
  -- p503/arith_amd64.s:465
  MOVQ (.mem FP 0) (.reg DI),
  -- p503/arith_amd64.s:468
  XORQ (.reg AX) (.reg AX),
  -- p503/arith_amd64.s:471
  MOVQ (.imm 0xffffffffffffffff) (.reg R8),
  -- p503/arith_amd64.s:473
  MOVQ (.imm 0xabffffffffffffff) (.reg R9),
  -- p503/arith_amd64.s:474
  MOVQ (.imm 0x13085bda2211e7a0) (.reg R10),
  -- p503/arith_amd64.s:475
  MOVQ (.imm 0x1b9bf6c87b7e7daf) (.reg R11),
  -- p503/arith_amd64.s:476
  MOVQ (.imm 0x6045c6bdda77a4d0) (.reg R12),
  -- p503/arith_amd64.s:477
  MOVQ (.imm 0x4066f541811e1e) (.reg R13),
  -- p503/arith_amd64.s:480
  SUBQ (.reg R8) (.mem DI 0),
  -- p503/arith_amd64.s:481
  SBBQ (.reg R8) (.mem DI 1),
  -- p503/arith_amd64.s:482
  SBBQ (.reg R8) (.mem DI 2),
  -- p503/arith_amd64.s:483
  SBBQ (.reg R9) (.mem DI 3),
  -- p503/arith_amd64.s:484
  SBBQ (.reg R10) (.mem DI 4),
  -- p503/arith_amd64.s:485
  SBBQ (.reg R11) (.mem DI 5),
  -- p503/arith_amd64.s:486
  SBBQ (.reg R12) (.mem DI 6),
  -- p503/arith_amd64.s:487
  SBBQ (.reg R13) (.mem DI 7),
  -- p503/arith_amd64.s:490
  SBBQ (.imm 0) (.reg AX),
  -- p503/arith_amd64.s:493
  ANDQ (.reg AX) (.reg R8),
  -- p503/arith_amd64.s:494
  ANDQ (.reg AX) (.reg R9),
  -- p503/arith_amd64.s:495
  ANDQ (.reg AX) (.reg R10),
  -- p503/arith_amd64.s:496
  ANDQ (.reg AX) (.reg R11),
  -- p503/arith_amd64.s:497
  ANDQ (.reg AX) (.reg R12),
  -- p503/arith_amd64.s:498
  ANDQ (.reg AX) (.reg R13),
  -- p503/arith_amd64.s:500
  ADDQ (.reg R8) (.mem DI 0),
  -- p503/arith_amd64.s:501
  ADCQ (.reg R8) (.mem DI 1),
  -- p503/arith_amd64.s:502
  ADCQ (.reg R8) (.mem DI 2),
  -- p503/arith_amd64.s:503
  ADCQ (.reg R9) (.mem DI 3),
  -- p503/arith_amd64.s:504
  ADCQ (.reg R10) (.mem DI 4),
  -- p503/arith_amd64.s:505
  ADCQ (.reg R11) (.mem DI 5),
  -- p503/arith_amd64.s:506
  ADCQ (.reg R12) (.mem DI 6),
  -- p503/arith_amd64.s:507
  ADCQ (.reg R13) (.mem DI 7)
  ]

def mod : Routine := { code := modCode, frame := 0, glob := [] }

/-- p503/arith_amd64.s:695-1190 `mulP503` -/
def mulCode : List Instr := [
  -- p503/arith_amd64.s:695
  MOVQ (.mem FP 0) (.reg CX),
  -- p503/arith_amd64.s:696
  MOVQ (.mem FP 1) (.reg DI),
  -- p503/arith_amd64.s:697
  MOVQ (.mem FP 2) (.reg SI),
  -- p503/arith_amd64.s:712
  XORQ (.reg AX) (.reg AX),
  -- p503/arith_amd64.s:715
  MOVQ (.mem DI 4) (.reg R8),
  -- p503/arith_amd64.s:716
  MOVQ (.mem DI 5) (.reg R9),
  -- p503/arith_amd64.s:717
  MOVQ (.mem DI 6) (.reg R10),
  -- p503/arith_amd64.s:718
  MOVQ (.mem DI 7) (.reg R11),
  -- p503/arith_amd64.s:719
  ADDQ (.mem DI 0) (.reg R8),
  -- p503/arith_amd64.s:720
  ADCQ (.mem DI 1) (.reg R9),
  -- p503/arith_amd64.s:721
  ADCQ (.mem DI 2) (.reg R10),
  -- p503/arith_amd64.s:722
  ADCQ (.mem DI 3) (.reg R11),
  -- p503/arith_amd64.s:723
  MOVQ (.reg R8) (.mem CX 0),
  -- p503/arith_amd64.s:724
  MOVQ (.reg R9) (.mem CX 1),
  -- p503/arith_amd64.s:725
  MOVQ (.reg R10) (.mem CX 2),
  -- p503/arith_amd64.s:726
  MOVQ (.reg R11) (.mem CX 3),
  -- p503/arith_amd64.s:728
  SBBQ (.imm 0) (.reg AX),
  -- p503/arith_amd64.s:731
  XORQ (.reg DX) (.reg DX),
  -- p503/arith_amd64.s:732
  MOVQ (.mem SI 4) (.reg R12),
  -- p503/arith_amd64.s:733
  MOVQ (.mem SI 5) (.reg R13),
  -- p503/arith_amd64.s:734
  MOVQ (.mem SI 6) (.reg R14),
  -- p503/arith_amd64.s:735
  MOVQ (.mem SI 7) (.reg R15),
  -- p503/arith_amd64.s:736
  ADDQ (.mem SI 0) (.reg R12),
  -- p503/arith_amd64.s:737
  ADCQ (.mem SI 1) (.reg R13),
  -- p503/arith_amd64.s:738
  ADCQ (.mem SI 2) (.reg R14),
  -- p503/arith_amd64.s:739
  ADCQ (.mem SI 3) (.reg R15),
  -- p503/arith_amd64.s:741
  SBBQ (.imm 0) (.reg DX),
  -- p503/arith_amd64.s:744
  MOVQ (.reg AX) (.mem SP 8),
  -- p503/arith_amd64.s:745
  MOVQ (.reg DX) (.mem SP 9),
  -- p503/arith_amd64.s:751
  MOVQ (.mem CX 0) (.reg AX),
  -- p503/arith_amd64.s:752
  MULQ (.reg R12),
  -- p503/arith_amd64.s:753
  MOVQ (.reg AX) (.mem SP 0),
  -- p503/arith_amd64.s:754
  MOVQ (.reg DX) (.reg R8),
  -- p503/arith_amd64.s:757
  XORQ (.reg R9) (.reg R9),
  -- p503/arith_amd64.s:758
  MOVQ (.mem CX 0) (.reg AX),
  -- p503/arith_amd64.s:759
  MULQ (.reg R13),
  -- p503/arith_amd64.s:760
  ADDQ (.reg AX) (.reg R8),
  -- p503/arith_amd64.s:761
  ADCQ (.reg DX) (.reg R9),
  -- p503/arith_amd64.s:764
  XORQ (.reg R10) (.reg R10),
  -- p503/arith_amd64.s:765
  MOVQ (.mem CX 1) (.reg AX),
  -- p503/arith_amd64.s:766
  MULQ (.reg R12),
  -- p503/arith_amd64.s:767
  ADDQ (.reg AX) (.reg R8),
  -- p503/arith_amd64.s:768
  MOVQ (.reg R8) (.mem SP 1),
  -- p503/arith_amd64.s:769
  ADCQ (.reg DX) (.reg R9),
  -- p503/arith_amd64.s:770
  ADCQ (.imm 0) (.reg R10),
  -- p503/arith_amd64.s:773
  XORQ (.reg R8) (.reg R8),
  -- p503/arith_amd64.s:774
  MOVQ (.mem CX 0) (.reg AX),
  -- p503/arith_amd64.s:775
  MULQ (.reg R14),
  -- p503/arith_amd64.s:776
  ADDQ (.reg AX) (.reg R9),
  -- p503/arith_amd64.s:777
  ADCQ (.reg DX) (.reg R10),
  -- p503/arith_amd64.s:778
  ADCQ (.imm 0) (.reg R8),
  -- p503/arith_amd64.s:781
  MOVQ (.mem CX 2) (.reg AX),
  -- p503/arith_amd64.s:782
  MULQ (.reg R12),
  -- p503/arith_amd64.s:783
  ADDQ (.reg AX) (.reg R9),
  -- p503/arith_amd64.s:784
  ADCQ (.reg DX) (.reg R10),
  -- p503/arith_amd64.s:785
  ADCQ (.imm 0) (.reg R8),
  -- p503/arith_amd64.s:788
  MOVQ (.mem CX 1) (.reg AX),
  -- p503/arith_amd64.s:789
  MULQ (.reg R13),
  -- p503/arith_amd64.s:790
  ADDQ (.reg AX) (.reg R9),
  -- p503/arith_amd64.s:791
  MOVQ (.reg R9) (.mem SP 2),
  -- p503/arith_amd64.s:792
  ADCQ (.reg DX) (.reg R10),
  -- p503/arith_amd64.s:793
  ADCQ (.imm 0) (.reg R8),
  -- p503/arith_amd64.s:796
  XORQ (.reg R9) (.reg R9),
  -- p503/arith_amd64.s:797
  MOVQ (.mem CX 0) (.reg AX),
  -- p503/arith_amd64.s:798
  MULQ (.reg R15),
  -- p503/arith_amd64.s:799
  ADDQ (.reg AX) (.reg R10),
  -- p503/arith_amd64.s:800
  ADCQ (.reg DX) (.reg R8),
  -- p503/arith_amd64.s:801
  ADCQ (.imm 0) (.reg R9),
  -- p503/arith_amd64.s:804
  MOVQ (.mem CX 3) (.reg AX),
  -- p503/arith_amd64.s:805
  MULQ (.reg R12),
  -- p503/arith_amd64.s:806
  ADDQ (.reg AX) (.reg R10),
  -- p503/arith_amd64.s:807
  ADCQ (.reg DX) (.reg R8),
  -- p503/arith_amd64.s:808
  ADCQ (.imm 0) (.reg R9),
  -- p503/arith_amd64.s:811
  MOVQ (.mem CX 1) (.reg AX),
  -- p503/arith_amd64.s:812
  MULQ (.reg R14),
  -- p503/arith_amd64.s:813
  ADDQ (.reg AX) (.reg R10),
  -- p503/arith_amd64.s:814
  ADCQ (.reg DX) (.reg R8),
  -- p503/arith_amd64.s:815
  ADCQ (.imm 0) (.reg R9),
  -- p503/arith_amd64.s:818
  MOVQ (.mem CX 2) (.reg AX),
  -- p503/arith_amd64.s:819
  MULQ (.reg R13),
  -- p503/arith_amd64.s:820
  ADDQ (.reg AX) (.reg R10),
  -- p503/arith_amd64.s:821
  MOVQ (.reg R10) (.mem SP 3),
  -- p503/arith_amd64.s:822
  ADCQ (.reg DX) (.reg R8),
  -- p503/arith_amd64.s:823
  ADCQ (.imm 0) (.reg R9),
  -- p503/arith_amd64.s:826
  XORQ (.reg R10) (.reg R10),
  -- p503/arith_amd64.s:827
  MOVQ (.mem CX 1) (.reg AX),
  -- p503/arith_amd64.s:828
  MULQ (.reg R15),
  -- p503/arith_amd64.s:829
  ADDQ (.reg AX) (.reg R8),
  -- p503/arith_amd64.s:830
  ADCQ (.reg DX) (.reg R9),
  -- p503/arith_amd64.s:831
  ADCQ (.imm 0) (.reg R10),
  -- p503/arith_amd64.s:834
  MOVQ (.mem CX 3) (.reg AX),
  -- p503/arith_amd64.s:835
  MULQ (.reg R13),
  -- p503/arith_amd64.s:836
  ADDQ (.reg AX) (.reg R8),
  -- p503/arith_amd64.s:837
  ADCQ (.reg DX) (.reg R9),
  -- p503/arith_amd64.s:838
  ADCQ (.imm 0) (.reg R10),
  -- p503/arith_amd64.s:841
  MOVQ (.mem CX 2) (.reg AX),
  -- p503/arith_amd64.s:842
  MULQ (.reg R14),
  -- p503/arith_amd64.s:843
  ADDQ (.reg AX) (.reg R8),
  -- p503/arith_amd64.s:844
  MOVQ (.reg R8) (.mem SP 4),
  -- p503/arith_amd64.s:845
  ADCQ (.reg DX) (.reg R9),
  -- p503/arith_amd64.s:846
  ADCQ (.imm 0) (.reg R10),
  -- p503/arith_amd64.s:849
  XORQ (.reg R11) (.reg R11),
  -- p503/arith_amd64.s:850
  MOVQ (.mem CX 2) (.reg AX),
  -- p503/arith_amd64.s:851
  MULQ (.reg R15),
  -- p503/arith_amd64.s:852
  ADDQ (.reg AX) (.reg R9),
  -- p503/arith_amd64.s:853
  ADCQ (.reg DX) (.reg R10),
  -- p503/arith_amd64.s:854
  ADCQ (.imm 0) (.reg R11),
  -- p503/arith_amd64.s:857
  MOVQ (.mem CX 3) (.reg AX),
  -- p503/arith_amd64.s:858
  MULQ (.reg R14),
  -- p503/arith_amd64.s:859
  ADDQ (.reg AX) (.reg R9),
  -- p503/arith_amd64.s:860
  ADCQ (.reg DX) (.reg R10),
  -- p503/arith_amd64.s:861
  ADCQ (.imm 0) (.reg R11),
  -- p503/arith_amd64.s:864
  MOVQ (.mem CX 3) (.reg AX),
  -- p503/arith_amd64.s:865
  MULQ (.reg R15),
  -- p503/arith_amd64.s:866
  ADDQ (.reg AX) (.reg R10),
  -- p503/arith_amd64.s:867
  ADCQ (.reg DX) (.reg R11),
  -- p503/arith_amd64.s:869
  MOVQ (.mem SP 8) (.reg AX),
  -- p503/arith_amd64.s:870
  ANDQ (.reg AX) (.reg R12),
  -- p503/arith_amd64.s:871
  ANDQ (.reg AX) (.reg R13),
  -- p503/arith_amd64.s:872
  ANDQ (.reg AX) (.reg R14),
  -- p503/arith_amd64.s:873
  ANDQ (.reg AX) (.reg R15),
  -- p503/arith_amd64.s:874
  ADDQ (.reg R8) (.reg R12),
  -- p503/arith_amd64.s:875
  ADCQ (.reg R9) (.reg R13),
  -- p503/arith_amd64.s:876
  ADCQ (.reg R10) (.reg R14),
  -- p503/arith_amd64.s:877
  ADCQ (.reg R11) (.reg R15),
  -- p503/arith_amd64.s:879
  MOVQ (.mem SP 9) (.reg AX),
  -- p503/arith_amd64.s:880
  MOVQ (.mem CX 0) (.reg R8),
  -- p503/arith_amd64.s:881
  MOVQ (.mem CX 1) (.reg R9),
  -- p503/arith_amd64.s:882
  MOVQ (.mem CX 2) (.reg R10),
  -- p503/arith_amd64.s:883
  MOVQ (.mem CX 3) (.reg R11),
  -- p503/arith_amd64.s:884
  ANDQ (.reg AX) (.reg R8),
  -- p503/arith_amd64.s:885
  ANDQ (.reg AX) (.reg R9),
  -- p503/arith_amd64.s:886
  ANDQ (.reg AX) (.reg R10),
  -- p503/arith_amd64.s:887
  ANDQ (.reg AX) (.reg R11),
  -- p503/arith_amd64.s:888
  ADDQ (.reg R12) (.reg R8),
  -- p503/arith_amd64.s:889
  ADCQ (.reg R13) (.reg R9),
  -- p503/arith_amd64.s:890
  ADCQ (.reg R14) (.reg R10),
  -- p503/arith_amd64.s:891
  ADCQ (.reg R15) (.reg R11),
  -- p503/arith_amd64.s:892
  MOVQ (.reg R8) (.mem SP 4),
  -- p503/arith_amd64.s:893
  MOVQ (.reg R9) (.mem SP 5),
  -- p503/arith_amd64.s:894
  MOVQ (.reg R10) (.mem SP 6),
  -- p503/arith_amd64.s:895
  MOVQ (.reg R11) (.mem SP 7),
  -- p503/arith_amd64.s:900
  MOVQ (.mem DI 0) (.reg R11),
  -- p503/arith_amd64.s:901
  MOVQ (.mem SI 0) (.reg AX),
  -- p503/arith_amd64.s:902
  MULQ (.reg R11),
  -- p503/arith_amd64.s:903
  XORQ (.reg R9) (.reg R9),
  -- p503/arith_amd64.s:904
  MOVQ (.reg AX) (.mem CX 0),
  -- p503/arith_amd64.s:905
  MOVQ (.reg DX) (.reg R8),
  -- p503/arith_amd64.s:908
  MOVQ (.mem DI 2) (.reg R14),
  -- p503/arith_amd64.s:909
  MOVQ (.mem SI 1) (.reg AX),
  -- p503/arith_amd64.s:910
  MULQ (.reg R11),
  -- p503/arith_amd64.s:911
  XORQ (.reg R10) (.reg R10),
  -- p503/arith_amd64.s:912
  ADDQ (.reg AX) (.reg R8),
  -- p503/arith_amd64.s:913
  ADCQ (.reg DX) (.reg R9),
  -- p503/arith_amd64.s:916
  MOVQ (.mem DI 1) (.reg R12),
  -- p503/arith_amd64.s:917
  MOVQ (.mem SI 0) (.reg AX),
  -- p503/arith_amd64.s:918
  MULQ (.reg R12),
  -- p503/arith_amd64.s:919
  ADDQ (.reg AX) (.reg R8),
  -- p503/arith_amd64.s:920
  MOVQ (.reg R8) (.mem CX 1),
  -- p503/arith_amd64.s:921
  ADCQ (.reg DX) (.reg R9),
  -- p503/arith_amd64.s:922
  ADCQ (.imm 0) (.reg R10),
  -- p503/arith_amd64.s:925
  XORQ (.reg R8) (.reg R8),
  -- p503/arith_amd64.s:926
  MOVQ (.mem SI 2) (.reg AX),
  -- p503/arith_amd64.s:927
  MULQ (.reg R11),
  -- p503/arith_amd64.s:928
  ADDQ (.reg AX) (.reg R9),
  -- p503/arith_amd64.s:929
  ADCQ (.reg DX) (.reg R10),
  -- p503/arith_amd64.s:930
  ADCQ (.imm 0) (.reg R8),
  -- p503/arith_amd64.s:933
  MOVQ (.mem SI 0) (.reg R13),
  -- p503/arith_amd64.s:934
  MOVQ (.reg R14) (.reg AX),
  -- p503/arith_amd64.s:935
  MULQ (.reg R13),
  -- p503/arith_amd64.s:936
  ADDQ (.reg AX) (.reg R9),
  -- p503/arith_amd64.s:937
  ADCQ (.reg DX) (.reg R10),
  -- p503/arith_amd64.s:938
  ADCQ (.imm 0) (.reg R8),
  -- p503/arith_amd64.s:941
  MOVQ (.mem SI 1) (.reg AX),
  -- p503/arith_amd64.s:942
  MULQ (.reg R12),
  -- p503/arith_amd64.s:943
  ADDQ (.reg AX) (.reg R9),
  -- p503/arith_amd64.s:944
  MOVQ (.reg R9) (.mem CX 2),
  -- p503/arith_amd64.s:945
  ADCQ (.reg DX) (.reg R10),
  -- p503/arith_amd64.s:946
  ADCQ (.imm 0) (.reg R8),
  -- p503/arith_amd64.s:949
  XORQ (.reg R9) (.reg R9),
  -- p503/arith_amd64.s:950
  MOVQ (.mem SI 3) (.reg AX),
  -- p503/arith_amd64.s:951
  MULQ (.reg R11),
  -- p503/arith_amd64.s:952
  MOVQ (.mem DI 3) (.reg R15),
  -- p503/arith_amd64.s:953
  ADDQ (.reg AX) (.reg R10),
  -- p503/arith_amd64.s:954
  ADCQ (.reg DX) (.reg R8),
  -- p503/arith_amd64.s:955
  ADCQ (.imm 0) (.reg R9),
  -- p503/arith_amd64.s:958
  MOVQ (.reg R15) (.reg AX),
  -- p503/arith_amd64.s:959
  MULQ (.reg R13),
  -- p503/arith_amd64.s:960
  ADDQ (.reg AX) (.reg R10),
  -- p503/arith_amd64.s:961
  ADCQ (.reg DX) (.reg R8),
  -- p503/arith_amd64.s:962
  ADCQ (.imm 0) (.reg R9),
  -- p503/arith_amd64.s:965
  MOVQ (.mem SI 2) (.reg AX),
  -- p503/arith_amd64.s:966
  MULQ (.reg R12),
  -- p503/arith_amd64.s:967
  ADDQ (.reg AX) (.reg R10),
  -- p503/arith_amd64.s:968
  ADCQ (.reg DX) (.reg R8),
  -- p503/arith_amd64.s:969
  ADCQ (.imm 0) (.reg R9),
  -- p503/arith_amd64.s:972
  MOVQ (.mem SI 1) (.reg AX),
  -- p503/arith_amd64.s:973
  MULQ (.reg R14),
  -- p503/arith_amd64.s:974
  ADDQ (.reg AX) (.reg R10),
  -- p503/arith_amd64.s:975
  MOVQ (.reg R10) (.mem CX 3),
  -- p503/arith_amd64.s:976
  ADCQ (.reg DX) (.reg R8),
  -- p503/arith_amd64.s:977
  ADCQ (.imm 0) (.reg R9),
  -- p503/arith_amd64.s:980
  XORQ (.reg R10) (.reg R10),
  -- p503/arith_amd64.s:981
  MOVQ (.mem SI 3) (.reg AX),
  -- p503/arith_amd64.s:982
  MULQ (.reg R12),
  -- p503/arith_amd64.s:983
  ADDQ (.reg AX) (.reg R8),
  -- p503/arith_amd64.s:984
  ADCQ (.reg DX) (.reg R9),
  -- p503/arith_amd64.s:985
  ADCQ (.imm 0) (.reg R10),
  -- p503/arith_amd64.s:988
  MOVQ (.mem SI 1) (.reg AX),
  -- p503/arith_amd64.s:989
  MULQ (.reg R15),
  -- p503/arith_amd64.s:990
  ADDQ (.reg AX) (.reg R8),
  -- p503/arith_amd64.s:991
  ADCQ (.reg DX) (.reg R9),
  -- p503/arith_amd64.s:992
  ADCQ (.imm 0) (.reg R10),
  -- p503/arith_amd64.s:995
  MOVQ (.mem SI 2) (.reg AX),
  -- p503/arith_amd64.s:996
  MULQ (.reg R14),
  -- p503/arith_amd64.s:997
  ADDQ (.reg AX) (.reg R8),
  -- p503/arith_amd64.s:998
  MOVQ (.reg R8) (.mem CX 4),
  -- p503/arith_amd64.s:999
  ADCQ (.reg DX) (.reg R9),
  -- p503/arith_amd64.s:1000
  ADCQ (.imm 0) (.reg R10),
  -- p503/arith_amd64.s:1003
  XORQ (.reg R8) (.reg R8),
  -- p503/arith_amd64.s:1004
  MOVQ (.mem SI 3) (.reg AX),
  -- p503/arith_amd64.s:1005
  MULQ (.reg R14),
  -- p503/arith_amd64.s:1006
  ADDQ (.reg AX) (.reg R9),
  -- p503/arith_amd64.s:1007
  ADCQ (.reg DX) (.reg R10),
  -- p503/arith_amd64.s:1008
  ADCQ (.imm 0) (.reg R8),
  -- p503/arith_amd64.s:1011
  MOVQ (.mem SI 2) (.reg AX),
  -- p503/arith_amd64.s:1012
  MULQ (.reg R15),
  -- p503/arith_amd64.s:1013
  ADDQ (.reg AX) (.reg R9),
  -- p503/arith_amd64.s:1014
  MOVQ (.reg R9) (.mem CX 5),
  -- p503/arith_amd64.s:1015
  ADCQ (.reg DX) (.reg R10),
  -- p503/arith_amd64.s:1016
  ADCQ (.imm 0) (.reg R8),
  -- p503/arith_amd64.s:1019
  MOVQ (.mem SI 3) (.reg AX),
  -- p503/arith_amd64.s:1020
  MULQ (.reg R15),
  -- p503/arith_amd64.s:1021
  ADDQ (.reg AX) (.reg R10),
  -- p503/arith_amd64.s:1022
  MOVQ (.reg R10) (.mem CX 6),
  -- p503/arith_amd64.s:1023
  ADCQ (.reg DX) (.reg R8),
  -- p503/arith_amd64.s:1024
  MOVQ (.reg R8) (.mem CX 7),
  -- p503/arith_amd64.s:1027
  MOVQ (.mem DI 4) (.reg R11),
  -- p503/arith_amd64.s:1028
  MOVQ (.mem SI 4) (.reg AX),
  -- p503/arith_amd64.s:1029
  MULQ (.reg R11),
  -- p503/arith_amd64.s:1030
  XORQ (.reg R9) (.reg R9),
  -- p503/arith_amd64.s:1031
  MOVQ (.reg AX) (.mem CX 8),
  -- p503/arith_amd64.s:1032
  MOVQ (.reg DX) (.reg R8),
  -- p503/arith_amd64.s:1034
  MOVQ (.mem DI 6) (.reg R14),
  -- p503/arith_amd64.s:1035
  MOVQ (.mem SI 5) (.reg AX),
  -- p503/arith_amd64.s:1036
  MULQ (.reg R11),
  -- p503/arith_amd64.s:1037
  XORQ (.reg R10) (.reg R10),
  -- p503/arith_amd64.s:1038
  ADDQ (.reg AX) (.reg R8),
  -- p503/arith_amd64.s:1039
  ADCQ (.reg DX) (.reg R9),
  -- p503/arith_amd64.s:1041
  MOVQ (.mem DI 5) (.reg R12),
  -- p503/arith_amd64.s:1042
  MOVQ (.mem SI 4) (.reg AX),
  -- p503/arith_amd64.s:1043
  MULQ (.reg R12),
  -- p503/arith_amd64.s:1044
  ADDQ (.reg AX) (.reg R8),
  -- p503/arith_amd64.s:1045
  MOVQ (.reg R8) (.mem CX 9),
  -- p503/arith_amd64.s:1046
  ADCQ (.reg DX) (.reg R9),
  -- p503/arith_amd64.s:1047
  ADCQ (.imm 0) (.reg R10),
  -- p503/arith_amd64.s:1049
  XORQ (.reg R8) (.reg R8),
  -- p503/arith_amd64.s:1050
  MOVQ (.mem SI 6) (.reg AX),
  -- p503/arith_amd64.s:1051
  MULQ (.reg R11),
  -- p503/arith_amd64.s:1052
  ADDQ (.reg AX) (.reg R9),
  -- p503/arith_amd64.s:1053
  ADCQ (.reg DX) (.reg R10),
  -- p503/arith_amd64.s:1054
  ADCQ (.imm 0) (.reg R8),
  -- p503/arith_amd64.s:1056
  MOVQ (.mem SI 4) (.reg R13),
  -- p503/arith_amd64.s:1057
  MOVQ (.reg R14) (.reg AX),
  -- p503/arith_amd64.s:1058
  MULQ (.reg R13),
  -- p503/arith_amd64.s:1059
  ADDQ (.reg AX) (.reg R9),
  -- p503/arith_amd64.s:1060
  ADCQ (.reg DX) (.reg R10),
  -- p503/arith_amd64.s:1061
  ADCQ (.imm 0) (.reg R8),
  -- p503/arith_amd64.s:1063
  MOVQ (.mem SI 5) (.reg AX),
  -- p503/arith_amd64.s:1064
  MULQ (.reg R12),
  -- p503/arith_amd64.s:1065
  ADDQ (.reg AX) (.reg R9),
  -- p503/arith_amd64.s:1066
  MOVQ (.reg R9) (.mem CX 10),
  -- p503/arith_amd64.s:1067
  ADCQ (.reg DX) (.reg R10),
  -- p503/arith_amd64.s:1068
  ADCQ (.imm 0) (.reg R8),
  -- p503/arith_amd64.s:1070
  XORQ (.reg R9) (.reg R9),
  -- p503/arith_amd64.s:1071
  MOVQ (.mem SI 7) (.reg AX),
  -- p503/arith_amd64.s:1072
  MULQ (.reg R11),
  -- p503/arith_amd64.s:1073
  MOVQ (.mem DI 7) (.reg R15),
  -- p503/arith_amd64.s:1074
  ADDQ (.reg AX) (.reg R10),
  -- p503/arith_amd64.s:1075
  ADCQ (.reg DX) (.reg R8),
  -- p503/arith_amd64.s:1076
  ADCQ (.imm 0) (.reg R9),
  -- p503/arith_amd64.s:1078
  MOVQ (.reg R15) (.reg AX),
  -- p503/arith_amd64.s:1079
  MULQ (.reg R13),
  -- p503/arith_amd64.s:1080
  ADDQ (.reg AX) (.reg R10),
  -- p503/arith_amd64.s:1081
  ADCQ (.reg DX) (.reg R8),
  -- p503/arith_amd64.s:1082
  ADCQ (.imm 0) (.reg R9),
  -- p503/arith_amd64.s:1084
  MOVQ (.mem SI 6) (.reg AX),
  -- p503/arith_amd64.s:1085
  MULQ (.reg R12),
  -- p503/arith_amd64.s:1086
  ADDQ (.reg AX) (.reg R10),
  -- p503/arith_amd64.s:1087
  ADCQ (.reg DX) (.reg R8),
  -- p503/arith_amd64.s:1088
  ADCQ (.imm 0) (.reg R9),
  -- p503/arith_amd64.s:1090
  MOVQ (.mem SI 5) (.reg AX),
  -- p503/arith_amd64.s:1091
  MULQ (.reg R14),
  -- p503/arith_amd64.s:1092
  ADDQ (.reg AX) (.reg R10),
  -- p503/arith_amd64.s:1093
  MOVQ (.reg R10) (.mem CX 11),
  -- p503/arith_amd64.s:1094
  ADCQ (.reg DX) (.reg R8),
  -- p503/arith_amd64.s:1095
  ADCQ (.imm 0) (.reg R9),
  -- p503/arith_amd64.s:1097
  XORQ (.reg R10) (.reg R10),
  -- p503/arith_amd64.s:1098
  MOVQ (.mem SI 7) (.reg AX),
  -- p503/arith_amd64.s:1099
  MULQ (.reg R12),
  -- p503/arith_amd64.s:1100
  ADDQ (.reg AX) (.reg R8),
  -- p503/arith_amd64.s:1101
  ADCQ (.reg DX) (.reg R9),
  -- p503/arith_amd64.s:1102
  ADCQ (.imm 0) (.reg R10),
  -- p503/arith_amd64.s:1104
  MOVQ (.mem SI 5) (.reg AX),
  -- p503/arith_amd64.s:1105
  MULQ (.reg R15),
  -- p503/arith_amd64.s:1106
  ADDQ (.reg AX) (.reg R8),
  -- p503/arith_amd64.s:1107
  ADCQ (.reg DX) (.reg R9),
  -- p503/arith_amd64.s:1108
  ADCQ (.imm 0) (.reg R10),
  -- p503/arith_amd64.s:1110
  MOVQ (.mem SI 6) (.reg AX),
  -- p503/arith_amd64.s:1111
  MULQ (.reg R14),
  -- p503/arith_amd64.s:1112
  ADDQ (.reg AX) (.reg R8),
  -- p503/arith_amd64.s:1113
  MOVQ (.reg R8) (.mem CX 12),
  -- p503/arith_amd64.s:1114
  ADCQ (.reg DX) (.reg R9),
  -- p503/arith_amd64.s:1115
  ADCQ (.imm 0) (.reg R10),
  -- p503/arith_amd64.s:1117
  XORQ (.reg R8) (.reg R8),
  -- p503/arith_amd64.s:1118
  MOVQ (.mem SI 7) (.reg AX),
  -- p503/arith_amd64.s:1119
  MULQ (.reg R14),
  -- p503/arith_amd64.s:1120
  ADDQ (.reg AX) (.reg R9),
  -- p503/arith_amd64.s:1121
  ADCQ (.reg DX) (.reg R10),
  -- p503/arith_amd64.s:1122
  ADCQ (.imm 0) (.reg R8),
  -- p503/arith_amd64.s:1124
  MOVQ (.mem SI 6) (.reg AX),
  -- p503/arith_amd64.s:1125
  MULQ (.reg R15),
  -- p503/arith_amd64.s:1126
  ADDQ (.reg AX) (.reg R9),
  -- p503/arith_amd64.s:1127
  MOVQ (.reg R9) (.mem CX 13),
  -- p503/arith_amd64.s:1128
  ADCQ (.reg DX) (.reg R10),
  -- p503/arith_amd64.s:1129
  ADCQ (.imm 0) (.reg R8),
  -- p503/arith_amd64.s:1131
  MOVQ (.mem SI 7) (.reg AX),
  -- p503/arith_amd64.s:1132
  MULQ (.reg R15),
  -- p503/arith_amd64.s:1133
  ADDQ (.reg AX) (.reg R10),
  -- p503/arith_amd64.s:1134
  MOVQ (.reg R10) (.mem CX 14),
  -- p503/arith_amd64.s:1135
  ADCQ (.reg DX) (.reg R8),
  -- p503/arith_amd64.s:1136
  MOVQ (.reg R8) (.mem CX 15),
  -- p503/arith_amd64.s:1139
  MOVQ (.mem SP 0) (.reg R8),
  -- p503/arith_amd64.s:1140
  SUBQ (.mem CX 0) (.reg R8),
  -- p503/arith_amd64.s:1141
  MOVQ (.mem SP 1) (.reg R9),
  -- p503/arith_amd64.s:1142
  SBBQ (.mem CX 1) (.reg R9),
  -- p503/arith_amd64.s:1143
  MOVQ (.mem SP 2) (.reg R10),
  -- p503/arith_amd64.s:1144
  SBBQ (.mem CX 2) (.reg R10),
  -- p503/arith_amd64.s:1145
  MOVQ (.mem SP 3) (.reg R11),
  -- p503/arith_amd64.s:1146
  SBBQ (.mem CX 3) (.reg R11),
  -- p503/arith_amd64.s:1147
  MOVQ (.mem SP 4) (.reg R12),
  -- p503/arith_amd64.s:1148
  SBBQ (.mem CX 4) (.reg R12),
  -- p503/arith_amd64.s:1149
  MOVQ (.mem SP 5) (.reg R13),
  -- p503/arith_amd64.s:1150
  SBBQ (.mem CX 5) (.reg R13),
  -- p503/arith_amd64.s:1151
  MOVQ (.mem SP 6) (.reg R14),
  -- p503/arith_amd64.s:1152
  SBBQ (.mem CX 6) (.reg R14),
  -- p503/arith_amd64.s:1153
  MOVQ (.mem SP 7) (.reg R15),
  -- p503/arith_amd64.s:1154
  SBBQ (.mem CX 7) (.reg R15),
  -- p503/arith_amd64.s:1157
  MOVQ (.mem CX 8) (.reg AX),
  SUBQ (.reg AX) (.reg R8),
  -- p503/arith_amd64.s:1158
  MOVQ (.mem CX 9) (.reg AX),
  SBBQ (.reg AX) (.reg R9),
  -- p503/arith_amd64.s:1159
  MOVQ (.mem CX 10) (.reg AX),
  SBBQ (.reg AX) (.reg R10),
  -- p503/arith_amd64.s:1160
  MOVQ (.mem CX 11) (.reg AX),
  SBBQ (.reg AX) (.reg R11),
  -- p503/arith_amd64.s:1161
  MOVQ (.mem CX 12) (.reg AX),
  SBBQ (.reg AX) (.reg R12),
  -- p503/arith_amd64.s:1162
  MOVQ (.mem CX 13) (.reg DX),
  SBBQ (.reg DX) (.reg R13),
  -- p503/arith_amd64.s:1163
  MOVQ (.mem CX 14) (.reg DI),
  SBBQ (.reg DI) (.reg R14),
  -- p503/arith_amd64.s:1164
  MOVQ (.mem CX 15) (.reg SI),
  SBBQ (.reg SI) (.reg R15),
  -- p503/arith_amd64.s:1167
  ADDQ (.mem CX 4) (.reg R8),
  MOVQ (.reg R8) (.mem CX 4),
  -- p503/arith_amd64.s:1168
  ADCQ (.mem CX 5) (.reg R9),
  MOVQ (.reg R9) (.mem CX 5),
  -- p503/arith_amd64.s:1169
  ADCQ (.mem CX 6) (.reg R10),
  MOVQ (.reg R10) (.mem CX 6),
  -- p503/arith_amd64.s:1170
  ADCQ (.mem CX 7) (.reg R11),
  MOVQ (.reg R11) (.mem CX 7),
  -- p503/arith_amd64.s:1171
  ADCQ (.mem CX 8) (.reg R12),
  MOVQ (.reg R12) (.mem CX 8),
  -- p503/arith_amd64.s:1172
  ADCQ (.mem CX 9) (.reg R13),
  MOVQ (.reg R13) (.mem CX 9),
  -- p503/arith_amd64.s:1173
  ADCQ (.mem CX 10) (.reg R14),
  MOVQ (.reg R14) (.mem CX 10),
  -- p503/arith_amd64.s:1174
  ADCQ (.mem CX 11) (.reg R15),
  MOVQ (.reg R15) (.mem CX 11),
  -- p503/arith_amd64.s:1175
  ADCQ (.imm 0) (.reg AX),
  MOVQ (.reg AX) (.mem CX 12),
  -- p503/arith_amd64.s:1176
  ADCQ (.imm 0) (.reg DX),
  MOVQ (.reg DX) (.mem CX 13),
  -- p503/arith_amd64.s:1177
  ADCQ (.imm 0) (.reg DI),
  MOVQ (.reg DI) (.mem CX 14),
  -- p503/arith_amd64.s:1178
  ADCQ (.imm 0) (.reg SI),
  MOVQ (.reg SI) (.mem CX 15)
  ]

def mul : Routine := { code := mulCode, frame := 13, glob := [] }

/-- p503/arith_amd64.s:695-1190 `mulP503`, with BMI2 -/
def mul_bmi2Code : List Instr := [
  -- p503/arith_amd64.s:695
  MOVQ (.mem FP 0) (.reg CX),
  -- p503/arith_amd64.s:696
  MOVQ (.mem FP 1) (.reg DI),
  -- p503/arith_amd64.s:697
  MOVQ (.mem FP 2) (.reg SI),
  -- p503/arith_amd64.s:1189
  XORQ (.reg AX) (.reg AX),
  MOVQ (.mem DI 0) (.reg R8),
  MOVQ (.mem DI 1) (.reg R9),
  MOVQ (.mem DI 2) (.reg R10),
  MOVQ (.mem DI 3) (.reg R11),
  ADDQ (.mem DI 4) (.reg R8),
  ADCQ (.mem DI 5) (.reg R9),
  ADCQ (.mem DI 6) (.reg R10),
  ADCQ (.mem DI 7) (.reg R11),
  SBBQ (.imm 0) (.reg AX),
  MOVQ (.reg R8) (.mem SP 0),
  MOVQ (.reg R9) (.mem SP 1),
  MOVQ (.reg R10) (.mem SP 2),
  MOVQ (.reg R11) (.mem SP 3),
  XORQ (.reg BX) (.reg BX),
  MOVQ (.mem SI 0) (.reg R12),
  MOVQ (.mem SI 1) (.reg R13),
  MOVQ (.mem SI 2) (.reg R14),
  MOVQ (.mem SI 3) (.reg R15),
  ADDQ (.mem SI 4) (.reg R12),
  ADCQ (.mem SI 5) (.reg R13),
  ADCQ (.mem SI 6) (.reg R14),
  ADCQ (.mem SI 7) (.reg R15),
  SBBQ (.imm 0) (.reg BX),
  MOVQ (.reg R12) (.mem SP 4),
  MOVQ (.reg R13) (.mem SP 5),
  MOVQ (.reg R14) (.mem SP 6),
  MOVQ (.reg R15) (.mem SP 7),
  ANDQ (.reg AX) (.reg R12),
  ANDQ (.reg AX) (.reg R13),
  ANDQ (.reg AX) (.reg R14),
  ANDQ (.reg AX) (.reg R15),
  ANDQ (.reg BX) (.reg R8),
  ANDQ (.reg BX) (.reg R9),
  ANDQ (.reg BX) (.reg R10),
  ANDQ (.reg BX) (.reg R11),
  ADDQ (.reg R12) (.reg R8),
  ADCQ (.reg R13) (.reg R9),
  ADCQ (.reg R14) (.reg R10),
  ADCQ (.reg R15) (.reg R11),
  MOVQ (.reg R8) (.mem SP 8),
  MOVQ (.reg R9) (.mem SP 9),
  MOVQ (.reg R10) (.mem SP 10),
  MOVQ (.reg R11) (.mem SP 11),
  MOVQ (.reg BP) (.mem SP 12),
  MOVQ (.mem SP 0) (.reg DX),
  MULXQ (.mem SP 4) (.reg R9) (.reg R8),
  MOVQ (.reg R9) (.mem CX 8),
  MULXQ (.mem SP 5) (.reg R10) (.reg R9),
  ADDQ (.reg R10) (.reg R8),
  MULXQ (.mem SP 6) (.reg R11) (.reg R10),
  ADCQ (.reg R11) (.reg R9),
  MULXQ (.mem SP 7) (.reg R12) (.reg R11),
  ADCQ (.reg R12) (.reg R10),
  MOVQ (.mem SP 1) (.reg DX),
  ADCQ (.imm 0) (.reg R11),
  MULXQ (.mem SP 4) (.reg R12) (.reg R13),
  MULXQ (.mem SP 5) (.reg R15) (.reg R14),
  ADDQ (.reg R15) (.reg R13),
  MULXQ (.mem SP 6) (.reg BX) (.reg R15),
  ADCQ (.reg BX) (.reg R14),
  MULXQ (.mem SP 7) (.reg BP) (.reg BX),
  ADCQ (.reg BP) (.reg R15),
  ADCQ (.imm 0) (.reg BX),
  ADDQ (.reg R8) (.reg R12),
  MOVQ (.reg R12) (.mem CX 9),
  ADCQ (.reg R9) (.reg R13),
  ADCQ (.reg R10) (.reg R14),
  ADCQ (.reg R11) (.reg R15),
  MOVQ (.mem SP 2) (.reg DX),
  ADCQ (.imm 0) (.reg BX),
  MULXQ (.mem SP 4) (.reg R8) (.reg R9),
  MULXQ (.mem SP 5) (.reg R11) (.reg R10),
  ADDQ (.reg R11) (.reg R9),
  MULXQ (.mem SP 6) (.reg R12) (.reg R11),
  ADCQ (.reg R12) (.reg R10),
  MULXQ (.mem SP 7) (.reg BP) (.reg R12),
  ADCQ (.reg BP) (.reg R11),
  MOVQ (.mem SP 3) (.reg DX),
  ADCQ (.imm 0) (.reg R12),
  ADDQ (.reg R13) (.reg R8),
  MOVQ (.reg R8) (.mem CX 10),
  ADCQ (.reg R14) (.reg R9),
  ADCQ (.reg R15) (.reg R10),
  ADCQ (.reg BX) (.reg R11),
  ADCQ (.imm 0) (.reg R12),
  MULXQ (.mem SP 4) (.reg R8) (.reg R13),
  MULXQ (.mem SP 5) (.reg R15) (.reg R14),
  ADDQ (.reg R15) (.reg R13),
  MULXQ (.mem SP 6) (.reg BX) (.reg R15),
  ADCQ (.reg BX) (.reg R14),
  MULXQ (.mem SP 7) (.reg BP) (.reg BX),
  ADCQ (.reg BP) (.reg R15),
  ADCQ (.imm 0) (.reg BX),
  ADDQ (.reg R8) (.reg R9),
  MOVQ (.reg R9) (.mem CX 11),
  ADCQ (.reg R13) (.reg R10),
  MOVQ (.reg R10) (.mem CX 12),
  ADCQ (.reg R14) (.reg R11),
  MOVQ (.reg R11) (.mem CX 13),
  ADCQ (.reg R15) (.reg R12),
  MOVQ (.reg R12) (.mem CX 14),
  ADCQ (.imm 0) (.reg BX),
  MOVQ (.reg BX) (.mem CX 15),
  MOVQ (.mem DI 0) (.reg DX),
  MULXQ (.mem SI 0) (.reg R9) (.reg R8),
  MOVQ (.reg R9) (.mem CX 0),
  MULXQ (.mem SI 1) (.reg R10) (.reg R9),
  ADDQ (.reg R10) (.reg R8),
  MULXQ (.mem SI 2) (.reg R11) (.reg R10),
  ADCQ (.reg R11) (.reg R9),
  MULXQ (.mem SI 3) (.reg R12) (.reg R11),
  ADCQ (.reg R12) (.reg R10),
  MOVQ (.mem DI 1) (.reg DX),
  ADCQ (.imm 0) (.reg R11),
  MULXQ (.mem SI 0) (.reg R12) (.reg R13),
  MULXQ (.mem SI 1) (.reg R15) (.reg R14),
  ADDQ (.reg R15) (.reg R13),
  MULXQ (.mem SI 2) (.reg BX) (.reg R15),
  ADCQ (.reg BX) (.reg R14),
  MULXQ (.mem SI 3) (.reg BP) (.reg BX),
  ADCQ (.reg BP) (.reg R15),
  ADCQ (.imm 0) (.reg BX),
  ADDQ (.reg R8) (.reg R12),
  MOVQ (.reg R12) (.mem CX 1),
  ADCQ (.reg R9) (.reg R13),
  ADCQ (.reg R10) (.reg R14),
  ADCQ (.reg R11) (.reg R15),
  MOVQ (.mem DI 2) (.reg DX),
  ADCQ (.imm 0) (.reg BX),
  MULXQ (.mem SI 0) (.reg R8) (.reg R9),
  MULXQ (.mem SI 1) (.reg R11) (.reg R10),
  ADDQ (.reg R11) (.reg R9),
  MULXQ (.mem SI 2) (.reg R12) (.reg R11),
  ADCQ (.reg R12) (.reg R10),
  MULXQ (.mem SI 3) (.reg BP) (.reg R12),
  ADCQ (.reg BP) (.reg R11),
  MOVQ (.mem DI 3) (.reg DX),
  ADCQ (.imm 0) (.reg R12),
  ADDQ (.reg R13) (.reg R8),
  MOVQ (.reg R8) (.mem CX 2),
  ADCQ (.reg R14) (.reg R9),
  ADCQ (.reg R15) (.reg R10),
  ADCQ (.reg BX) (.reg R11),
  ADCQ (.imm 0) (.reg R12),
  MULXQ (.mem SI 0) (.reg R8) (.reg R13),
  MULXQ (.mem SI 1) (.reg R15) (.reg R14),
  ADDQ (.reg R15) (.reg R13),
  MULXQ (.mem SI 2) (.reg BX) (.reg R15),
  ADCQ (.reg BX) (.reg R14),
  MULXQ (.mem SI 3) (.reg BP) (.reg BX),
  ADCQ (.reg BP) (.reg R15),
  ADCQ (.imm 0) (.reg BX),
  ADDQ (.reg R8) (.reg R9),
  MOVQ (.reg R9) (.mem CX 3),
  ADCQ (.reg R13) (.reg R10),
  MOVQ (.reg R10) (.mem CX 4),
  ADCQ (.reg R14) (.reg R11),
  MOVQ (.reg R11) (.mem CX 5),
  ADCQ (.reg R15) (.reg R12),
  MOVQ (.reg R12) (.mem CX 6),
  ADCQ (.imm 0) (.reg BX),
  MOVQ (.reg BX) (.mem CX 7),
  MOVQ (.mem DI 4) (.reg DX),
  MULXQ (.mem SI 4) (.reg R9) (.reg R8),
  MOVQ (.reg R9) (.mem SP 0),
  MULXQ (.mem SI 5) (.reg R10) (.reg R9),
  ADDQ (.reg R10) (.reg R8),
  MULXQ (.mem SI 6) (.reg R11) (.reg R10),
  ADCQ (.reg R11) (.reg R9),
  MULXQ (.mem SI 7) (.reg R12) (.reg R11),
  ADCQ (.reg R12) (.reg R10),
  MOVQ (.mem DI 5) (.reg DX),
  ADCQ (.imm 0) (.reg R11),
  MULXQ (.mem SI 4) (.reg R12) (.reg R13),
  MULXQ (.mem SI 5) (.reg R15) (.reg R14),
  ADDQ (.reg R15) (.reg R13),
  MULXQ (.mem SI 6) (.reg BX) (.reg R15),
  ADCQ (.reg BX) (.reg R14),
  MULXQ (.mem SI 7) (.reg BP) (.reg BX),
  ADCQ (.reg BP) (.reg R15),
  ADCQ (.imm 0) (.reg BX),
  ADDQ (.reg R8) (.reg R12),
  MOVQ (.reg R12) (.mem SP 1),
  ADCQ (.reg R9) (.reg R13),
  ADCQ (.reg R10) (.reg R14),
  ADCQ (.reg R11) (.reg R15),
  MOVQ (.mem DI 6) (.reg DX),
  ADCQ (.imm 0) (.reg BX),
  MULXQ (.mem SI 4) (.reg R8) (.reg R9),
  MULXQ (.mem SI 5) (.reg R11) (.reg R10),
  ADDQ (.reg R11) (.reg R9),
  MULXQ (.mem SI 6) (.reg R12) (.reg R11),
  ADCQ (.reg R12) (.reg R10),
  MULXQ (.mem SI 7) (.reg BP) (.reg R12),
  ADCQ (.reg BP) (.reg R11),
  MOVQ (.mem DI 7) (.reg DX),
  ADCQ (.imm 0) (.reg R12),
  ADDQ (.reg R13) (.reg R8),
  MOVQ (.reg R8) (.mem SP 2),
  ADCQ (.reg R14) (.reg R9),
  ADCQ (.reg R15) (.reg R10),
  ADCQ (.reg BX) (.reg R11),
  ADCQ (.imm 0) (.reg R12),
  MULXQ (.mem SI 4) (.reg R8) (.reg R13),
  MULXQ (.mem SI 5) (.reg R15) (.reg R14),
  ADDQ (.reg R15) (.reg R13),
  MULXQ (.mem SI 6) (.reg BX) (.reg R15),
  ADCQ (.reg BX) (.reg R14),
  MULXQ (.mem SI 7) (.reg BP) (.reg BX),
  ADCQ (.reg BP) (.reg R15),
  ADCQ (.imm 0) (.reg BX),
  ADDQ (.reg R8) (.reg R9),
  MOVQ (.reg R9) (.mem SP 3),
  ADCQ (.reg R13) (.reg R10),
  MOVQ (.reg R10) (.mem SP 4),
  ADCQ (.reg R14) (.reg R11),
  MOVQ (.reg R11) (.mem SP 5),
  ADCQ (.reg R15) (.reg R12),
  MOVQ (.reg R12) (.mem SP 6),
  ADCQ (.imm 0) (.reg BX),
  MOVQ (.reg BX) (.mem SP 7),
  MOVQ (.mem SP 12) (.reg BP),
  MOVQ (.mem SP 8) (.reg R8),
  MOVQ (.mem SP 9) (.reg R9),
  MOVQ (.mem SP 10) (.reg R10),
  MOVQ (.mem SP 11) (.reg R11),
  MOVQ (.mem CX 12) (.reg AX),
  ADDQ (.reg AX) (.reg R8),
  MOVQ (.mem CX 13) (.reg AX),
  ADCQ (.reg AX) (.reg R9),
  MOVQ (.mem CX 14) (.reg AX),
  ADCQ (.reg AX) (.reg R10),
  MOVQ (.mem CX 15) (.reg AX),
  ADCQ (.reg AX) (.reg R11),
  MOVQ (.mem CX 8) (.reg R12),
  MOVQ (.mem CX 9) (.reg R13),
  MOVQ (.mem CX 10) (.reg R14),
  MOVQ (.mem CX 11) (.reg R15),
  SUBQ (.mem CX 0) (.reg R12),
  SBBQ (.mem CX 1) (.reg R13),
  SBBQ (.mem CX 2) (.reg R14),
  SBBQ (.mem CX 3) (.reg R15),
  SBBQ (.mem CX 4) (.reg R8),
  SBBQ (.mem CX 5) (.reg R9),
  SBBQ (.mem CX 6) (.reg R10),
  SBBQ (.mem CX 7) (.reg R11),
  SUBQ (.mem SP 0) (.reg R12),
  SBBQ (.mem SP 1) (.reg R13),
  SBBQ (.mem SP 2) (.reg R14),
  SBBQ (.mem SP 3) (.reg R15),
  SBBQ (.mem SP 4) (.reg R8),
  SBBQ (.mem SP 5) (.reg R9),
  SBBQ (.mem SP 6) (.reg R10),
  SBBQ (.mem SP 7) (.reg R11),
  ADDQ (.mem CX 4) (.reg R12),
  MOVQ (.reg R12) (.mem CX 4),
  ADCQ (.mem CX 5) (.reg R13),
  MOVQ (.reg R13) (.mem CX 5),
  ADCQ (.mem CX 6) (.reg R14),
  MOVQ (.reg R14) (.mem CX 6),
  ADCQ (.mem CX 7) (.reg R15),
  MOVQ (.reg R15) (.mem CX 7),
  MOVQ (.mem SP 0) (.reg AX),
  ADCQ (.reg AX) (.reg R8),
  MOVQ (.reg R8) (.mem CX 8),
  MOVQ (.mem SP 1) (.reg AX),
  ADCQ (.reg AX) (.reg R9),
  MOVQ (.reg R9) (.mem CX 9),
  MOVQ (.mem SP 2) (.reg AX),
  ADCQ (.reg AX) (.reg R10),
  MOVQ (.reg R10) (.mem CX 10),
  MOVQ (.mem SP 3) (.reg AX),
  ADCQ (.reg AX) (.reg R11),
  MOVQ (.reg R11) (.mem CX 11),
  MOVQ (.mem SP 4) (.reg R12),
  ADCQ (.imm 0) (.reg R12),
  MOVQ (.reg R12) (.mem CX 12),
  MOVQ (.mem SP 5) (.reg R13),
  ADCQ (.imm 0) (.reg R13),
  MOVQ (.reg R13) (.mem CX 13),
  MOVQ (.mem SP 6) (.reg R14),
  ADCQ (.imm 0) (.reg R14),
  MOVQ (.reg R14) (.mem CX 14),
  MOVQ (.mem SP 7) (.reg R15),
  ADCQ (.imm 0) (.reg R15),
  MOVQ (.reg R15) (.mem CX 15)
  ]

def mul_bmi2 : Routine := { code := mul_bmi2Code, frame := 13, glob := [] }

/-- p503/arith_amd64.s:695-1190 `mulP503`, with BMI2 and ADX -/
def mul_adxCode : List Instr := [
  -- p503/arith_amd64.s:695
  MOVQ (.mem FP 0) (.reg CX),
  -- p503/arith_amd64.s:696
  MOVQ (.mem FP 1) (.reg DI),
  -- p503/arith_amd64.s:697
  MOVQ (.mem FP 2) (.reg SI),
  -- p503/arith_amd64.s:1184
  XORQ (.reg AX) (.reg AX),
  MOVQ (.mem DI 0) (.reg R8),
  MOVQ (.mem DI 1) (.reg R9),
  MOVQ (.mem DI 2) (.reg R10),
  MOVQ (.mem DI 3) (.reg R11),
  ADDQ (.mem DI 4) (.reg R8),
  ADCQ (.mem DI 5) (.reg R9),
  ADCQ (.mem DI 6) (.reg R10),
  ADCQ (.mem DI 7) (.reg R11),
  SBBQ (.imm 0) (.reg AX),
  MOVQ (.reg R8) (.mem SP 0),
  MOVQ (.reg R9) (.mem SP 1),
  MOVQ (.reg R10) (.mem SP 2),
  MOVQ (.reg R11) (.mem SP 3),
  XORQ (.reg BX) (.reg BX),
  MOVQ (.mem SI 0) (.reg R12),
  MOVQ (.mem SI 1) (.reg R13),
  MOVQ (.mem SI 2) (.reg R14),
  MOVQ (.mem SI 3) (.reg R15),
  ADDQ (.mem SI 4) (.reg R12),
  ADCQ (.mem SI 5) (.reg R13),
  ADCQ (.mem SI 6) (.reg R14),
  ADCQ (.mem SI 7) (.reg R15),
  SBBQ (.imm 0) (.reg BX),
  MOVQ (.reg R12) (.mem SP 4),
  MOVQ (.reg R13) (.mem SP 5),
  MOVQ (.reg R14) (.mem SP 6),
  MOVQ (.reg R15) (.mem SP 7),
  ANDQ (.reg AX) (.reg R12),
  ANDQ (.reg AX) (.reg R13),
  ANDQ (.reg AX) (.reg R14),
  ANDQ (.reg AX) (.reg R15),
  ANDQ (.reg BX) (.reg R8),
  ANDQ (.reg BX) (.reg R9),
  ANDQ (.reg BX) (.reg R10),
  ANDQ (.reg BX) (.reg R11),
  ADDQ (.reg R12) (.reg R8),
  ADCQ (.reg R13) (.reg R9),
  ADCQ (.reg R14) (.reg R10),
  ADCQ (.reg R15) (.reg R11),
  MOVQ (.reg R8) (.mem SP 8),
  MOVQ (.reg R9) (.mem SP 9),
  MOVQ (.reg R10) (.mem SP 10),
  MOVQ (.reg R11) (.mem SP 11),
  MOVQ (.reg BP) (.mem SP 12),
  MOVQ (.mem SP 0) (.reg DX),
  MULXQ (.mem SP 4) (.reg R9) (.reg R8),
  MOVQ (.reg R9) (.mem CX 8),
  MULXQ (.mem SP 5) (.reg R10) (.reg R9),
  XORQ (.reg AX) (.reg AX),
  ADOXQ (.reg R10) (.reg R8),
  MULXQ (.mem SP 6) (.reg R11) (.reg R10),
  ADOXQ (.reg R11) (.reg R9),
  MULXQ (.mem SP 7) (.reg R12) (.reg R11),
  ADOXQ (.reg R12) (.reg R10),
  MOVQ (.mem SP 1) (.reg DX),
  MULXQ (.mem SP 4) (.reg R12) (.reg R13),
  ADOXQ (.reg AX) (.reg R11),
  XORQ (.reg AX) (.reg AX),
  MULXQ (.mem SP 5) (.reg R15) (.reg R14),
  ADOXQ (.reg R8) (.reg R12),
  MOVQ (.reg R12) (.mem CX 9),
  ADCXQ (.reg R15) (.reg R13),
  MULXQ (.mem SP 6) (.reg BX) (.reg R15),
  ADCXQ (.reg BX) (.reg R14),
  ADOXQ (.reg R9) (.reg R13),
  MULXQ (.mem SP 7) (.reg BP) (.reg BX),
  ADCXQ (.reg BP) (.reg R15),
  ADCXQ (.reg AX) (.reg BX),
  ADOXQ (.reg R10) (.reg R14),
  MOVQ (.mem SP 2) (.reg DX),
  MULXQ (.mem SP 4) (.reg R8) (.reg R9),
  ADOXQ (.reg R11) (.reg R15),
  ADOXQ (.reg AX) (.reg BX),
  XORQ (.reg AX) (.reg AX),
  MULXQ (.mem SP 5) (.reg R11) (.reg R10),
  ADOXQ (.reg R13) (.reg R8),
  MOVQ (.reg R8) (.mem CX 10),
  ADCXQ (.reg R11) (.reg R9),
  MULXQ (.mem SP 6) (.reg R12) (.reg R11),
  ADCXQ (.reg R12) (.reg R10),
  ADOXQ (.reg R14) (.reg R9),
  MULXQ (.mem SP 7) (.reg BP) (.reg R12),
  ADCXQ (.reg BP) (.reg R11),
  MOVQ (.mem SP 3) (.reg DX),
  ADCXQ (.reg AX) (.reg R12),
  ADOXQ (.reg R15) (.reg R10),
  ADOXQ (.reg BX) (.reg R11),
  ADOXQ (.reg AX) (.reg R12),
  MULXQ (.mem SP 4) (.reg R8) (.reg R13),
  XORQ (.reg AX) (.reg AX),
  MULXQ (.mem SP 5) (.reg R15) (.reg R14),
  ADCXQ (.reg R15) (.reg R13),
  ADOXQ (.reg R8) (.reg R9),
  MULXQ (.mem SP 6) (.reg BX) (.reg R15),
  ADCXQ (.reg BX) (.reg R14),
  ADOXQ (.reg R13) (.reg R10),
  MULXQ (.mem SP 7) (.reg BP) (.reg BX),
  ADCXQ (.reg BP) (.reg R15),
  ADCXQ (.reg AX) (.reg BX),
  ADOXQ (.reg R14) (.reg R11),
  ADOXQ (.reg R15) (.reg R12),
  ADOXQ (.reg AX) (.reg BX),
  MOVQ (.reg R9) (.mem CX 11),
  MOVQ (.reg R10) (.mem CX 12),
  MOVQ (.reg R11) (.mem CX 13),
  MOVQ (.reg R12) (.mem CX 14),
  MOVQ (.reg BX) (.mem CX 15),
  MOVQ (.mem DI 0) (.reg DX),
  MULXQ (.mem SI 0) (.reg R9) (.reg R8),
  MOVQ (.reg R9) (.mem CX 0),
  MULXQ (.mem SI 1) (.reg R10) (.reg R9),
  XORQ (.reg AX) (.reg AX),
  ADOXQ (.reg R10) (.reg R8),
  MULXQ (.mem SI 2) (.reg R11) (.reg R10),
  ADOXQ (.reg R11) (.reg R9),
  MULXQ (.mem SI 3) (.reg R12) (.reg R11),
  ADOXQ (.reg R12) (.reg R10),
  MOVQ (.mem DI 1) (.reg DX),
  MULXQ (.mem SI 0) (.reg R12) (.reg R13),
  ADOXQ (.reg AX) (.reg R11),
  XORQ (.reg AX) (.reg AX),
  MULXQ (.mem SI 1) (.reg R15) (.reg R14),
  ADOXQ (.reg R8) (.reg R12),
  MOVQ (.reg R12) (.mem CX 1),
  ADCXQ (.reg R15) (.reg R13),
  MULXQ (.mem SI 2) (.reg BX) (.reg R15),
  ADCXQ (.reg BX) (.reg R14),
  ADOXQ (.reg R9) (.reg R13),
  MULXQ (.mem SI 3) (.reg BP) (.reg BX),
  ADCXQ (.reg BP) (.reg R15),
  ADCXQ (.reg AX) (.reg BX),
  ADOXQ (.reg R10) (.reg R14),
  MOVQ (.mem DI 2) (.reg DX),
  MULXQ (.mem SI 0) (.reg R8) (.reg R9),
  ADOXQ (.reg R11) (.reg R15),
  ADOXQ (.reg AX) (.reg BX),
  XORQ (.reg AX) (.reg AX),
  MULXQ (.mem SI 1) (.reg R11) (.reg R10),
  ADOXQ (.reg R13) (.reg R8),
  MOVQ (.reg R8) (.mem CX 2),
  ADCXQ (.reg R11) (.reg R9),
  MULXQ (.mem SI 2) (.reg R12) (.reg R11),
  ADCXQ (.reg R12) (.reg R10),
  ADOXQ (.reg R14) (.reg R9),
  MULXQ (.mem SI 3) (.reg BP) (.reg R12),
  ADCXQ (.reg BP) (.reg R11),
  MOVQ (.mem DI 3) (.reg DX),
  ADCXQ (.reg AX) (.reg R12),
  ADOXQ (.reg R15) (.reg R10),
  ADOXQ (.reg BX) (.reg R11),
  ADOXQ (.reg AX) (.reg R12),
  MULXQ (.mem SI 0) (.reg R8) (.reg R13),
  XORQ (.reg AX) (.reg AX),
  MULXQ (.mem SI 1) (.reg R15) (.reg R14),
  ADCXQ (.reg R15) (.reg R13),
  ADOXQ (.reg R8) (.reg R9),
  MULXQ (.mem SI 2) (.reg BX) (.reg R15),
  ADCXQ (.reg BX) (.reg R14),
  ADOXQ (.reg R13) (.reg R10),
  MULXQ (.mem SI 3) (.reg BP) (.reg BX),
  ADCXQ (.reg BP) (.reg R15),
  ADCXQ (.reg AX) (.reg BX),
  ADOXQ (.reg R14) (.reg R11),
  ADOXQ (.reg R15) (.reg R12),
  ADOXQ (.reg AX) (.reg BX),
  MOVQ (.reg R9) (.mem CX 3),
  MOVQ (.reg R10) (.mem CX 4),
  MOVQ (.reg R11) (.mem CX 5),
  MOVQ (.reg R12) (.mem CX 6),
  MOVQ (.reg BX) (.mem CX 7),
  MOVQ (.mem DI 4) (.reg DX),
  MULXQ (.mem SI 4) (.reg R9) (.reg R8),
  MOVQ (.reg R9) (.mem SP 0),
  MULXQ (.mem SI 5) (.reg R10) (.reg R9),
  XORQ (.reg AX) (.reg AX),
  ADOXQ (.reg R10) (.reg R8),
  MULXQ (.mem SI 6) (.reg R11) (.reg R10),
  ADOXQ (.reg R11) (.reg R9),
  MULXQ (.mem SI 7) (.reg R12) (.reg R11),
  ADOXQ (.reg R12) (.reg R10),
  MOVQ (.mem DI 5) (.reg DX),
  MULXQ (.mem SI 4) (.reg R12) (.reg R13),
  ADOXQ (.reg AX) (.reg R11),
  XORQ (.reg AX) (.reg AX),
  MULXQ (.mem SI 5) (.reg R15) (.reg R14),
  ADOXQ (.reg R8) (.reg R12),
  MOVQ (.reg R12) (.mem SP 1),
  ADCXQ (.reg R15) (.reg R13),
  MULXQ (.mem SI 6) (.reg BX) (.reg R15),
  ADCXQ (.reg BX) (.reg R14),
  ADOXQ (.reg R9) (.reg R13),
  MULXQ (.mem SI 7) (.reg BP) (.reg BX),
  ADCXQ (.reg BP) (.reg R15),
  ADCXQ (.reg AX) (.reg BX),
  ADOXQ (.reg R10) (.reg R14),
  MOVQ (.mem DI 6) (.reg DX),
  MULXQ (.mem SI 4) (.reg R8) (.reg R9),
  ADOXQ (.reg R11) (.reg R15),
  ADOXQ (.reg AX) (.reg BX),
  XORQ (.reg AX) (.reg AX),
  MULXQ (.mem SI 5) (.reg R11) (.reg R10),
  ADOXQ (.reg R13) (.reg R8),
  MOVQ (.reg R8) (.mem SP 2),
  ADCXQ (.reg R11) (.reg R9),
  MULXQ (.mem SI 6) (.reg R12) (.reg R11),
  ADCXQ (.reg R12) (.reg R10),
  ADOXQ (.reg R14) (.reg R9),
  MULXQ (.mem SI 7) (.reg BP) (.reg R12),
  ADCXQ (.reg BP) (.reg R11),
  MOVQ (.mem DI 7) (.reg DX),
  ADCXQ (.reg AX) (.reg R12),
  ADOXQ (.reg R15) (.reg R10),
  ADOXQ (.reg BX) (.reg R11),
  ADOXQ (.reg AX) (.reg R12),
  MULXQ (.mem SI 4) (.reg R8) (.reg R13),
  XORQ (.reg AX) (.reg AX),
  MULXQ (.mem SI 5) (.reg R15) (.reg R14),
  ADCXQ (.reg R15) (.reg R13),
  ADOXQ (.reg R8) (.reg R9),
  MULXQ (.mem SI 6) (.reg BX) (.reg R15),
  ADCXQ (.reg BX) (.reg R14),
  ADOXQ (.reg R13) (.reg R10),
  MULXQ (.mem SI 7) (.reg BP) (.reg BX),
  ADCXQ (.reg BP) (.reg R15),
  ADCXQ (.reg AX) (.reg BX),
  ADOXQ (.reg R14) (.reg R11),
  ADOXQ (.reg R15) (.reg R12),
  ADOXQ (.reg AX) (.reg BX),
  MOVQ (.reg R9) (.mem SP 3),
  MOVQ (.reg R10) (.mem SP 4),
  MOVQ (.reg R11) (.mem SP 5),
  MOVQ (.reg R12) (.mem SP 6),
  MOVQ (.reg BX) (.mem SP 7),
  MOVQ (.mem SP 12) (.reg BP),
  MOVQ (.mem SP 8) (.reg R8),
  MOVQ (.mem SP 9) (.reg R9),
  MOVQ (.mem SP 10) (.reg R10),
  MOVQ (.mem SP 11) (.reg R11),
  MOVQ (.mem CX 12) (.reg AX),
  ADDQ (.reg AX) (.reg R8),
  MOVQ (.mem CX 13) (.reg AX),
  ADCQ (.reg AX) (.reg R9),
  MOVQ (.mem CX 14) (.reg AX),
  ADCQ (.reg AX) (.reg R10),
  MOVQ (.mem CX 15) (.reg AX),
  ADCQ (.reg AX) (.reg R11),
  MOVQ (.mem CX 8) (.reg R12),
  MOVQ (.mem CX 9) (.reg R13),
  MOVQ (.mem CX 10) (.reg R14),
  MOVQ (.mem CX 11) (.reg R15),
  SUBQ (.mem CX 0) (.reg R12),
  SBBQ (.mem CX 1) (.reg R13),
  SBBQ (.mem CX 2) (.reg R14),
  SBBQ (.mem CX 3) (.reg R15),
  SBBQ (.mem CX 4) (.reg R8),
  SBBQ (.mem CX 5) (.reg R9),
  SBBQ (.mem CX 6) (.reg R10),
  SBBQ (.mem CX 7) (.reg R11),
  SUBQ (.mem SP 0) (.reg R12),
  SBBQ (.mem SP 1) (.reg R13),
  SBBQ (.mem SP 2) (.reg R14),
  SBBQ (.mem SP 3) (.reg R15),
  SBBQ (.mem SP 4) (.reg R8),
  SBBQ (.mem SP 5) (.reg R9),
  SBBQ (.mem SP 6) (.reg R10),
  SBBQ (.mem SP 7) (.reg R11),
  ADDQ (.mem CX 4) (.reg R12),
  MOVQ (.reg R12) (.mem CX 4),
  ADCQ (.mem CX 5) (.reg R13),
  MOVQ (.reg R13) (.mem CX 5),
  ADCQ (.mem CX 6) (.reg R14),
  MOVQ (.reg R14) (.mem CX 6),
  ADCQ (.mem CX 7) (.reg R15),
  MOVQ (.reg R15) (.mem CX 7),
  MOVQ (.mem SP 0) (.reg AX),
  ADCQ (.reg AX) (.reg R8),
  MOVQ (.reg R8) (.mem CX 8),
  MOVQ (.mem SP 1) (.reg AX),
  ADCQ (.reg AX) (.reg R9),
  MOVQ (.reg R9) (.mem CX 9),
  MOVQ (.mem SP 2) (.reg AX),
  ADCQ (.reg AX) (.reg R10),
  MOVQ (.reg R10) (.mem CX 10),
  MOVQ (.mem SP 3) (.reg AX),
  ADCQ (.reg AX) (.reg R11),
  MOVQ (.reg R11) (.mem CX 11),
  MOVQ (.mem SP 4) (.reg R12),
  ADCQ (.imm 0) (.reg R12),
  MOVQ (.reg R12) (.mem CX 12),
  MOVQ (.mem SP 5) (.reg R13),
  ADCQ (.imm 0) (.reg R13),
  MOVQ (.reg R13) (.mem CX 13),
  MOVQ (.mem SP 6) (.reg R14),
  ADCQ (.imm 0) (.reg R14),
  MOVQ (.reg R14) (.mem CX 14),
  MOVQ (.mem SP 7) (.reg R15),
  ADCQ (.imm 0) (.reg R15),
  MOVQ (.reg R15) (.mem CX 15)
  ]

def mul_adx : Routine := { code := mul_adxCode, frame := 13, glob := [] }

/-- p503/arith_amd64.s:1193-1517 `rdcP503` -/
def rdcCode : List Instr := [
  -- p503/arith_amd64.s:1193
  MOVQ (.mem FP 0) (.reg SI),
  -- p503/arith_amd64.s:1194
  MOVQ (.mem FP 1) (.reg DI),
  -- p503/arith_amd64.s:1202
  MOVQ (.mem DI 0) (.reg R11),
  -- p503/arith_amd64.s:1203
  MOVQ (.imm 0xac00000000000000) (.reg AX),
  -- p503/arith_amd64.s:1204
  MULQ (.reg R11),
  -- p503/arith_amd64.s:1205
  XORQ (.reg R8) (.reg R8),
  -- p503/arith_amd64.s:1206
  ADDQ (.mem DI 3) (.reg AX),
  -- p503/arith_amd64.s:1207
  MOVQ (.reg AX) (.mem SI 3),
  -- p503/arith_amd64.s:1208
  ADCQ (.reg DX) (.reg R8),
  -- p503/arith_amd64.s:1210
  XORQ (.reg R9) (.reg R9),
  -- p503/arith_amd64.s:1211
  MOVQ (.imm 0x13085bda2211e7a0) (.reg AX),
  -- p503/arith_amd64.s:1212
  MULQ (.reg R11),
  -- p503/arith_amd64.s:1213
  XORQ (.reg R10) (.reg R10),
  -- p503/arith_amd64.s:1214
  ADDQ (.reg AX) (.reg R8),
  -- p503/arith_amd64.s:1215
  ADCQ (.reg DX) (.reg R9),
  -- p503/arith_amd64.s:1217
  MOVQ (.mem DI 1) (.reg R12),
  -- p503/arith_amd64.s:1218
  MOVQ (.imm 0xac00000000000000) (.reg AX),
  -- p503/arith_amd64.s:1219
  MULQ (.reg R12),
  -- p503/arith_amd64.s:1220
  ADDQ (.reg AX) (.reg R8),
  -- p503/arith_amd64.s:1221
  ADCQ (.reg DX) (.reg R9),
  -- p503/arith_amd64.s:1222
  ADCQ (.imm 0) (.reg R10),
  -- p503/arith_amd64.s:1223
  ADDQ (.mem DI 4) (.reg R8),
  -- p503/arith_amd64.s:1224
  MOVQ (.reg R8) (.mem SI 4),
  -- p503/arith_amd64.s:1225
  ADCQ (.imm 0) (.reg R9),
  -- p503/arith_amd64.s:1226
  ADCQ (.imm 0) (.reg R10),
  -- p503/arith_amd64.s:1228
  XORQ (.reg R8) (.reg R8),
  -- p503/arith_amd64.s:1229
  MOVQ (.imm 0x1b9bf6c87b7e7daf) (.reg AX),
  -- p503/arith_amd64.s:1230
  MULQ (.reg R11),
  -- p503/arith_amd64.s:1231
  ADDQ (.reg AX) (.reg R9),
  -- p503/arith_amd64.s:1232
  ADCQ (.reg DX) (.reg R10),
  -- p503/arith_amd64.s:1233
  ADCQ (.imm 0) (.reg R8),
  -- p503/arith_amd64.s:1235
  MOVQ (.imm 0x13085bda2211e7a0) (.reg AX),
  -- p503/arith_amd64.s:1236
  MULQ (.reg R12),
  -- p503/arith_amd64.s:1237
  ADDQ (.reg AX) (.reg R9),
  -- p503/arith_amd64.s:1238
  ADCQ (.reg DX) (.reg R10),
  -- p503/arith_amd64.s:1239
  ADCQ (.imm 0) (.reg R8),
  -- p503/arith_amd64.s:1241
  MOVQ (.mem DI 2) (.reg R13),
  -- p503/arith_amd64.s:1242
  MOVQ (.imm 0xac00000000000000) (.reg AX),
  -- p503/arith_amd64.s:1243
  MULQ (.reg R13),
  -- p503/arith_amd64.s:1244
  ADDQ (.reg AX) (.reg R9),
  -- p503/arith_amd64.s:1245
  ADCQ (.reg DX) (.reg R10),
  -- p503/arith_amd64.s:1246
  ADCQ (.imm 0) (.reg R8),
  -- p503/arith_amd64.s:1247
  ADDQ (.mem DI 5) (.reg R9),
  -- p503/arith_amd64.s:1248
  MOVQ (.reg R9) (.mem SI 5),
  -- p503/arith_amd64.s:1249
  ADCQ (.imm 0) (.reg R10),
  -- p503/arith_amd64.s:1250
  ADCQ (.imm 0) (.reg R8),
  -- p503/arith_amd64.s:1252
  XORQ (.reg R9) (.reg R9),
  -- p503/arith_amd64.s:1253
  MOVQ (.imm 0x6045c6bdda77a4d0) (.reg AX),
  -- p503/arith_amd64.s:1254
  MULQ (.reg R11),
  -- p503/arith_amd64.s:1255
  ADDQ (.reg AX) (.reg R10),
  -- p503/arith_amd64.s:1256
  ADCQ (.reg DX) (.reg R8),
  -- p503/arith_amd64.s:1257
  ADCQ (.imm 0) (.reg R9),
  -- p503/arith_amd64.s:1259
  MOVQ (.imm 0x1b9bf6c87b7e7daf) (.reg AX),
  -- p503/arith_amd64.s:1260
  MULQ (.reg R12),
  -- p503/arith_amd64.s:1261
  ADDQ (.reg AX) (.reg R10),
  -- p503/arith_amd64.s:1262
  ADCQ (.reg DX) (.reg R8),
  -- p503/arith_amd64.s:1263
  ADCQ (.imm 0) (.reg R9),
  -- p503/arith_amd64.s:1265
  MOVQ (.imm 0x13085bda2211e7a0) (.reg AX),
  -- p503/arith_amd64.s:1266
  MULQ (.reg R13),
  -- p503/arith_amd64.s:1267
  ADDQ (.reg AX) (.reg R10),
  -- p503/arith_amd64.s:1268
  ADCQ (.reg DX) (.reg R8),
  -- p503/arith_amd64.s:1269
  ADCQ (.imm 0) (.reg R9),
  -- p503/arith_amd64.s:1271
  MOVQ (.mem SI 3) (.reg R14),
  -- p503/arith_amd64.s:1272
  MOVQ (.imm 0xac00000000000000) (.reg AX),
  -- p503/arith_amd64.s:1273
  MULQ (.reg R14),
  -- p503/arith_amd64.s:1274
  ADDQ (.reg AX) (.reg R10),
  -- p503/arith_amd64.s:1275
  ADCQ (.reg DX) (.reg R8),
  -- p503/arith_amd64.s:1276
  ADCQ (.imm 0) (.reg R9),
  -- p503/arith_amd64.s:1277
  ADDQ (.mem DI 6) (.reg R10),
  -- p503/arith_amd64.s:1278
  MOVQ (.reg R10) (.mem SI 6),
  -- p503/arith_amd64.s:1279
  ADCQ (.imm 0) (.reg R8),
  -- p503/arith_amd64.s:1280
  ADCQ (.imm 0) (.reg R9),
  -- p503/arith_amd64.s:1282
  XORQ (.reg R10) (.reg R10),
  -- p503/arith_amd64.s:1283
  MOVQ (.imm 0x4066f541811e1e) (.reg AX),
  -- p503/arith_amd64.s:1284
  MULQ (.reg R11),
  -- p503/arith_amd64.s:1285
  ADDQ (.reg AX) (.reg R8),
  -- p503/arith_amd64.s:1286
  ADCQ (.reg DX) (.reg R9),
  -- p503/arith_amd64.s:1287
  ADCQ (.imm 0) (.reg R10),
  -- p503/arith_amd64.s:1289
  MOVQ (.imm 0x6045c6bdda77a4d0) (.reg AX),
  -- p503/arith_amd64.s:1290
  MULQ (.reg R12),
  -- p503/arith_amd64.s:1291
  ADDQ (.reg AX) (.reg R8),
  -- p503/arith_amd64.s:1292
  ADCQ (.reg DX) (.reg R9),
  -- p503/arith_amd64.s:1293
  ADCQ (.imm 0) (.reg R10),
  -- p503/arith_amd64.s:1295
  MOVQ (.imm 0x1b9bf6c87b7e7daf) (.reg AX),
  -- p503/arith_amd64.s:1296
  MULQ (.reg R13),
  -- p503/arith_amd64.s:1297
  ADDQ (.reg AX) (.reg R8),
  -- p503/arith_amd64.s:1298
  ADCQ (.reg DX) (.reg R9),
  -- p503/arith_amd64.s:1299
  ADCQ (.imm 0) (.reg R10),
  -- p503/arith_amd64.s:1301
  MOVQ (.imm 0x13085bda2211e7a0) (.reg AX),
  -- p503/arith_amd64.s:1302
  MULQ (.reg R14),
  -- p503/arith_amd64.s:1303
  ADDQ (.reg AX) (.reg R8),
  -- p503/arith_amd64.s:1304
  ADCQ (.reg DX) (.reg R9),
  -- p503/arith_amd64.s:1305
  ADCQ (.imm 0) (.reg R10),
  -- p503/arith_amd64.s:1307
  MOVQ (.mem SI 4) (.reg R15),
  -- p503/arith_amd64.s:1308
  MOVQ (.imm 0xac00000000000000) (.reg AX),
  -- p503/arith_amd64.s:1309
  MULQ (.reg R15),
  -- p503/arith_amd64.s:1310
  ADDQ (.reg AX) (.reg R8),
  -- p503/arith_amd64.s:1311
  ADCQ (.reg DX) (.reg R9),
  -- p503/arith_amd64.s:1312
  ADCQ (.imm 0) (.reg R10),
  -- p503/arith_amd64.s:1313
  ADDQ (.mem DI 7) (.reg R8),
  -- p503/arith_amd64.s:1314
  MOVQ (.reg R8) (.mem SI 7),
  -- p503/arith_amd64.s:1315
  ADCQ (.imm 0) (.reg R9),
  -- p503/arith_amd64.s:1316
  ADCQ (.imm 0) (.reg R10),
  -- p503/arith_amd64.s:1318
  XORQ (.reg R8) (.reg R8),
  -- p503/arith_amd64.s:1319
  MOVQ (.imm 0x4066f541811e1e) (.reg AX),
  -- p503/arith_amd64.s:1320
  MULQ (.reg R12),
  -- p503/arith_amd64.s:1321
  ADDQ (.reg AX) (.reg R9),
  -- p503/arith_amd64.s:1322
  ADCQ (.reg DX) (.reg R10),
  -- p503/arith_amd64.s:1323
  ADCQ (.imm 0) (.reg R8),
  -- p503/arith_amd64.s:1325
  MOVQ (.imm 0x6045c6bdda77a4d0) (.reg AX),
  -- p503/arith_amd64.s:1326
  MULQ (.reg R13),
  -- p503/arith_amd64.s:1327
  ADDQ (.reg AX) (.reg R9),
  -- p503/arith_amd64.s:1328
  ADCQ (.reg DX) (.reg R10),
  -- p503/arith_amd64.s:1329
  ADCQ (.imm 0) (.reg R8),
  -- p503/arith_amd64.s:1331
  MOVQ (.imm 0x1b9bf6c87b7e7daf) (.reg AX),
  -- p503/arith_amd64.s:1332
  MULQ (.reg R14),
  -- p503/arith_amd64.s:1333
  ADDQ (.reg AX) (.reg R9),
  -- p503/arith_amd64.s:1334
  ADCQ (.reg DX) (.reg R10),
  -- p503/arith_amd64.s:1335
  ADCQ (.imm 0) (.reg R8),
  -- p503/arith_amd64.s:1337
  MOVQ (.imm 0x13085bda2211e7a0) (.reg AX),
  -- p503/arith_amd64.s:1338
  MULQ (.reg R15),
  -- p503/arith_amd64.s:1339
  ADDQ (.reg AX) (.reg R9),
  -- p503/arith_amd64.s:1340
  ADCQ (.reg DX) (.reg R10),
  -- p503/arith_amd64.s:1341
  ADCQ (.imm 0) (.reg R8),
  -- p503/arith_amd64.s:1343
  MOVQ (.mem SI 5) (.reg CX),
  -- p503/arith_amd64.s:1344
  MOVQ (.imm 0xac00000000000000) (.reg AX),
  -- p503/arith_amd64.s:1345
  MULQ (.reg CX),
  -- p503/arith_amd64.s:1346
  ADDQ (.reg AX) (.reg R9),
  -- p503/arith_amd64.s:1347
  ADCQ (.reg DX) (.reg R10),
  -- p503/arith_amd64.s:1348
  ADCQ (.imm 0) (.reg R8),
  -- p503/arith_amd64.s:1349
  ADDQ (.mem DI 8) (.reg R9),
  -- p503/arith_amd64.s:1350
  MOVQ (.reg R9) (.mem SI 0),
  -- p503/arith_amd64.s:1351
  ADCQ (.imm 0) (.reg R10),
  -- p503/arith_amd64.s:1352
  ADCQ (.imm 0) (.reg R8),
  -- p503/arith_amd64.s:1354
  XORQ (.reg R9) (.reg R9),
  -- p503/arith_amd64.s:1355
  MOVQ (.imm 0x4066f541811e1e) (.reg AX),
  -- p503/arith_amd64.s:1356
  MULQ (.reg R13),
  -- p503/arith_amd64.s:1357
  ADDQ (.reg AX) (.reg R10),
  -- p503/arith_amd64.s:1358
  ADCQ (.reg DX) (.reg R8),
  -- p503/arith_amd64.s:1359
  ADCQ (.imm 0) (.reg R9),
  -- p503/arith_amd64.s:1361
  MOVQ (.imm 0x6045c6bdda77a4d0) (.reg AX),
  -- p503/arith_amd64.s:1362
  MULQ (.reg R14),
  -- p503/arith_amd64.s:1363
  ADDQ (.reg AX) (.reg R10),
  -- p503/arith_amd64.s:1364
  ADCQ (.reg DX) (.reg R8),
  -- p503/arith_amd64.s:1365
  ADCQ (.imm 0) (.reg R9),
  -- p503/arith_amd64.s:1367
  MOVQ (.imm 0x1b9bf6c87b7e7daf) (.reg AX),
  -- p503/arith_amd64.s:1368
  MULQ (.reg R15),
  -- p503/arith_amd64.s:1369
  ADDQ (.reg AX) (.reg R10),
  -- p503/arith_amd64.s:1370
  ADCQ (.reg DX) (.reg R8),
  -- p503/arith_amd64.s:1371
  ADCQ (.imm 0) (.reg R9),
  -- p503/arith_amd64.s:1373
  MOVQ (.imm 0x13085bda2211e7a0) (.reg AX),
  -- p503/arith_amd64.s:1374
  MULQ (.reg CX),
  -- p503/arith_amd64.s:1375
  ADDQ (.reg AX) (.reg R10),
  -- p503/arith_amd64.s:1376
  ADCQ (.reg DX) (.reg R8),
  -- p503/arith_amd64.s:1377
  ADCQ (.imm 0) (.reg R9),
  -- p503/arith_amd64.s:1379
  MOVQ (.mem SI 6) (.reg R13),
  -- p503/arith_amd64.s:1380
  MOVQ (.imm 0xac00000000000000) (.reg AX),
  -- p503/arith_amd64.s:1381
  MULQ (.reg R13),
  -- p503/arith_amd64.s:1382
  ADDQ (.reg AX) (.reg R10),
  -- p503/arith_amd64.s:1383
  ADCQ (.reg DX) (.reg R8),
  -- p503/arith_amd64.s:1384
  ADCQ (.imm 0) (.reg R9),
  -- p503/arith_amd64.s:1385
  ADDQ (.mem DI 9) (.reg R10),
  -- p503/arith_amd64.s:1386
  MOVQ (.reg R10) (.mem SI 1),
  -- p503/arith_amd64.s:1387
  ADCQ (.imm 0) (.reg R8),
  -- p503/arith_amd64.s:1388
  ADCQ (.imm 0) (.reg R9),
  -- p503/arith_amd64.s:1390
  XORQ (.reg R10) (.reg R10),
  -- p503/arith_amd64.s:1391
  MOVQ (.imm 0x4066f541811e1e) (.reg AX),
  -- p503/arith_amd64.s:1392
  MULQ (.reg R14),
  -- p503/arith_amd64.s:1393
  ADDQ (.reg AX) (.reg R8),
  -- p503/arith_amd64.s:1394
  ADCQ (.reg DX) (.reg R9),
  -- p503/arith_amd64.s:1395
  ADCQ (.imm 0) (.reg R10),
  -- p503/arith_amd64.s:1397
  MOVQ (.imm 0x6045c6bdda77a4d0) (.reg AX),
  -- p503/arith_amd64.s:1398
  MULQ (.reg R15),
  -- p503/arith_amd64.s:1399
  ADDQ (.reg AX) (.reg R8),
  -- p503/arith_amd64.s:1400
  ADCQ (.reg DX) (.reg R9),
  -- p503/arith_amd64.s:1401
  ADCQ (.imm 0) (.reg R10),
  -- p503/arith_amd64.s:1403
  MOVQ (.imm 0x1b9bf6c87b7e7daf) (.reg AX),
  -- p503/arith_amd64.s:1404
  MULQ (.reg CX),
  -- p503/arith_amd64.s:1405
  ADDQ (.reg AX) (.reg R8),
  -- p503/arith_amd64.s:1406
  ADCQ (.reg DX) (.reg R9),
  -- p503/arith_amd64.s:1407
  ADCQ (.imm 0) (.reg R10),
  -- p503/arith_amd64.s:1409
  MOVQ (.imm 0x13085bda2211e7a0) (.reg AX),
  -- p503/arith_amd64.s:1410
  MULQ (.reg R13),
  -- p503/arith_amd64.s:1411
  ADDQ (.reg AX) (.reg R8),
  -- p503/arith_amd64.s:1412
  ADCQ (.reg DX) (.reg R9),
  -- p503/arith_amd64.s:1413
  ADCQ (.imm 0) (.reg R10),
  -- p503/arith_amd64.s:1415
  MOVQ (.mem SI 7) (.reg R14),
  -- p503/arith_amd64.s:1416
  MOVQ (.imm 0xac00000000000000) (.reg AX),
  -- p503/arith_amd64.s:1417
  MULQ (.reg R14),
  -- p503/arith_amd64.s:1418
  ADDQ (.reg AX) (.reg R8),
  -- p503/arith_amd64.s:1419
  ADCQ (.reg DX) (.reg R9),
  -- p503/arith_amd64.s:1420
  ADCQ (.imm 0) (.reg R10),
  -- p503/arith_amd64.s:1421
  ADDQ (.mem DI 10) (.reg R8),
  -- p503/arith_amd64.s:1422
  MOVQ (.reg R8) (.mem SI 2),
  -- p503/arith_amd64.s:1423
  ADCQ (.imm 0) (.reg R9),
  -- p503/arith_amd64.s:1424
  ADCQ (.imm 0) (.reg R10),
  -- p503/arith_amd64.s:1426
  XORQ (.reg R8) (.reg R8),
  -- p503/arith_amd64.s:1427
  MOVQ (.imm 0x4066f541811e1e) (.reg AX),
  -- p503/arith_amd64.s:1428
  MULQ (.reg R15),
  -- p503/arith_amd64.s:1429
  ADDQ (.reg AX) (.reg R9),
  -- p503/arith_amd64.s:1430
  ADCQ (.reg DX) (.reg R10),
  -- p503/arith_amd64.s:1431
  ADCQ (.imm 0) (.reg R8),
  -- p503/arith_amd64.s:1433
  MOVQ (.imm 0x6045c6bdda77a4d0) (.reg AX),
  -- p503/arith_amd64.s:1434
  MULQ (.reg CX),
  -- p503/arith_amd64.s:1435
  ADDQ (.reg AX) (.reg R9),
  -- p503/arith_amd64.s:1436
  ADCQ (.reg DX) (.reg R10),
  -- p503/arith_amd64.s:1437
  ADCQ (.imm 0) (.reg R8),
  -- p503/arith_amd64.s:1439
  MOVQ (.imm 0x1b9bf6c87b7e7daf) (.reg AX),
  -- p503/arith_amd64.s:1440
  MULQ (.reg R13),
  -- p503/arith_amd64.s:1441
  ADDQ (.reg AX) (.reg R9),
  -- p503/arith_amd64.s:1442
  ADCQ (.reg DX) (.reg R10),
  -- p503/arith_amd64.s:1443
  ADCQ (.imm 0) (.reg R8),
  -- p503/arith_amd64.s:1445
  MOVQ (.imm 0x13085bda2211e7a0) (.reg AX),
  -- p503/arith_amd64.s:1446
  MULQ (.reg R14),
  -- p503/arith_amd64.s:1447
  ADDQ (.reg AX) (.reg R9),
  -- p503/arith_amd64.s:1448
  ADCQ (.reg DX) (.reg R10),
  -- p503/arith_amd64.s:1449
  ADCQ (.imm 0) (.reg R8),
  -- p503/arith_amd64.s:1450
  ADDQ (.mem DI 11) (.reg R9),
  -- p503/arith_amd64.s:1451
  MOVQ (.reg R9) (.mem SI 3),
  -- p503/arith_amd64.s:1452
  ADCQ (.imm 0) (.reg R10),
  -- p503/arith_amd64.s:1453
  ADCQ (.imm 0) (.reg R8),
  -- p503/arith_amd64.s:1455
  XORQ (.reg R9) (.reg R9),
  -- p503/arith_amd64.s:1456
  MOVQ (.imm 0x4066f541811e1e) (.reg AX),
  -- p503/arith_amd64.s:1457
  MULQ (.reg CX),
  -- p503/arith_amd64.s:1458
  ADDQ (.reg AX) (.reg R10),
  -- p503/arith_amd64.s:1459
  ADCQ (.reg DX) (.reg R8),
  -- p503/arith_amd64.s:1460
  ADCQ (.imm 0) (.reg R9),
  -- p503/arith_amd64.s:1462
  MOVQ (.imm 0x6045c6bdda77a4d0) (.reg AX),
  -- p503/arith_amd64.s:1463
  MULQ (.reg R13),
  -- p503/arith_amd64.s:1464
  ADDQ (.reg AX) (.reg R10),
  -- p503/arith_amd64.s:1465
  ADCQ (.reg DX) (.reg R8),
  -- p503/arith_amd64.s:1466
  ADCQ (.imm 0) (.reg R9),
  -- p503/arith_amd64.s:1468
  MOVQ (.imm 0x1b9bf6c87b7e7daf) (.reg AX),
  -- p503/arith_amd64.s:1469
  MULQ (.reg R14),
  -- p503/arith_amd64.s:1470
  ADDQ (.reg AX) (.reg R10),
  -- p503/arith_amd64.s:1471
  ADCQ (.reg DX) (.reg R8),
  -- p503/arith_amd64.s:1472
  ADCQ (.imm 0) (.reg R9),
  -- p503/arith_amd64.s:1473
  ADDQ (.mem DI 12) (.reg R10),
  -- p503/arith_amd64.s:1474
  MOVQ (.reg R10) (.mem SI 4),
  -- p503/arith_amd64.s:1475
  ADCQ (.imm 0) (.reg R8),
  -- p503/arith_amd64.s:1476
  ADCQ (.imm 0) (.reg R9),
  -- p503/arith_amd64.s:1478
  XORQ (.reg R10) (.reg R10),
  -- p503/arith_amd64.s:1479
  MOVQ (.imm 0x4066f541811e1e) (.reg AX),
  -- p503/arith_amd64.s:1480
  MULQ (.reg R13),
  -- p503/arith_amd64.s:1481
  ADDQ (.reg AX) (.reg R8),
  -- p503/arith_amd64.s:1482
  ADCQ (.reg DX) (.reg R9),
  -- p503/arith_amd64.s:1483
  ADCQ (.imm 0) (.reg R10),
  -- p503/arith_amd64.s:1485
  MOVQ (.imm 0x6045c6bdda77a4d0) (.reg AX),
  -- p503/arith_amd64.s:1486
  MULQ (.reg R14),
  -- p503/arith_amd64.s:1487
  ADDQ (.reg AX) (.reg R8),
  -- p503/arith_amd64.s:1488
  ADCQ (.reg DX) (.reg R9),
  -- p503/arith_amd64.s:1489
  ADCQ (.imm 0) (.reg R10),
  -- p503/arith_amd64.s:1490
  ADDQ (.mem DI 13) (.reg R8),
  -- p503/arith_amd64.s:1491
  MOVQ (.reg R8) (.mem SI 5),
  -- p503/arith_amd64.s:1492
  ADCQ (.imm 0) (.reg R9),
  -- p503/arith_amd64.s:1493
  ADCQ (.imm 0) (.reg R10),
  -- p503/arith_amd64.s:1495
  MOVQ (.imm 0x4066f541811e1e) (.reg AX),
  -- p503/arith_amd64.s:1496
  MULQ (.reg R14),
  -- p503/arith_amd64.s:1497
  ADDQ (.reg AX) (.reg R9),
  -- p503/arith_amd64.s:1498
  ADCQ (.reg DX) (.reg R10),
  -- p503/arith_amd64.s:1499
  ADDQ (.mem DI 14) (.reg R9),
  -- p503/arith_amd64.s:1500
  MOVQ (.reg R9) (.mem SI 6),
  -- p503/arith_amd64.s:1501
  ADCQ (.imm 0) (.reg R10),
  -- p503/arith_amd64.s:1502
  ADDQ (.mem DI 15) (.reg R10),
  -- p503/arith_amd64.s:1503
  MOVQ (.reg R10) (.mem SI 7)
  ]

def rdc : Routine := { code := rdcCode, frame := 0, glob := [] }

/-- p503/arith_amd64.s:1193-1517 `rdcP503`, with BMI2 -/
def rdc_bmi2Code : List Instr := [
  -- p503/arith_amd64.s:1193
  MOVQ (.mem FP 0) (.reg SI),
  -- p503/arith_amd64.s:1194
  MOVQ (.mem FP 1) (.reg DI),
  -- p503/arith_amd64.s:1516
  MOVQ (.mem DI 0) (.reg DX),
  MULXQ (.glob 2 3) (.reg R8) (.reg R9),
  MULXQ (.glob 2 4) (.reg R12) (.reg R10),
  XORQ (.reg AX) (.reg AX),
  MULXQ (.glob 2 5) (.reg R13) (.reg R11),
  ADDQ (.reg R12) (.reg R9),
  ADCQ (.reg R13) (.reg R10),
  MULXQ (.glob 2 6) (.reg BX) (.reg R12),
  ADCQ (.reg BX) (.reg R11),
  MULXQ (.glob 2 7) (.reg R14) (.reg R13),
  ADCQ (.reg R14) (.reg R12),
  ADCQ (.reg AX) (.reg R13),
  MOVQ (.mem DI 1) (.reg DX),
  MULXQ (.glob 2 3) (.reg R14) (.reg BX),
  ADDQ (.reg R14) (.reg R9),
  ADCQ (.reg BX) (.reg R10),
  MULXQ (.glob 2 4) (.reg CX) (.reg R14),
  ADCQ (.reg R14) (.reg R11),
  MULXQ (.glob 2 5) (.reg BX) (.reg R15),
  ADCQ (.reg R15) (.reg R12),
  MULXQ (.glob 2 6) (.reg R15) (.reg R14),
  ADCQ (.reg R14) (.reg R13),
  MULXQ (.glob 2 7) (.reg DX) (.reg R14),
  ADCQ (.reg AX) (.reg R14),
  XORQ (.reg AX) (.reg AX),
  ADDQ (.reg CX) (.reg R10),
  ADCQ (.reg BX) (.reg R11),
  ADCQ (.reg R15) (.reg R12),
  ADCQ (.reg DX) (.reg R13),
  ADCQ (.reg AX) (.reg R14),
  XORQ (.reg R15) (.reg R15),
  ADDQ (.mem DI 3) (.reg R8),
  ADCQ (.mem DI 4) (.reg R9),
  ADCQ (.mem DI 5) (.reg R10),
  ADCQ (.mem DI 6) (.reg R11),
  ADCQ (.mem DI 7) (.reg R12),
  ADCQ (.mem DI 8) (.reg R13),
  ADCQ (.mem DI 9) (.reg R14),
  ADCQ (.mem DI 10) (.reg R15),
  MOVQ (.reg R8) (.mem DI 3),
  MOVQ (.reg R9) (.mem DI 4),
  MOVQ (.reg R10) (.mem DI 5),
  MOVQ (.reg R11) (.mem DI 6),
  MOVQ (.reg R12) (.mem DI 7),
  MOVQ (.reg R13) (.mem DI 8),
  MOVQ (.reg R14) (.mem DI 9),
  MOVQ (.reg R15) (.mem DI 10),
  MOVQ (.mem DI 11) (.reg R8),
  MOVQ (.mem DI 12) (.reg R9),
  MOVQ (.mem DI 13) (.reg R10),
  MOVQ (.mem DI 14) (.reg R11),
  MOVQ (.mem DI 15) (.reg R12),
  ADCQ (.imm 0) (.reg R8),
  ADCQ (.imm 0) (.reg R9),
  ADCQ (.imm 0) (.reg R10),
  ADCQ (.imm 0) (.reg R11),
  ADCQ (.imm 0) (.reg R12),
  MOVQ (.reg R8) (.mem DI 11),
  MOVQ (.reg R9) (.mem DI 12),
  MOVQ (.reg R10) (.mem DI 13),
  MOVQ (.reg R11) (.mem DI 14),
  MOVQ (.reg R12) (.mem DI 15),
  MOVQ (.mem DI 2) (.reg DX),
  MULXQ (.glob 2 3) (.reg R8) (.reg R9),
  MULXQ (.glob 2 4) (.reg R12) (.reg R10),
  XORQ (.reg AX) (.reg AX),
  MULXQ (.glob 2 5) (.reg R13) (.reg R11),
  ADDQ (.reg R12) (.reg R9),
  ADCQ (.reg R13) (.reg R10),
  MULXQ (.glob 2 6) (.reg BX) (.reg R12),
  ADCQ (.reg BX) (.reg R11),
  MULXQ (.glob 2 7) (.reg R14) (.reg R13),
  ADCQ (.reg R14) (.reg R12),
  ADCQ (.reg AX) (.reg R13),
  MOVQ (.mem DI 3) (.reg DX),
  MULXQ (.glob 2 3) (.reg R14) (.reg BX),
  ADDQ (.reg R14) (.reg R9),
  ADCQ (.reg BX) (.reg R10),
  MULXQ (.glob 2 4) (.reg CX) (.reg R14),
  ADCQ (.reg R14) (.reg R11),
  MULXQ (.glob 2 5) (.reg BX) (.reg R15),
  ADCQ (.reg R15) (.reg R12),
  MULXQ (.glob 2 6) (.reg R15) (.reg R14),
  ADCQ (.reg R14) (.reg R13),
  MULXQ (.glob 2 7) (.reg DX) (.reg R14),
  ADCQ (.reg AX) (.reg R14),
  XORQ (.reg AX) (.reg AX),
  ADDQ (.reg CX) (.reg R10),
  ADCQ (.reg BX) (.reg R11),
  ADCQ (.reg R15) (.reg R12),
  ADCQ (.reg DX) (.reg R13),
  ADCQ (.reg AX) (.reg R14),
  XORQ (.reg R15) (.reg R15),
  ADDQ (.mem DI 5) (.reg R8),
  ADCQ (.mem DI 6) (.reg R9),
  ADCQ (.mem DI 7) (.reg R10),
  ADCQ (.mem DI 8) (.reg R11),
  ADCQ (.mem DI 9) (.reg R12),
  ADCQ (.mem DI 10) (.reg R13),
  ADCQ (.mem DI 11) (.reg R14),
  ADCQ (.mem DI 12) (.reg R15),
  MOVQ (.reg R8) (.mem DI 5),
  MOVQ (.reg R9) (.mem DI 6),
  MOVQ (.reg R10) (.mem DI 7),
  MOVQ (.reg R11) (.mem DI 8),
  MOVQ (.reg R12) (.mem DI 9),
  MOVQ (.reg R13) (.mem DI 10),
  MOVQ (.reg R14) (.mem DI 11),
  MOVQ (.reg R15) (.mem DI 12),
  MOVQ (.mem DI 13) (.reg R8),
  MOVQ (.mem DI 14) (.reg R9),
  MOVQ (.mem DI 15) (.reg R10),
  ADCQ (.imm 0) (.reg R8),
  ADCQ (.imm 0) (.reg R9),
  ADCQ (.imm 0) (.reg R10),
  MOVQ (.reg R8) (.mem DI 13),
  MOVQ (.reg R9) (.mem DI 14),
  MOVQ (.reg R10) (.mem DI 15),
  MOVQ (.mem DI 4) (.reg DX),
  MULXQ (.glob 2 3) (.reg R8) (.reg R9),
  MULXQ (.glob 2 4) (.reg R12) (.reg R10),
  XORQ (.reg AX) (.reg AX),
  MULXQ (.glob 2 5) (.reg R13) (.reg R11),
  ADDQ (.reg R12) (.reg R9),
  ADCQ (.reg R13) (.reg R10),
  MULXQ (.glob 2 6) (.reg BX) (.reg R12),
  ADCQ (.reg BX) (.reg R11),
  MULXQ (.glob 2 7) (.reg R14) (.reg R13),
  ADCQ (.reg R14) (.reg R12),
  ADCQ (.reg AX) (.reg R13),
  MOVQ (.mem DI 5) (.reg DX),
  MULXQ (.glob 2 3) (.reg R14) (.reg BX),
  ADDQ (.reg R14) (.reg R9),
  ADCQ (.reg BX) (.reg R10),
  MULXQ (.glob 2 4) (.reg CX) (.reg R14),
  ADCQ (.reg R14) (.reg R11),
  MULXQ (.glob 2 5) (.reg BX) (.reg R15),
  ADCQ (.reg R15) (.reg R12),
  MULXQ (.glob 2 6) (.reg R15) (.reg R14),
  ADCQ (.reg R14) (.reg R13),
  MULXQ (.glob 2 7) (.reg DX) (.reg R14),
  ADCQ (.reg AX) (.reg R14),
  XORQ (.reg AX) (.reg AX),
  ADDQ (.reg CX) (.reg R10),
  ADCQ (.reg BX) (.reg R11),
  ADCQ (.reg R15) (.reg R12),
  ADCQ (.reg DX) (.reg R13),
  ADCQ (.reg AX) (.reg R14),
  XORQ (.reg R15) (.reg R15),
  XORQ (.reg BX) (.reg BX),
  ADDQ (.mem DI 7) (.reg R8),
  ADCQ (.mem DI 8) (.reg R9),
  ADCQ (.mem DI 9) (.reg R10),
  ADCQ (.mem DI 10) (.reg R11),
  ADCQ (.mem DI 11) (.reg R12),
  ADCQ (.mem DI 12) (.reg R13),
  ADCQ (.mem DI 13) (.reg R14),
  ADCQ (.mem DI 14) (.reg R15),
  ADCQ (.mem DI 15) (.reg BX),
  MOVQ (.reg R8) (.mem DI 7),
  MOVQ (.reg R10) (.mem DI 9),
  MOVQ (.reg R11) (.mem DI 10),
  MOVQ (.reg R12) (.mem DI 11),
  MOVQ (.reg R13) (.mem DI 12),
  MOVQ (.reg R14) (.mem DI 13),
  MOVQ (.reg R15) (.mem DI 14),
  MOVQ (.reg BX) (.mem DI 15),
  MOVQ (.reg R9) (.mem SI 0),
  MOVQ (.mem DI 6) (.reg DX),
  MULXQ (.glob 2 3) (.reg R8) (.reg R9),
  MULXQ (.glob 2 4) (.reg R12) (.reg R10),
  XORQ (.reg AX) (.reg AX),
  MULXQ (.glob 2 5) (.reg R13) (.reg R11),
  ADDQ (.reg R12) (.reg R9),
  ADCQ (.reg R13) (.reg R10),
  MULXQ (.glob 2 6) (.reg BX) (.reg R12),
  ADCQ (.reg BX) (.reg R11),
  MULXQ (.glob 2 7) (.reg R14) (.reg R13),
  ADCQ (.reg R14) (.reg R12),
  ADCQ (.reg AX) (.reg R13),
  MOVQ (.mem DI 7) (.reg DX),
  MULXQ (.glob 2 3) (.reg R14) (.reg BX),
  ADDQ (.reg R14) (.reg R9),
  ADCQ (.reg BX) (.reg R10),
  MULXQ (.glob 2 4) (.reg CX) (.reg R14),
  ADCQ (.reg R14) (.reg R11),
  MULXQ (.glob 2 5) (.reg BX) (.reg R15),
  ADCQ (.reg R15) (.reg R12),
  MULXQ (.glob 2 6) (.reg R15) (.reg R14),
  ADCQ (.reg R14) (.reg R13),
  MULXQ (.glob 2 7) (.reg DX) (.reg R14),
  ADCQ (.reg AX) (.reg R14),
  XORQ (.reg AX) (.reg AX),
  ADDQ (.reg CX) (.reg R10),
  ADCQ (.reg BX) (.reg R11),
  ADCQ (.reg R15) (.reg R12),
  ADCQ (.reg DX) (.reg R13),
  ADCQ (.reg AX) (.reg R14),
  ADDQ (.mem DI 9) (.reg R8),
  ADCQ (.mem DI 10) (.reg R9),
  ADCQ (.mem DI 11) (.reg R10),
  ADCQ (.mem DI 12) (.reg R11),
  ADCQ (.mem DI 13) (.reg R12),
  ADCQ (.mem DI 14) (.reg R13),
  ADCQ (.mem DI 15) (.reg R14),
  MOVQ (.reg R8) (.mem SI 1),
  MOVQ (.reg R9) (.mem SI 2),
  MOVQ (.reg R10) (.mem SI 3),
  MOVQ (.reg R11) (.mem SI 4),
  MOVQ (.reg R12) (.mem SI 5),
  MOVQ (.reg R13) (.mem SI 6),
  MOVQ (.reg R14) (.mem SI 7)
  ]

def rdc_bmi2 : Routine := { code := rdc_bmi2Code, frame := 0, glob := [p1] }

/-- p503/arith_amd64.s:1193-1517 `rdcP503`, with BMI2 and ADX -/
def rdc_adxCode : List Instr := [
  -- p503/arith_amd64.s:1193
  MOVQ (.mem FP 0) (.reg SI),
  -- p503/arith_amd64.s:1194
  MOVQ (.mem FP 1) (.reg DI),
  -- p503/arith_amd64.s:1510
  MOVQ (.mem DI 0) (.reg DX),
  MULXQ (.glob 2 3) (.reg R8) (.reg R9),
  MULXQ (.glob 2 4) (.reg R12) (.reg R10),
  XORQ (.reg AX) (.reg AX),
  MULXQ (.glob 2 5) (.reg R13) (.reg R11),
  ADOXQ (.reg R12) (.reg R9),
  ADOXQ (.reg R13) (.reg R10),
  MULXQ (.glob 2 6) (.reg BX) (.reg R12),
  ADOXQ (.reg BX) (.reg R11),
  MULXQ (.glob 2 7) (.reg R14) (.reg R13),
  ADOXQ (.reg R14) (.reg R12),
  ADOXQ (.reg AX) (.reg R13),
  MOVQ (.mem DI 1) (.reg DX),
  MULXQ (.glob 2 3) (.reg R14) (.reg BX),
  ADCXQ (.reg R14) (.reg R9),
  ADCXQ (.reg BX) (.reg R10),
  MULXQ (.glob 2 4) (.reg CX) (.reg R14),
  ADCXQ (.reg R14) (.reg R11),
  MULXQ (.glob 2 5) (.reg BX) (.reg R15),
  ADCXQ (.reg R15) (.reg R12),
  MULXQ (.glob 2 6) (.reg R15) (.reg R14),
  ADCXQ (.reg R14) (.reg R13),
  MULXQ (.glob 2 7) (.reg DX) (.reg R14),
  ADCXQ (.reg AX) (.reg R14),
  XORQ (.reg AX) (.reg AX),
  ADOXQ (.reg CX) (.reg R10),
  ADOXQ (.reg BX) (.reg R11),
  ADOXQ (.reg R15) (.reg R12),
  ADOXQ (.reg DX) (.reg R13),
  ADOXQ (.reg AX) (.reg R14),
  XORQ (.reg R15) (.reg R15),
  ADDQ (.mem DI 3) (.reg R8),
  ADCQ (.mem DI 4) (.reg R9),
  ADCQ (.mem DI 5) (.reg R10),
  ADCQ (.mem DI 6) (.reg R11),
  ADCQ (.mem DI 7) (.reg R12),
  ADCQ (.mem DI 8) (.reg R13),
  ADCQ (.mem DI 9) (.reg R14),
  ADCQ (.mem DI 10) (.reg R15),
  MOVQ (.reg R8) (.mem DI 3),
  MOVQ (.reg R9) (.mem DI 4),
  MOVQ (.reg R10) (.mem DI 5),
  MOVQ (.reg R11) (.mem DI 6),
  MOVQ (.reg R12) (.mem DI 7),
  MOVQ (.reg R13) (.mem DI 8),
  MOVQ (.reg R14) (.mem DI 9),
  MOVQ (.reg R15) (.mem DI 10),
  MOVQ (.mem DI 11) (.reg R8),
  MOVQ (.mem DI 12) (.reg R9),
  MOVQ (.mem DI 13) (.reg R10),
  MOVQ (.mem DI 14) (.reg R11),
  MOVQ (.mem DI 15) (.reg R12),
  ADCQ (.imm 0) (.reg R8),
  ADCQ (.imm 0) (.reg R9),
  ADCQ (.imm 0) (.reg R10),
  ADCQ (.imm 0) (.reg R11),
  ADCQ (.imm 0) (.reg R12),
  MOVQ (.reg R8) (.mem DI 11),
  MOVQ (.reg R9) (.mem DI 12),
  MOVQ (.reg R10) (.mem DI 13),
  MOVQ (.reg R11) (.mem DI 14),
  MOVQ (.reg R12) (.mem DI 15),
  MOVQ (.mem DI 2) (.reg DX),
  MULXQ (.glob 2 3) (.reg R8) (.reg R9),
  MULXQ (.glob 2 4) (.reg R12) (.reg R10),
  XORQ (.reg AX) (.reg AX),
  MULXQ (.glob 2 5) (.reg R13) (.reg R11),
  ADOXQ (.reg R12) (.reg R9),
  ADOXQ (.reg R13) (.reg R10),
  MULXQ (.glob 2 6) (.reg BX) (.reg R12),
  ADOXQ (.reg BX) (.reg R11),
  MULXQ (.glob 2 7) (.reg R14) (.reg R13),
  ADOXQ (.reg R14) (.reg R12),
  ADOXQ (.reg AX) (.reg R13),
  MOVQ (.mem DI 3) (.reg DX),
  MULXQ (.glob 2 3) (.reg R14) (.reg BX),
  ADCXQ (.reg R14) (.reg R9),
  ADCXQ (.reg BX) (.reg R10),
  MULXQ (.glob 2 4) (.reg CX) (.reg R14),
  ADCXQ (.reg R14) (.reg R11),
  MULXQ (.glob 2 5) (.reg BX) (.reg R15),
  ADCXQ (.reg R15) (.reg R12),
  MULXQ (.glob 2 6) (.reg R15) (.reg R14),
  ADCXQ (.reg R14) (.reg R13),
  MULXQ (.glob 2 7) (.reg DX) (.reg R14),
  ADCXQ (.reg AX) (.reg R14),
  XORQ (.reg AX) (.reg AX),
  ADOXQ (.reg CX) (.reg R10),
  ADOXQ (.reg BX) (.reg R11),
  ADOXQ (.reg R15) (.reg R12),
  ADOXQ (.reg DX) (.reg R13),
  ADOXQ (.reg AX) (.reg R14),
  XORQ (.reg R15) (.reg R15),
  ADDQ (.mem DI 5) (.reg R8),
  ADCQ (.mem DI 6) (.reg R9),
  ADCQ (.mem DI 7) (.reg R10),
  ADCQ (.mem DI 8) (.reg R11),
  ADCQ (.mem DI 9) (.reg R12),
  ADCQ (.mem DI 10) (.reg R13),
  ADCQ (.mem DI 11) (.reg R14),
  ADCQ (.mem DI 12) (.reg R15),
  MOVQ (.reg R8) (.mem DI 5),
  MOVQ (.reg R9) (.mem DI 6),
  MOVQ (.reg R10) (.mem DI 7),
  MOVQ (.reg R11) (.mem DI 8),
  MOVQ (.reg R12) (.mem DI 9),
  MOVQ (.reg R13) (.mem DI 10),
  MOVQ (.reg R14) (.mem DI 11),
  MOVQ (.reg R15) (.mem DI 12),
  MOVQ (.mem DI 13) (.reg R8),
  MOVQ (.mem DI 14) (.reg R9),
  MOVQ (.mem DI 15) (.reg R10),
  ADCQ (.imm 0) (.reg R8),
  ADCQ (.imm 0) (.reg R9),
  ADCQ (.imm 0) (.reg R10),
  MOVQ (.reg R8) (.mem DI 13),
  MOVQ (.reg R9) (.mem DI 14),
  MOVQ (.reg R10) (.mem DI 15),
  MOVQ (.mem DI 4) (.reg DX),
  MULXQ (.glob 2 3) (.reg R8) (.reg R9),
  MULXQ (.glob 2 4) (.reg R12) (.reg R10),
  XORQ (.reg AX) (.reg AX),
  MULXQ (.glob 2 5) (.reg R13) (.reg R11),
  ADOXQ (.reg R12) (.reg R9),
  ADOXQ (.reg R13) (.reg R10),
  MULXQ (.glob 2 6) (.reg BX) (.reg R12),
  ADOXQ (.reg BX) (.reg R11),
  MULXQ (.glob 2 7) (.reg R14) (.reg R13),
  ADOXQ (.reg R14) (.reg R12),
  ADOXQ (.reg AX) (.reg R13),
  MOVQ (.mem DI 5) (.reg DX),
  MULXQ (.glob 2 3) (.reg R14) (.reg BX),
  ADCXQ (.reg R14) (.reg R9),
  ADCXQ (.reg BX) (.reg R10),
  MULXQ (.glob 2 4) (.reg CX) (.reg R14),
  ADCXQ (.reg R14) (.reg R11),
  MULXQ (.glob 2 5) (.reg BX) (.reg R15),
  ADCXQ (.reg R15) (.reg R12),
  MULXQ (.glob 2 6) (.reg R15) (.reg R14),
  ADCXQ (.reg R14) (.reg R13),
  MULXQ (.glob 2 7) (.reg DX) (.reg R14),
  ADCXQ (.reg AX) (.reg R14),
  XORQ (.reg AX) (.reg AX),
  ADOXQ (.reg CX) (.reg R10),
  ADOXQ (.reg BX) (.reg R11),
  ADOXQ (.reg R15) (.reg R12),
  ADOXQ (.reg DX) (.reg R13),
  ADOXQ (.reg AX) (.reg R14),
  XORQ (.reg R15) (.reg R15),
  XORQ (.reg BX) (.reg BX),
  ADDQ (.mem DI 7) (.reg R8),
  ADCQ (.mem DI 8) (.reg R9),
  ADCQ (.mem DI 9) (.reg R10),
  ADCQ (.mem DI 10) (.reg R11),
  ADCQ (.mem DI 11) (.reg R12),
  ADCQ (.mem DI 12) (.reg R13),
  ADCQ (.mem DI 13) (.reg R14),
  ADCQ (.mem DI 14) (.reg R15),
  ADCQ (.mem DI 15) (.reg BX),
  MOVQ (.reg R8) (.mem DI 7),
  MOVQ (.reg R10) (.mem DI 9),
  MOVQ (.reg R11) (.mem DI 10),
  MOVQ (.reg R12) (.mem DI 11),
  MOVQ (.reg R13) (.mem DI 12),
  MOVQ (.reg R14) (.mem DI 13),
  MOVQ (.reg R15) (.mem DI 14),
  MOVQ (.reg BX) (.mem DI 15),
  MOVQ (.reg R9) (.mem SI 0),
  MOVQ (.mem DI 6) (.reg DX),
  MULXQ (.glob 2 3) (.reg R8) (.reg R9),
  MULXQ (.glob 2 4) (.reg R12) (.reg R10),
  XORQ (.reg AX) (.reg AX),
  MULXQ (.glob 2 5) (.reg R13) (.reg R11),
  ADOXQ (.reg R12) (.reg R9),
  ADOXQ (.reg R13) (.reg R10),
  MULXQ (.glob 2 6) (.reg BX) (.reg R12),
  ADOXQ (.reg BX) (.reg R11),
  MULXQ (.glob 2 7) (.reg R14) (.reg R13),
  ADOXQ (.reg R14) (.reg R12),
  ADOXQ (.reg AX) (.reg R13),
  MOVQ (.mem DI 7) (.reg DX),
  MULXQ (.glob 2 3) (.reg R14) (.reg BX),
  ADCXQ (.reg R14) (.reg R9),
  ADCXQ (.reg BX) (.reg R10),
  MULXQ (.glob 2 4) (.reg CX) (.reg R14),
  ADCXQ (.reg R14) (.reg R11),
  MULXQ (.glob 2 5) (.reg BX) (.reg R15),
  ADCXQ (.reg R15) (.reg R12),
  MULXQ (.glob 2 6) (.reg R15) (.reg R14),
  ADCXQ (.reg R14) (.reg R13),
  MULXQ (.glob 2 7) (.reg DX) (.reg R14),
  ADCXQ (.reg AX) (.reg R14),
  XORQ (.reg AX) (.reg AX),
  ADOXQ (.reg CX) (.reg R10),
  ADOXQ (.reg BX) (.reg R11),
  ADOXQ (.reg R15) (.reg R12),
  ADOXQ (.reg DX) (.reg R13),
  ADOXQ (.reg AX) (.reg R14),
  ADDQ (.mem DI 9) (.reg R8),
  ADCQ (.mem DI 10) (.reg R9),
  ADCQ (.mem DI 11) (.reg R10),
  ADCQ (.mem DI 12) (.reg R11),
  ADCQ (.mem DI 13) (.reg R12),
  ADCQ (.mem DI 14) (.reg R13),
  ADCQ (.mem DI 15) (.reg R14),
  MOVQ (.reg R8) (.mem SI 1),
  MOVQ (.reg R9) (.mem SI 2),
  MOVQ (.reg R10) (.mem SI 3),
  MOVQ (.reg R11) (.mem SI 4),
  MOVQ (.reg R12) (.mem SI 5),
  MOVQ (.reg R13) (.mem SI 6),
  MOVQ (.reg R14) (.mem SI 7)
  ]

def rdc_adx : Routine := { code := rdc_adxCode, frame := 0, glob := [p1] }

/-- The code of `addP503` that runs on each kind of CPU. -/
def addOn : Cpu → Routine
  | .base => add
  | .bmi2 => add
  | .adx => add

/-- The code of `subP503` that runs on each kind of CPU. -/
def subOn : Cpu → Routine
  | .base => sub
  | .bmi2 => sub
  | .adx => sub

/-- The code of `adlP503` that runs on each kind of CPU. -/
def adlOn : Cpu → Routine
  | .base => adl
  | .bmi2 => adl
  | .adx => adl

/-- The code of `sulP503` that runs on each kind of CPU. -/
def sulOn : Cpu → Routine
  | .base => sul
  | .bmi2 => sul
  | .adx => sul

/-- The code of `modP503` that runs on each kind of CPU. -/
def modOn : Cpu → Routine
  | .base => mod
  | .bmi2 => mod
  | .adx => mod

/-- The code of `mulP503` that runs on each kind of CPU. -/
def mulOn : Cpu → Routine
  | .base => mul
  | .bmi2 => mul_bmi2
  | .adx => mul_adx

/-- The code of `rdcP503` that runs on each kind of CPU. -/
def rdcOn : Cpu → Routine
  | .base => rdc
  | .bmi2 => rdc_bmi2
  | .adx => rdc_adx

end Model.Asm503
