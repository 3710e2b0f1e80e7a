import Verif.Lemmas.AsmFamCsidh
import Verif.Model.AsmCsidh
/- Certificates for the multiplications of dh/csidh/fp511_amd64.s, printed by gen/asmgen_csidh.py. -/
set_option maxRecDepth 100000
namespace Lemmas.AsmCertCsidh
open Model.Asm Lemmas.AsmSym Lemmas.AsmPoly Lemmas.AsmSound Lemmas.AsmCall Lemmas.AsmFam Lemmas.AsmFamCsidh

def C.mul512 : Cert where
  S := ⟨[], [8, 8], [.arr 0, .arr 1, .num 0], 1⟩
  anns := [a0, a0, a0, a0, a0, a0, a0, a0, a0, a0, a1, a0, a0, a0, a0, a0, a1, a0, a0, a0, a0, a0, a1, a0, a0, a0, a0, a0, a1, a0, a0, a0, a0, a0, a1, a0, a0, a0, a0, a0, a1, a0, a0, a0, a0, a0, a0]
  hints := []
  zb := 0
  scratch := []
  keepBP := true

theorem mul512_ok : mul1Chk Model.AsmCsidh.mul512 C.mul512 8 1 [] = true := by decide +kernel

def C.mul512_zx : Cert where
  S := ⟨[], [8], [.arr 0, .arr 0, .num 0], 1⟩
  anns := [a0, a0, a0, a0, a0, a0, a0, a0, a0, a0, a1, a0, a0, a0, a0, a0, a1, a0, a0, a0, a0, a0, a1, a0, a0, a0, a0, a0, a1, a0, a0, a0, a0, a0, a1, a0, a0, a0, a0, a0, a1, a0, a0, a0, a0, a0, a0]
  hints := []
  zb := 0
  scratch := []
  keepBP := true

theorem mul512_zx_ok : mul1Chk Model.AsmCsidh.mul512 C.mul512_zx 8 0 [] = true := by decide +kernel

def C.mul512_bmi2 : Cert where
  S := ⟨[], [8, 8], [.arr 0, .arr 1, .num 0], 1⟩
  anns := [a0, a0, a0, a0, a0, a0, a0, a0, a0, a0, a0, a0, a0, a0, a0, a0, a0, a0, a0, a0, a0, a0, a0, a0, a0, a0]
  hints := []
  zb := 0
  scratch := []
  keepBP := true

theorem mul512_bmi2_ok : mul1Chk Model.AsmCsidh.mul512_bmi2 C.mul512_bmi2 8 1 [] = true := by decide +kernel

def C.mul512_bmi2_zx : Cert where
  S := ⟨[], [8], [.arr 0, .arr 0, .num 0], 1⟩
  anns := [a0, a0, a0, a0, a0, a0, a0, a0, a0, a0, a0, a0, a0, a0, a0, a0, a0, a0, a0, a0, a0, a0, a0, a0, a0, a0]
  hints := []
  zb := 0
  scratch := []
  keepBP := true

theorem mul512_bmi2_zx_ok : mul1Chk Model.AsmCsidh.mul512_bmi2 C.mul512_bmi2_zx 8 0 [] = true := by decide +kernel

def C.mul576 : Cert where
  S := ⟨[], [9, 8], [.arr 0, .arr 1, .num 0], 1⟩
  anns := [a0, a0, a0, a0, a0, a0, a0, a0, a0, a0, a1, a0, a0, a0, a0, a0, a1, a0, a0, a0, a0, a0, a1, a0, a0, a0, a0, a0, a1, a0, a0, a0, a0, a0, a1, a0, a0, a0, a0, a0, a1, a0, a0, a0, a0, a0, a1, a0, a0]
  hints := []
  zb := 0
  scratch := []
  keepBP := true

theorem mul576_ok : mul1Chk Model.AsmCsidh.mul576 C.mul576 9 1 [] = true := by decide +kernel

def C.mulBmi : Cert where
  S := ⟨[], [8, 8, 8], [.arr 0, .arr 1, .arr 2], 0⟩
  anns := [a0, a0, a0, a0, a0, a0, a0, a0, a0, a0, a0, a0, a0, a0, a2, a2, a0, a0, a0, a0, a1, a0, a0, a1, a0, a0, a1, a0, a0, a1, a0, a0, a1, a0, a0, a1, a0, a0, a1, a0, a0, a1, a1, a0, a0, a0, { a0 with z := some [(1, (dd [0, 1, 14675736798966046206902122501113905151])), (0, (dd [0, 1, 1982068743014369403]))] }, a0, a0, a2, a0, a0, a2, a0, a0, a2, a0, a0, a2, a0, a0, a2, a0, a0, a2, a0, a0, a2, a0, a0, a2, a0, a0, a2, a2, a0, a0, a0, a0, a0, a0, a0, a0, a0, a0, a0, a0, a0, a0, a0, a0, a0, a0, a0, a0, a0, a0, a0, a0, a0, a1, a0, a0, a0, a0, { a0 with z := some [(1, (dd [0, 1, 14675736798966046206902122501113905151])), (0, (dd [0, 1, 1982068743014369403]))] }, a0, a0, a2, a0, a0, a2, a0, a0, a2, a0, a0, a2, a0, a0, a2, a0, a0, a2, a0, a0, a2, a0, a0, a2, a0, a0, a2, a2, a0, a0, a0, a0, a0, a0, a0, a0, a0, a0, a0, a0, a0, a0, a0, a0, a0, a0, a0, a0, a0, a0, a0, a0, a0, a1, a0, a0, a0, a0, { a0 with z := some [(1, (dd [0, 1, 14675736798966046206902122501113905151])), (0, (dd [0, 1, 1982068743014369403]))] }, a0, a0, a2, a0, a0, a2, a0, a0, a2, a0, a0, a2, a0, a0, a2, a0, a0, a2, a0, a0, a2, a0, a0, a2, a0, a0, a2, a2, a0, a0, a0, a0, a0, a0, a0, a0, a0, a0, a0, a0, a0, a0, a0, a0, a0, a0, a0, a0, a0, a0, a0, a0, a0, a1, a0, a0, a0, a0, { a0 with z := some [(1, (dd [0, 1, 14675736798966046206902122501113905151])), (0, (dd [0, 1, 1982068743014369403]))] }, a0, a0, a2, a0, a0, a2, a0, a0, a2, a0, a0, a2, a0, a0, a2, a0, a0, a2, a0, a0, a2, a0, a0, a2, a0, a0, a2, a2, a0, a0, a0, a0, a0, a0, a0, a0, a0, a0, a0, a0, a0, a0, a0, a0, a0, a0, a0, a0, a0, a0, a0, a0, a0, a1, a0, a0, a0, a0, { a0 with z := some [(1, (dd [0, 1, 14675736798966046206902122501113905151])), (0, (dd [0, 1, 1982068743014369403]))] }, a0, a0, a2, a0, a0, a2, a0, a0, a2, a0, a0, a2, a0, a0, a2, a0, a0, a2, a0, a0, a2, a0, a0, a2, a0, a0, a2, a2, a0, a0, a0, a0, a0, a0, a0, a0, a0, a0, a0, a0, a0, a0, a0, a0, a0, a0, a0, a0, a0, a0, a0, a0, a0, a1, a0, a0, a0, a0, { a0 with z := some [(1, (dd [0, 1, 14675736798966046206902122501113905151])), (0, (dd [0, 1, 1982068743014369403]))] }, a0, a0, a2, a0, a0, a2, a0, a0, a2, a0, a0, a2, a0, a0, a2, a0, a0, a2, a0, a0, a2, a0, a0, a2, a0, a0, a2, a2, a0, a0, a0, a0, a0, a0, a0, a0, a0, a0, a0, a0, a0, a0, a0, a0, a0, a0, a0, a0, a0, a0, a0, a0, a0, a1, a0, a0, a0, a0, { a0 with z := some [(1, (dd [0, 1, 14675736798966046206902122501113905151])), (0, (dd [0, 1, 1982068743014369403]))] }, a0, a0, a2, a0, a0, a2, a0, a0, a2, a0, a0, a2, a0, a0, a2, a0, a0, a2, a0, a0, a2, a0, a0, a2, a0, a0, a2, a2, a0, a0, a0, a0, a0, a0, a0, a0, a0, a0, a0, a0, a0, a0, a0, a0, a0, a0, a0, a0, a0, a0, a0, a0, a0, a1, a0, a0, a0, a0, { a0 with z := some [(1, (dd [0, 1, 14675736798966046206902122501113905151])), (0, (dd [0, 1, 1982068743014369403]))] }, a0, a0, a2, a0, a0, a2, a0, a0, a2, a0, a0, a2, a0, a0, a2, a0, a0, a2, a0, a0, a2, a0, a0, a2, a0, a0, a0, a0, a0, a0, a0, a0, a0, a0]
  hints := []
  zb := 0
  scratch := []
  keepBP := true

theorem mulBmi_ok : mulBmiChk Model.AsmCsidh.mulBmi C.mulBmi 1 2 [⟨[391, 388, 385, 382, 379, 376, 373, 371], 421, [(85, (dd [0, 0, 1])), (84, (dd [0, 1, 18446744073709551616])), (83, (dd [0, 1, 340282366920938463463374607431768211456])), (82, (dd [0, 1, 6277101735386680763835789423207666416102355444464034512896])), (81, (dd [0, 1, 115792089237316195423570985008687907853269984665640564039457584007913129639936])), (80, (dd [0, 1, 2135987035920910082395021706169552114602704522356652769947041607822219725780640550022962086936576])), (79, (dd [0, 1, 39402006196394479212279040100143613805079739270465446667948293404245721771497210611414266254884915640806627990306816])), (78, (dd [0, 1, 726838724295606890549323807888004534353641360687318060281490199180639288113397923326191050713763565560762521606266177933534601628614656])), (77, (dd [0, 1, 13407807929942597099574024998205846127479365820592393377723561443721764030073546976801874298166903427690031858186486050853753882811946569946433649006084096]))]⟩, ⟨[338, 335, 332, 329, 326, 323, 320, 318], 368, [(74, (dd [0, 0, 1])), (73, (dd [0, 1, 18446744073709551616])), (72, (dd [0, 1, 340282366920938463463374607431768211456])), (71, (dd [0, 1, 6277101735386680763835789423207666416102355444464034512896])), (70, (dd [0, 1, 115792089237316195423570985008687907853269984665640564039457584007913129639936])), (69, (dd [0, 1, 2135987035920910082395021706169552114602704522356652769947041607822219725780640550022962086936576])), (68, (dd [0, 1, 39402006196394479212279040100143613805079739270465446667948293404245721771497210611414266254884915640806627990306816])), (67, (dd [0, 1, 726838724295606890549323807888004534353641360687318060281490199180639288113397923326191050713763565560762521606266177933534601628614656])), (66, (dd [0, 1, 13407807929942597099574024998205846127479365820592393377723561443721764030073546976801874298166903427690031858186486050853753882811946569946433649006084096]))]⟩, ⟨[285, 282, 279, 276, 273, 270, 267, 265], 315, [(63, (dd [0, 0, 1])), (62, (dd [0, 1, 18446744073709551616])), (61, (dd [0, 1, 340282366920938463463374607431768211456])), (60, (dd [0, 1, 6277101735386680763835789423207666416102355444464034512896])), (59, (dd [0, 1, 115792089237316195423570985008687907853269984665640564039457584007913129639936])), (58, (dd [0, 1, 2135987035920910082395021706169552114602704522356652769947041607822219725780640550022962086936576])), (57, (dd [0, 1, 39402006196394479212279040100143613805079739270465446667948293404245721771497210611414266254884915640806627990306816])), (56, (dd [0, 1, 726838724295606890549323807888004534353641360687318060281490199180639288113397923326191050713763565560762521606266177933534601628614656])), (55, (dd [0, 1, 13407807929942597099574024998205846127479365820592393377723561443721764030073546976801874298166903427690031858186486050853753882811946569946433649006084096]))]⟩, ⟨[232, 229, 226, 223, 220, 217, 214, 212], 262, [(52, (dd [0, 0, 1])), (51, (dd [0, 1, 18446744073709551616])), (50, (dd [0, 1, 340282366920938463463374607431768211456])), (49, (dd [0, 1, 6277101735386680763835789423207666416102355444464034512896])), (48, (dd [0, 1, 115792089237316195423570985008687907853269984665640564039457584007913129639936])), (47, (dd [0, 1, 2135987035920910082395021706169552114602704522356652769947041607822219725780640550022962086936576])), (46, (dd [0, 1, 39402006196394479212279040100143613805079739270465446667948293404245721771497210611414266254884915640806627990306816])), (45, (dd [0, 1, 726838724295606890549323807888004534353641360687318060281490199180639288113397923326191050713763565560762521606266177933534601628614656])), (44, (dd [0, 1, 13407807929942597099574024998205846127479365820592393377723561443721764030073546976801874298166903427690031858186486050853753882811946569946433649006084096]))]⟩, ⟨[179, 176, 173, 170, 167, 164, 161, 159], 209, [(41, (dd [0, 0, 1])), (40, (dd [0, 1, 18446744073709551616])), (39, (dd [0, 1, 340282366920938463463374607431768211456])), (38, (dd [0, 1, 6277101735386680763835789423207666416102355444464034512896])), (37, (dd [0, 1, 115792089237316195423570985008687907853269984665640564039457584007913129639936])), (36, (dd [0, 1, 2135987035920910082395021706169552114602704522356652769947041607822219725780640550022962086936576])), (35, (dd [0, 1, 39402006196394479212279040100143613805079739270465446667948293404245721771497210611414266254884915640806627990306816])), (34, (dd [0, 1, 726838724295606890549323807888004534353641360687318060281490199180639288113397923326191050713763565560762521606266177933534601628614656])), (33, (dd [0, 1, 13407807929942597099574024998205846127479365820592393377723561443721764030073546976801874298166903427690031858186486050853753882811946569946433649006084096]))]⟩, ⟨[126, 123, 120, 117, 114, 111, 108, 106], 156, [(30, (dd [0, 0, 1])), (29, (dd [0, 1, 18446744073709551616])), (28, (dd [0, 1, 340282366920938463463374607431768211456])), (27, (dd [0, 1, 6277101735386680763835789423207666416102355444464034512896])), (26, (dd [0, 1, 115792089237316195423570985008687907853269984665640564039457584007913129639936])), (25, (dd [0, 1, 2135987035920910082395021706169552114602704522356652769947041607822219725780640550022962086936576])), (24, (dd [0, 1, 39402006196394479212279040100143613805079739270465446667948293404245721771497210611414266254884915640806627990306816])), (23, (dd [0, 1, 726838724295606890549323807888004534353641360687318060281490199180639288113397923326191050713763565560762521606266177933534601628614656])), (22, (dd [0, 1, 13407807929942597099574024998205846127479365820592393377723561443721764030073546976801874298166903427690031858186486050853753882811946569946433649006084096]))]⟩, ⟨[73, 70, 67, 64, 61, 58, 55, 53], 103, [(19, (dd [0, 0, 1])), (18, (dd [0, 1, 18446744073709551616])), (17, (dd [0, 1, 340282366920938463463374607431768211456])), (16, (dd [0, 1, 6277101735386680763835789423207666416102355444464034512896])), (15, (dd [0, 1, 115792089237316195423570985008687907853269984665640564039457584007913129639936])), (14, (dd [0, 1, 2135987035920910082395021706169552114602704522356652769947041607822219725780640550022962086936576])), (13, (dd [0, 1, 39402006196394479212279040100143613805079739270465446667948293404245721771497210611414266254884915640806627990306816])), (12, (dd [0, 1, 726838724295606890549323807888004534353641360687318060281490199180639288113397923326191050713763565560762521606266177933534601628614656])), (11, (dd [0, 1, 13407807929942597099574024998205846127479365820592393377723561443721764030073546976801874298166903427690031858186486050853753882811946569946433649006084096]))]⟩, ⟨[20, 17, 14, 11, 8, 5, 2, 0], 50, [(8, (dd [0, 0, 1])), (7, (dd [0, 1, 18446744073709551616])), (6, (dd [0, 1, 340282366920938463463374607431768211456])), (5, (dd [0, 1, 6277101735386680763835789423207666416102355444464034512896])), (4, (dd [0, 1, 115792089237316195423570985008687907853269984665640564039457584007913129639936])), (3, (dd [0, 1, 2135987035920910082395021706169552114602704522356652769947041607822219725780640550022962086936576])), (2, (dd [0, 1, 39402006196394479212279040100143613805079739270465446667948293404245721771497210611414266254884915640806627990306816])), (1, (dd [0, 1, 726838724295606890549323807888004534353641360687318060281490199180639288113397923326191050713763565560762521606266177933534601628614656])), (0, (dd [0, 1, 13407807929942597099574024998205846127479365820592393377723561443721764030073546976801874298166903427690031858186486050853753882811946569946433649006084096]))]⟩] = true := by decide +kernel

def C.mulBmi_zx : Cert where
  S := ⟨[], [8, 8], [.arr 0, .arr 0, .arr 1], 0⟩
  anns := [a0, a0, a0, a0, a0, a0, a0, a0, a0, a0, a0, a0, a0, a0, a2, a2, a0, a0, a0, a0, a1, a0, a0, a1, a0, a0, a1, a0, a0, a1, a0, a0, a1, a0, a0, a1, a0, a0, a1, a0, a0, a1, a1, a0, a0, a0, { a0 with z := some [(1, (dd [0, 1, 14675736798966046206902122501113905151])), (0, (dd [0, 1, 1982068743014369403]))] }, a0, a0, a2, a0, a0, a2, a0, a0, a2, a0, a0, a2, a0, a0, a2, a0, a0, a2, a0, a0, a2, a0, a0, a2, a0, a0, a2, a2, a0, a0, a0, a0, a0, a0, a0, a0, a0, a0, a0, a0, a0, a0, a0, a0, a0, a0, a0, a0, a0, a0, a0, a0, a0, a1, a0, a0, a0, a0, { a0 with z := some [(1, (dd [0, 1, 14675736798966046206902122501113905151])), (0, (dd [0, 1, 1982068743014369403]))] }, a0, a0, a2, a0, a0, a2, a0, a0, a2, a0, a0, a2, a0, a0, a2, a0, a0, a2, a0, a0, a2, a0, a0, a2, a0, a0, a2, a2, a0, a0, a0, a0, a0, a0, a0, a0, a0, a0, a0, a0, a0, a0, a0, a0, a0, a0, a0, a0, a0, a0, a0, a0, a0, a1, a0, a0, a0, a0, { a0 with z := some [(1, (dd [0, 1, 14675736798966046206902122501113905151])), (0, (dd [0, 1, 1982068743014369403]))] }, a0, a0, a2, a0, a0, a2, a0, a0, a2, a0, a0, a2, a0, a0, a2, a0, a0, a2, a0, a0, a2, a0, a0, a2, a0, a0, a2, a2, a0, a0, a0, a0, a0, a0, a0, a0, a0, a0, a0, a0, a0, a0, a0, a0, a0, a0, a0, a0, a0, a0, a0, a0, a0, a1, a0, a0, a0, a0, { a0 with z := some [(1, (dd [0, 1, 14675736798966046206902122501113905151])), (0, (dd [0, 1, 1982068743014369403]))] }, a0, a0, a2, a0, a0, a2, a0, a0, a2, a0, a0, a2, a0, a0, a2, a0, a0, a2, a0, a0, a2, a0, a0, a2, a0, a0, a2, a2, a0, a0, a0, a0, a0, a0, a0, a0, a0, a0, a0, a0, a0, a0, a0, a0, a0, a0, a0, a0, a0, a0, a0, a0, a0, a1, a0, a0, a0, a0, { a0 with z := some [(1, (dd [0, 1, 14675736798966046206902122501113905151])), (0, (dd [0, 1, 1982068743014369403]))] }, a0, a0, a2, a0, a0, a2, a0, a0, a2, a0, a0, a2, a0, a0, a2, a0, a0, a2, a0, a0, a2, a0, a0, a2, a0, a0, a2, a2, a0, a0, a0, a0, a0, a0, a0, a0, a0, a0, a0, a0, a0, a0, a0, a0, a0, a0, a0, a0, a0, a0, a0, a0, a0, a1, a0, a0, a0, a0, { a0 with z := some [(1, (dd [0, 1, 14675736798966046206902122501113905151])), (0, (dd [0, 1, 1982068743014369403]))] }, a0, a0, a2, a0, a0, a2, a0, a0, a2, a0, a0, a2, a0, a0, a2, a0, a0, a2, a0, a0, a2, a0, a0, a2, a0, a0, a2, a2, a0, a0, a0, a0, a0, a0, a0, a0, a0, a0, a0, a0, a0, a0, a0, a0, a0, a0, a0, a0, a0, a0, a0, a0, a0, a1, a0, a0, a0, a0, { a0 with z := some [(1, (dd [0, 1, 14675736798966046206902122501113905151])), (0, (dd [0, 1, 1982068743014369403]))] }, a0, a0, a2, a0, a0, a2, a0, a0, a2, a0, a0, a2, a0, a0, a2, a0, a0, a2, a0, a0, a2, a0, a0, a2, a0, a0, a2, a2, a0, a0, a0, a0, a0, a0, a0, a0, a0, a0, a0, a0, a0, a0, a0, a0, a0, a0, a0, a0, a0, a0, a0, a0, a0, a1, a0, a0, a0, a0, { a0 with z := some [(1, (dd [0, 1, 14675736798966046206902122501113905151])), (0, (dd [0, 1, 1982068743014369403]))] }, a0, a0, a2, a0, a0, a2, a0, a0, a2, a0, a0, a2, a0, a0, a2, a0, a0, a2, a0, a0, a2, a0, a0, a2, a0, a0, a0, a0, a0, a0, a0, a0, a0, a0]
  hints := []
  zb := 0
  scratch := []
  keepBP := true

theorem mulBmi_zx_ok : mulBmiChk Model.AsmCsidh.mulBmi C.mulBmi_zx 0 1 [⟨[391, 388, 385, 382, 379, 376, 373, 371], 421, [(85, (dd [0, 0, 1])), (84, (dd [0, 1, 18446744073709551616])), (83, (dd [0, 1, 340282366920938463463374607431768211456])), (82, (dd [0, 1, 6277101735386680763835789423207666416102355444464034512896])), (81, (dd [0, 1, 115792089237316195423570985008687907853269984665640564039457584007913129639936])), (80, (dd [0, 1, 2135987035920910082395021706169552114602704522356652769947041607822219725780640550022962086936576])), (79, (dd [0, 1, 39402006196394479212279040100143613805079739270465446667948293404245721771497210611414266254884915640806627990306816])), (78, (dd [0, 1, 726838724295606890549323807888004534353641360687318060281490199180639288113397923326191050713763565560762521606266177933534601628614656])), (77, (dd [0, 1, 13407807929942597099574024998205846127479365820592393377723561443721764030073546976801874298166903427690031858186486050853753882811946569946433649006084096]))]⟩, ⟨[338, 335, 332, 329, 326, 323, 320, 318], 368, [(74, (dd [0, 0, 1])), (73, (dd [0, 1, 18446744073709551616])), (72, (dd [0, 1, 340282366920938463463374607431768211456])), (71, (dd [0, 1, 6277101735386680763835789423207666416102355444464034512896])), (70, (dd [0, 1, 115792089237316195423570985008687907853269984665640564039457584007913129639936])), (69, (dd [0, 1, 2135987035920910082395021706169552114602704522356652769947041607822219725780640550022962086936576])), (68, (dd [0, 1, 39402006196394479212279040100143613805079739270465446667948293404245721771497210611414266254884915640806627990306816])), (67, (dd [0, 1, 726838724295606890549323807888004534353641360687318060281490199180639288113397923326191050713763565560762521606266177933534601628614656])), (66, (dd [0, 1, 13407807929942597099574024998205846127479365820592393377723561443721764030073546976801874298166903427690031858186486050853753882811946569946433649006084096]))]⟩, ⟨[285, 282, 279, 276, 273, 270, 267, 265], 315, [(63, (dd [0, 0, 1])), (62, (dd [0, 1, 18446744073709551616])), (61, (dd [0, 1, 340282366920938463463374607431768211456])), (60, (dd [0, 1, 6277101735386680763835789423207666416102355444464034512896])), (59, (dd [0, 1, 115792089237316195423570985008687907853269984665640564039457584007913129639936])), (58, (dd [0, 1, 2135987035920910082395021706169552114602704522356652769947041607822219725780640550022962086936576])), (57, (dd [0, 1, 39402006196394479212279040100143613805079739270465446667948293404245721771497210611414266254884915640806627990306816])), (56, (dd [0, 1, 726838724295606890549323807888004534353641360687318060281490199180639288113397923326191050713763565560762521606266177933534601628614656])), (55, (dd [0, 1, 13407807929942597099574024998205846127479365820592393377723561443721764030073546976801874298166903427690031858186486050853753882811946569946433649006084096]))]⟩, ⟨[232, 229, 226, 223, 220, 217, 214, 212], 262, [(52, (dd [0, 0, 1])), (51, (dd [0, 1, 18446744073709551616])), (50, (dd [0, 1, 340282366920938463463374607431768211456])), (49, (dd [0, 1, 6277101735386680763835789423207666416102355444464034512896])), (48, (dd [0, 1, 115792089237316195423570985008687907853269984665640564039457584007913129639936])), (47, (dd [0, 1, 2135987035920910082395021706169552114602704522356652769947041607822219725780640550022962086936576])), (46, (dd [0, 1, 39402006196394479212279040100143613805079739270465446667948293404245721771497210611414266254884915640806627990306816])), (45, (dd [0, 1, 726838724295606890549323807888004534353641360687318060281490199180639288113397923326191050713763565560762521606266177933534601628614656])), (44, (dd [0, 1, 13407807929942597099574024998205846127479365820592393377723561443721764030073546976801874298166903427690031858186486050853753882811946569946433649006084096]))]⟩, ⟨[179, 176, 173, 170, 167, 164, 161, 159], 209, [(41, (dd [0, 0, 1])), (40, (dd [0, 1, 18446744073709551616])), (39, (dd [0, 1, 340282366920938463463374607431768211456])), (38, (dd [0, 1, 6277101735386680763835789423207666416102355444464034512896])), (37, (dd [0, 1, 115792089237316195423570985008687907853269984665640564039457584007913129639936])), (36, (dd [0, 1, 2135987035920910082395021706169552114602704522356652769947041607822219725780640550022962086936576])), (35, (dd [0, 1, 39402006196394479212279040100143613805079739270465446667948293404245721771497210611414266254884915640806627990306816])), (34, (dd [0, 1, 726838724295606890549323807888004534353641360687318060281490199180639288113397923326191050713763565560762521606266177933534601628614656])), (33, (dd [0, 1, 13407807929942597099574024998205846127479365820592393377723561443721764030073546976801874298166903427690031858186486050853753882811946569946433649006084096]))]⟩, ⟨[126, 123, 120, 117, 114, 111, 108, 106], 156, [(30, (dd [0, 0, 1])), (29, (dd [0, 1, 18446744073709551616])), (28, (dd [0, 1, 340282366920938463463374607431768211456])), (27, (dd [0, 1, 6277101735386680763835789423207666416102355444464034512896])), (26, (dd [0, 1, 115792089237316195423570985008687907853269984665640564039457584007913129639936])), (25, (dd [0, 1, 2135987035920910082395021706169552114602704522356652769947041607822219725780640550022962086936576])), (24, (dd [0, 1, 39402006196394479212279040100143613805079739270465446667948293404245721771497210611414266254884915640806627990306816])), (23, (dd [0, 1, 726838724295606890549323807888004534353641360687318060281490199180639288113397923326191050713763565560762521606266177933534601628614656])), (22, (dd [0, 1, 13407807929942597099574024998205846127479365820592393377723561443721764030073546976801874298166903427690031858186486050853753882811946569946433649006084096]))]⟩, ⟨[73, 70, 67, 64, 61, 58, 55, 53], 103, [(19, (dd [0, 0, 1])), (18, (dd [0, 1, 18446744073709551616])), (17, (dd [0, 1, 340282366920938463463374607431768211456])), (16, (dd [0, 1, 6277101735386680763835789423207666416102355444464034512896])), (15, (dd [0, 1, 115792089237316195423570985008687907853269984665640564039457584007913129639936])), (14, (dd [0, 1, 2135987035920910082395021706169552114602704522356652769947041607822219725780640550022962086936576])), (13, (dd [0, 1, 39402006196394479212279040100143613805079739270465446667948293404245721771497210611414266254884915640806627990306816])), (12, (dd [0, 1, 726838724295606890549323807888004534353641360687318060281490199180639288113397923326191050713763565560762521606266177933534601628614656])), (11, (dd [0, 1, 13407807929942597099574024998205846127479365820592393377723561443721764030073546976801874298166903427690031858186486050853753882811946569946433649006084096]))]⟩, ⟨[20, 17, 14, 11, 8, 5, 2, 0], 50, [(8, (dd [0, 0, 1])), (7, (dd [0, 1, 18446744073709551616])), (6, (dd [0, 1, 340282366920938463463374607431768211456])), (5, (dd [0, 1, 6277101735386680763835789423207666416102355444464034512896])), (4, (dd [0, 1, 115792089237316195423570985008687907853269984665640564039457584007913129639936])), (3, (dd [0, 1, 2135987035920910082395021706169552114602704522356652769947041607822219725780640550022962086936576])), (2, (dd [0, 1, 39402006196394479212279040100143613805079739270465446667948293404245721771497210611414266254884915640806627990306816])), (1, (dd [0, 1, 726838724295606890549323807888004534353641360687318060281490199180639288113397923326191050713763565560762521606266177933534601628614656])), (0, (dd [0, 1, 13407807929942597099574024998205846127479365820592393377723561443721764030073546976801874298166903427690031858186486050853753882811946569946433649006084096]))]⟩] = true := by decide +kernel

def C.mulBmi_zy : Cert where
  S := ⟨[], [8, 8], [.arr 0, .arr 1, .arr 0], 0⟩
  anns := [a0, a0, a0, a0, a0, a0, a0, a0, a0, a0, a0, a0, a0, a0, a2, a2, a0, a0, a0, a0, a1, a0, a0, a1, a0, a0, a1, a0, a0, a1, a0, a0, a1, a0, a0, a1, a0, a0, a1, a0, a0, a1, a1, a0, a0, a0, { a0 with z := some [(1, (dd [0, 1, 14675736798966046206902122501113905151])), (0, (dd [0, 1, 1982068743014369403]))] }, a0, a0, a2, a0, a0, a2, a0, a0, a2, a0, a0, a2, a0, a0, a2, a0, a0, a2, a0, a0, a2, a0, a0, a2, a0, a0, a2, a2, a0, a0, a0, a0, a0, a0, a0, a0, a0, a0, a0, a0, a0, a0, a0, a0, a0, a0, a0, a0, a0, a0, a0, a0, a0, a1, a0, a0, a0, a0, { a0 with z := some [(1, (dd [0, 1, 14675736798966046206902122501113905151])), (0, (dd [0, 1, 1982068743014369403]))] }, a0, a0, a2, a0, a0, a2, a0, a0, a2, a0, a0, a2, a0, a0, a2, a0, a0, a2, a0, a0, a2, a0, a0, a2, a0, a0, a2, a2, a0, a0, a0, a0, a0, a0, a0, a0, a0, a0, a0, a0, a0, a0, a0, a0, a0, a0, a0, a0, a0, a0, a0, a0, a0, a1, a0, a0, a0, a0, { a0 with z := some [(1, (dd [0, 1, 14675736798966046206902122501113905151])), (0, (dd [0, 1, 1982068743014369403]))] }, a0, a0, a2, a0, a0, a2, a0, a0, a2, a0, a0, a2, a0, a0, a2, a0, a0, a2, a0, a0, a2, a0, a0, a2, a0, a0, a2, a2, a0, a0, a0, a0, a0, a0, a0, a0, a0, a0, a0, a0, a0, a0, a0, a0, a0, a0, a0, a0, a0, a0, a0, a0, a0, a1, a0, a0, a0, a0, { a0 with z := some [(1, (dd [0, 1, 14675736798966046206902122501113905151])), (0, (dd [0, 1, 1982068743014369403]))] }, a0, a0, a2, a0, a0, a2, a0, a0, a2, a0, a0, a2, a0, a0, a2, a0, a0, a2, a0, a0, a2, a0, a0, a2, a0, a0, a2, a2, a0, a0, a0, a0, a0, a0, a0, a0, a0, a0, a0, a0, a0, a0, a0, a0, a0, a0, a0, a0, a0, a0, a0, a0, a0, a1, a0, a0, a0, a0, { a0 with z := some [(1, (dd [0, 1, 14675736798966046206902122501113905151])), (0, (dd [0, 1, 1982068743014369403]))] }, a0, a0, a2, a0, a0, a2, a0, a0, a2, a0, a0, a2, a0, a0, a2, a0, a0, a2, a0, a0, a2, a0, a0, a2, a0, a0, a2, a2, a0, a0, a0, a0, a0, a0, a0, a0, a0, a0, a0, a0, a0, a0, a0, a0, a0, a0, a0, a0, a0, a0, a0, a0, a0, a1, a0, a0, a0, a0, { a0 with z := some [(1, (dd [0, 1, 14675736798966046206902122501113905151])), (0, (dd [0, 1, 1982068743014369403]))] }, a0, a0, a2, a0, a0, a2, a0, a0, a2, a0, a0, a2, a0, a0, a2, a0, a0, a2, a0, a0, a2, a0, a0, a2, a0, a0, a2, a2, a0, a0, a0, a0, a0, a0, a0, a0, a0, a0, a0, a0, a0, a0, a0, a0, a0, a0, a0, a0, a0, a0, a0, a0, a0, a1, a0, a0, a0, a0, { a0 with z := some [(1, (dd [0, 1, 14675736798966046206902122501113905151])), (0, (dd [0, 1, 1982068743014369403]))] }, a0, a0, a2, a0, a0, a2, a0, a0, a2, a0, a0, a2, a0, a0, a2, a0, a0, a2, a0, a0, a2, a0, a0, a2, a0, a0, a2, a2, a0, a0, a0, a0, a0, a0, a0, a0, a0, a0, a0, a0, a0, a0, a0, a0, a0, a0, a0, a0, a0, a0, a0, a0, a0, a1, a0, a0, a0, a0, { a0 with z := some [(1, (dd [0, 1, 14675736798966046206902122501113905151])), (0, (dd [0, 1, 1982068743014369403]))] }, a0, a0, a2, a0, a0, a2, a0, a0, a2, a0, a0, a2, a0, a0, a2, a0, a0, a2, a0, a0, a2, a0, a0, a2, a0, a0, a0, a0, a0, a0, a0, a0, a0, a0]
  hints := []
  zb := 0
  scratch := []
  keepBP := true

theorem mulBmi_zy_ok : mulBmiChk Model.AsmCsidh.mulBmi C.mulBmi_zy 1 0 [⟨[391, 388, 385, 382, 379, 376, 373, 371], 421, [(85, (dd [0, 0, 1])), (84, (dd [0, 1, 18446744073709551616])), (83, (dd [0, 1, 340282366920938463463374607431768211456])), (82, (dd [0, 1, 6277101735386680763835789423207666416102355444464034512896])), (81, (dd [0, 1, 115792089237316195423570985008687907853269984665640564039457584007913129639936])), (80, (dd [0, 1, 2135987035920910082395021706169552114602704522356652769947041607822219725780640550022962086936576])), (79, (dd [0, 1, 39402006196394479212279040100143613805079739270465446667948293404245721771497210611414266254884915640806627990306816])), (78, (dd [0, 1, 726838724295606890549323807888004534353641360687318060281490199180639288113397923326191050713763565560762521606266177933534601628614656])), (77, (dd [0, 1, 13407807929942597099574024998205846127479365820592393377723561443721764030073546976801874298166903427690031858186486050853753882811946569946433649006084096]))]⟩, ⟨[338, 335, 332, 329, 326, 323, 320, 318], 368, [(74, (dd [0, 0, 1])), (73, (dd [0, 1, 18446744073709551616])), (72, (dd [0, 1, 340282366920938463463374607431768211456])), (71, (dd [0, 1, 6277101735386680763835789423207666416102355444464034512896])), (70, (dd [0, 1, 115792089237316195423570985008687907853269984665640564039457584007913129639936])), (69, (dd [0, 1, 2135987035920910082395021706169552114602704522356652769947041607822219725780640550022962086936576])), (68, (dd [0, 1, 39402006196394479212279040100143613805079739270465446667948293404245721771497210611414266254884915640806627990306816])), (67, (dd [0, 1, 726838724295606890549323807888004534353641360687318060281490199180639288113397923326191050713763565560762521606266177933534601628614656])), (66, (dd [0, 1, 13407807929942597099574024998205846127479365820592393377723561443721764030073546976801874298166903427690031858186486050853753882811946569946433649006084096]))]⟩, ⟨[285, 282, 279, 276, 273, 270, 267, 265], 315, [(63, (dd [0, 0, 1])), (62, (dd [0, 1, 18446744073709551616])), (61, (dd [0, 1, 340282366920938463463374607431768211456])), (60, (dd [0, 1, 6277101735386680763835789423207666416102355444464034512896])), (59, (dd [0, 1, 115792089237316195423570985008687907853269984665640564039457584007913129639936])), (58, (dd [0, 1, 2135987035920910082395021706169552114602704522356652769947041607822219725780640550022962086936576])), (57, (dd [0, 1, 39402006196394479212279040100143613805079739270465446667948293404245721771497210611414266254884915640806627990306816])), (56, (dd [0, 1, 726838724295606890549323807888004534353641360687318060281490199180639288113397923326191050713763565560762521606266177933534601628614656])), (55, (dd [0, 1, 13407807929942597099574024998205846127479365820592393377723561443721764030073546976801874298166903427690031858186486050853753882811946569946433649006084096]))]⟩, ⟨[232, 229, 226, 223, 220, 217, 214, 212], 262, [(52, (dd [0, 0, 1])), (51, (dd [0, 1, 18446744073709551616])), (50, (dd [0, 1, 340282366920938463463374607431768211456])), (49, (dd [0, 1, 6277101735386680763835789423207666416102355444464034512896])), (48, (dd [0, 1, 115792089237316195423570985008687907853269984665640564039457584007913129639936])), (47, (dd [0, 1, 2135987035920910082395021706169552114602704522356652769947041607822219725780640550022962086936576])), (46, (dd [0, 1, 39402006196394479212279040100143613805079739270465446667948293404245721771497210611414266254884915640806627990306816])), (45, (dd [0, 1, 726838724295606890549323807888004534353641360687318060281490199180639288113397923326191050713763565560762521606266177933534601628614656])), (44, (dd [0, 1, 13407807929942597099574024998205846127479365820592393377723561443721764030073546976801874298166903427690031858186486050853753882811946569946433649006084096]))]⟩, ⟨[179, 176, 173, 170, 167, 164, 161, 159], 209, [(41, (dd [0, 0, 1])), (40, (dd [0, 1, 18446744073709551616])), (39, (dd [0, 1, 340282366920938463463374607431768211456])), (38, (dd [0, 1, 6277101735386680763835789423207666416102355444464034512896])), (37, (dd [0, 1, 115792089237316195423570985008687907853269984665640564039457584007913129639936])), (36, (dd [0, 1, 2135987035920910082395021706169552114602704522356652769947041607822219725780640550022962086936576])), (35, (dd [0, 1, 39402006196394479212279040100143613805079739270465446667948293404245721771497210611414266254884915640806627990306816])), (34, (dd [0, 1, 726838724295606890549323807888004534353641360687318060281490199180639288113397923326191050713763565560762521606266177933534601628614656])), (33, (dd [0, 1, 13407807929942597099574024998205846127479365820592393377723561443721764030073546976801874298166903427690031858186486050853753882811946569946433649006084096]))]⟩, ⟨[126, 123, 120, 117, 114, 111, 108, 106], 156, [(30, (dd [0, 0, 1])), (29, (dd [0, 1, 18446744073709551616])), (28, (dd [0, 1, 340282366920938463463374607431768211456])), (27, (dd [0, 1, 6277101735386680763835789423207666416102355444464034512896])), (26, (dd [0, 1, 115792089237316195423570985008687907853269984665640564039457584007913129639936])), (25, (dd [0, 1, 2135987035920910082395021706169552114602704522356652769947041607822219725780640550022962086936576])), (24, (dd [0, 1, 39402006196394479212279040100143613805079739270465446667948293404245721771497210611414266254884915640806627990306816])), (23, (dd [0, 1, 726838724295606890549323807888004534353641360687318060281490199180639288113397923326191050713763565560762521606266177933534601628614656])), (22, (dd [0, 1, 13407807929942597099574024998205846127479365820592393377723561443721764030073546976801874298166903427690031858186486050853753882811946569946433649006084096]))]⟩, ⟨[73, 70, 67, 64, 61, 58, 55, 53], 103, [(19, (dd [0, 0, 1])), (18, (dd [0, 1, 18446744073709551616])), (17, (dd [0, 1, 340282366920938463463374607431768211456])), (16, (dd [0, 1, 6277101735386680763835789423207666416102355444464034512896])), (15, (dd [0, 1, 115792089237316195423570985008687907853269984665640564039457584007913129639936])), (14, (dd [0, 1, 2135987035920910082395021706169552114602704522356652769947041607822219725780640550022962086936576])), (13, (dd [0, 1, 39402006196394479212279040100143613805079739270465446667948293404245721771497210611414266254884915640806627990306816])), (12, (dd [0, 1, 726838724295606890549323807888004534353641360687318060281490199180639288113397923326191050713763565560762521606266177933534601628614656])), (11, (dd [0, 1, 13407807929942597099574024998205846127479365820592393377723561443721764030073546976801874298166903427690031858186486050853753882811946569946433649006084096]))]⟩, ⟨[20, 17, 14, 11, 8, 5, 2, 0], 50, [(8, (dd [0, 0, 1])), (7, (dd [0, 1, 18446744073709551616])), (6, (dd [0, 1, 340282366920938463463374607431768211456])), (5, (dd [0, 1, 6277101735386680763835789423207666416102355444464034512896])), (4, (dd [0, 1, 115792089237316195423570985008687907853269984665640564039457584007913129639936])), (3, (dd [0, 1, 2135987035920910082395021706169552114602704522356652769947041607822219725780640550022962086936576])), (2, (dd [0, 1, 39402006196394479212279040100143613805079739270465446667948293404245721771497210611414266254884915640806627990306816])), (1, (dd [0, 1, 726838724295606890549323807888004534353641360687318060281490199180639288113397923326191050713763565560762521606266177933534601628614656])), (0, (dd [0, 1, 13407807929942597099574024998205846127479365820592393377723561443721764030073546976801874298166903427690031858186486050853753882811946569946433649006084096]))]⟩] = true := by decide +kernel

def C.mulBmi_xy : Cert where
  S := ⟨[], [8, 8], [.arr 0, .arr 1, .arr 1], 0⟩
  anns := [a0, a0, a0, a0, a0, a0, a0, a0, a0, a0, a0, a0, a0, a0, a2, a2, a0, a0, a0, a0, a1, a0, a0, a1, a0, a0, a1, a0, a0, a1, a0, a0, a1, a0, a0, a1, a0, a0, a1, a0, a0, a1, a1, a0, a0, a0, { a0 with z := some [(1, (dd [0, 1, 14675736798966046206902122501113905151])), (0, (dd [0, 1, 1982068743014369403]))] }, a0, a0, a2, a0, a0, a2, a0, a0, a2, a0, a0, a2, a0, a0, a2, a0, a0, a2, a0, a0, a2, a0, a0, a2, a0, a0, a2, a2, a0, a0, a0, a0, a0, a0, a0, a0, a0, a0, a0, a0, a0, a0, a0, a0, a0, a0, a0, a0, a0, a0, a0, a0, a0, a1, a0, a0, a0, a0, { a0 with z := some [(1, (dd [0, 1, 14675736798966046206902122501113905151])), (0, (dd [0, 1, 1982068743014369403]))] }, a0, a0, a2, a0, a0, a2, a0, a0, a2, a0, a0, a2, a0, a0, a2, a0, a0, a2, a0, a0, a2, a0, a0, a2, a0, a0, a2, a2, a0, a0, a0, a0, a0, a0, a0, a0, a0, a0, a0, a0, a0, a0, a0, a0, a0, a0, a0, a0, a0, a0, a0, a0, a0, a1, a0, a0, a0, a0, { a0 with z := some [(1, (dd [0, 1, 14675736798966046206902122501113905151])), (0, (dd [0, 1, 1982068743014369403]))] }, a0, a0, a2, a0, a0, a2, a0, a0, a2, a0, a0, a2, a0, a0, a2, a0, a0, a2, a0, a0, a2, a0, a0, a2, a0, a0, a2, a2, a0, a0, a0, a0, a0, a0, a0, a0, a0, a0, a0, a0, a0, a0, a0, a0, a0, a0, a0, a0, a0, a0, a0, a0, a0, a1, a0, a0, a0, a0, { a0 with z := some [(1, (dd [0, 1, 14675736798966046206902122501113905151])), (0, (dd [0, 1, 1982068743014369403]))] }, a0, a0, a2, a0, a0, a2, a0, a0, a2, a0, a0, a2, a0, a0, a2, a0, a0, a2, a0, a0, a2, a0, a0, a2, a0, a0, a2, a2, a0, a0, a0, a0, a0, a0, a0, a0, a0, a0, a0, a0, a0, a0, a0, a0, a0, a0, a0, a0, a0, a0, a0, a0, a0, a1, a0, a0, a0, a0, { a0 with z := some [(1, (dd [0, 1, 14675736798966046206902122501113905151])), (0, (dd [0, 1, 1982068743014369403]))] }, a0, a0, a2, a0, a0, a2, a0, a0, a2, a0, a0, a2, a0, a0, a2, a0, a0, a2, a0, a0, a2, a0, a0, a2, a0, a0, a2, a2, a0, a0, a0, a0, a0, a0, a0, a0, a0, a0, a0, a0, a0, a0, a0, a0, a0, a0, a0, a0, a0, a0, a0, a0, a0, a1, a0, a0, a0, a0, { a0 with z := some [(1, (dd [0, 1, 14675736798966046206902122501113905151])), (0, (dd [0, 1, 1982068743014369403]))] }, a0, a0, a2, a0, a0, a2, a0, a0, a2, a0, a0, a2, a0, a0, a2, a0, a0, a2, a0, a0, a2, a0, a0, a2, a0, a0, a2, a2, a0, a0, a0, a0, a0, a0, a0, a0, a0, a0, a0, a0, a0, a0, a0, a0, a0, a0, a0, a0, a0, a0, a0, a0, a0, a1, a0, a0, a0, a0, { a0 with z := some [(1, (dd [0, 1, 14675736798966046206902122501113905151])), (0, (dd [0, 1, 1982068743014369403]))] }, a0, a0, a2, a0, a0, a2, a0, a0, a2, a0, a0, a2, a0, a0, a2, a0, a0, a2, a0, a0, a2, a0, a0, a2, a0, a0, a2, a2, a0, a0, a0, a0, a0, a0, a0, a0, a0, a0, a0, a0, a0, a0, a0, a0, a0, a0, a0, a0, a0, a0, a0, a0, a0, a1, a0, a0, a0, a0, { a0 with z := some [(1, (dd [0, 1, 14675736798966046206902122501113905151])), (0, (dd [0, 1, 1982068743014369403]))] }, a0, a0, a2, a0, a0, a2, a0, a0, a2, a0, a0, a2, a0, a0, a2, a0, a0, a2, a0, a0, a2, a0, a0, a2, a0, a0, a0, a0, a0, a0, a0, a0, a0, a0]
  hints := []
  zb := 0
  scratch := []
  keepBP := true

theorem mulBmi_xy_ok : mulBmiChk Model.AsmCsidh.mulBmi C.mulBmi_xy 1 1 [⟨[391, 388, 385, 382, 379, 376, 373, 371], 421, [(85, (dd [0, 0, 1])), (84, (dd [0, 1, 18446744073709551616])), (83, (dd [0, 1, 340282366920938463463374607431768211456])), (82, (dd [0, 1, 6277101735386680763835789423207666416102355444464034512896])), (81, (dd [0, 1, 115792089237316195423570985008687907853269984665640564039457584007913129639936])), (80, (dd [0, 1, 2135987035920910082395021706169552114602704522356652769947041607822219725780640550022962086936576])), (79, (dd [0, 1, 39402006196394479212279040100143613805079739270465446667948293404245721771497210611414266254884915640806627990306816])), (78, (dd [0, 1, 726838724295606890549323807888004534353641360687318060281490199180639288113397923326191050713763565560762521606266177933534601628614656])), (77, (dd [0, 1, 13407807929942597099574024998205846127479365820592393377723561443721764030073546976801874298166903427690031858186486050853753882811946569946433649006084096]))]⟩, ⟨[338, 335, 332, 329, 326, 323, 320, 318], 368, [(74, (dd [0, 0, 1])), (73, (dd [0, 1, 18446744073709551616])), (72, (dd [0, 1, 340282366920938463463374607431768211456])), (71, (dd [0, 1, 6277101735386680763835789423207666416102355444464034512896])), (70, (dd [0, 1, 115792089237316195423570985008687907853269984665640564039457584007913129639936])), (69, (dd [0, 1, 2135987035920910082395021706169552114602704522356652769947041607822219725780640550022962086936576])), (68, (dd [0, 1, 39402006196394479212279040100143613805079739270465446667948293404245721771497210611414266254884915640806627990306816])), (67, (dd [0, 1, 726838724295606890549323807888004534353641360687318060281490199180639288113397923326191050713763565560762521606266177933534601628614656])), (66, (dd [0, 1, 13407807929942597099574024998205846127479365820592393377723561443721764030073546976801874298166903427690031858186486050853753882811946569946433649006084096]))]⟩, ⟨[285, 282, 279, 276, 273, 270, 267, 265], 315, [(63, (dd [0, 0, 1])), (62, (dd [0, 1, 18446744073709551616])), (61, (dd [0, 1, 340282366920938463463374607431768211456])), (60, (dd [0, 1, 6277101735386680763835789423207666416102355444464034512896])), (59, (dd [0, 1, 115792089237316195423570985008687907853269984665640564039457584007913129639936])), (58, (dd [0, 1, 2135987035920910082395021706169552114602704522356652769947041607822219725780640550022962086936576])), (57, (dd [0, 1, 39402006196394479212279040100143613805079739270465446667948293404245721771497210611414266254884915640806627990306816])), (56, (dd [0, 1, 726838724295606890549323807888004534353641360687318060281490199180639288113397923326191050713763565560762521606266177933534601628614656])), (55, (dd [0, 1, 13407807929942597099574024998205846127479365820592393377723561443721764030073546976801874298166903427690031858186486050853753882811946569946433649006084096]))]⟩, ⟨[232, 229, 226, 223, 220, 217, 214, 212], 262, [(52, (dd [0, 0, 1])), (51, (dd [0, 1, 18446744073709551616])), (50, (dd [0, 1, 340282366920938463463374607431768211456])), (49, (dd [0, 1, 6277101735386680763835789423207666416102355444464034512896])), (48, (dd [0, 1, 115792089237316195423570985008687907853269984665640564039457584007913129639936])), (47, (dd [0, 1, 2135987035920910082395021706169552114602704522356652769947041607822219725780640550022962086936576])), (46, (dd [0, 1, 39402006196394479212279040100143613805079739270465446667948293404245721771497210611414266254884915640806627990306816])), (45, (dd [0, 1, 726838724295606890549323807888004534353641360687318060281490199180639288113397923326191050713763565560762521606266177933534601628614656])), (44, (dd [0, 1, 13407807929942597099574024998205846127479365820592393377723561443721764030073546976801874298166903427690031858186486050853753882811946569946433649006084096]))]⟩, ⟨[179, 176, 173, 170, 167, 164, 161, 159], 209, [(41, (dd [0, 0, 1])), (40, (dd [0, 1, 18446744073709551616])), (39, (dd [0, 1, 340282366920938463463374607431768211456])), (38, (dd [0, 1, 6277101735386680763835789423207666416102355444464034512896])), (37, (dd [0, 1, 115792089237316195423570985008687907853269984665640564039457584007913129639936])), (36, (dd [0, 1, 2135987035920910082395021706169552114602704522356652769947041607822219725780640550022962086936576])), (35, (dd [0, 1, 39402006196394479212279040100143613805079739270465446667948293404245721771497210611414266254884915640806627990306816])), (34, (dd [0, 1, 726838724295606890549323807888004534353641360687318060281490199180639288113397923326191050713763565560762521606266177933534601628614656])), (33, (dd [0, 1, 13407807929942597099574024998205846127479365820592393377723561443721764030073546976801874298166903427690031858186486050853753882811946569946433649006084096]))]⟩, ⟨[126, 123, 120, 117, 114, 111, 108, 106], 156, [(30, (dd [0, 0, 1])), (29, (dd [0, 1, 18446744073709551616])), (28, (dd [0, 1, 340282366920938463463374607431768211456])), (27, (dd [0, 1, 6277101735386680763835789423207666416102355444464034512896])), (26, (dd [0, 1, 115792089237316195423570985008687907853269984665640564039457584007913129639936])), (25, (dd [0, 1, 2135987035920910082395021706169552114602704522356652769947041607822219725780640550022962086936576])), (24, (dd [0, 1, 39402006196394479212279040100143613805079739270465446667948293404245721771497210611414266254884915640806627990306816])), (23, (dd [0, 1, 726838724295606890549323807888004534353641360687318060281490199180639288113397923326191050713763565560762521606266177933534601628614656])), (22, (dd [0, 1, 13407807929942597099574024998205846127479365820592393377723561443721764030073546976801874298166903427690031858186486050853753882811946569946433649006084096]))]⟩, ⟨[73, 70, 67, 64, 61, 58, 55, 53], 103, [(19, (dd [0, 0, 1])), (18, (dd [0, 1, 18446744073709551616])), (17, (dd [0, 1, 340282366920938463463374607431768211456])), (16, (dd [0, 1, 6277101735386680763835789423207666416102355444464034512896])), (15, (dd [0, 1, 115792089237316195423570985008687907853269984665640564039457584007913129639936])), (14, (dd [0, 1, 2135987035920910082395021706169552114602704522356652769947041607822219725780640550022962086936576])), (13, (dd [0, 1, 39402006196394479212279040100143613805079739270465446667948293404245721771497210611414266254884915640806627990306816])), (12, (dd [0, 1, 726838724295606890549323807888004534353641360687318060281490199180639288113397923326191050713763565560762521606266177933534601628614656])), (11, (dd [0, 1, 13407807929942597099574024998205846127479365820592393377723561443721764030073546976801874298166903427690031858186486050853753882811946569946433649006084096]))]⟩, ⟨[20, 17, 14, 11, 8, 5, 2, 0], 50, [(8, (dd [0, 0, 1])), (7, (dd [0, 1, 18446744073709551616])), (6, (dd [0, 1, 340282366920938463463374607431768211456])), (5, (dd [0, 1, 6277101735386680763835789423207666416102355444464034512896])), (4, (dd [0, 1, 115792089237316195423570985008687907853269984665640564039457584007913129639936])), (3, (dd [0, 1, 2135987035920910082395021706169552114602704522356652769947041607822219725780640550022962086936576])), (2, (dd [0, 1, 39402006196394479212279040100143613805079739270465446667948293404245721771497210611414266254884915640806627990306816])), (1, (dd [0, 1, 726838724295606890549323807888004534353641360687318060281490199180639288113397923326191050713763565560762521606266177933534601628614656])), (0, (dd [0, 1, 13407807929942597099574024998205846127479365820592393377723561443721764030073546976801874298166903427690031858186486050853753882811946569946433649006084096]))]⟩] = true := by decide +kernel

def C.mulBmi_zxy : Cert where
  S := ⟨[], [8], [.arr 0, .arr 0, .arr 0], 0⟩
  anns := [a0, a0, a0, a0, a0, a0, a0, a0, a0, a0, a0, a0, a0, a0, a2, a2, a0, a0, a0, a0, a1, a0, a0, a1, a0, a0, a1, a0, a0, a1, a0, a0, a1, a0, a0, a1, a0, a0, a1, a0, a0, a1, a1, a0, a0, a0, { a0 with z := some [(1, (dd [0, 1, 14675736798966046206902122501113905151])), (0, (dd [0, 1, 1982068743014369403]))] }, a0, a0, a2, a0, a0, a2, a0, a0, a2, a0, a0, a2, a0, a0, a2, a0, a0, a2, a0, a0, a2, a0, a0, a2, a0, a0, a2, a2, a0, a0, a0, a0, a0, a0, a0, a0, a0, a0, a0, a0, a0, a0, a0, a0, a0, a0, a0, a0, a0, a0, a0, a0, a0, a1, a0, a0, a0, a0, { a0 with z := some [(1, (dd [0, 1, 14675736798966046206902122501113905151])), (0, (dd [0, 1, 1982068743014369403]))] }, a0, a0, a2, a0, a0, a2, a0, a0, a2, a0, a0, a2, a0, a0, a2, a0, a0, a2, a0, a0, a2, a0, a0, a2, a0, a0, a2, a2, a0, a0, a0, a0, a0, a0, a0, a0, a0, a0, a0, a0, a0, a0, a0, a0, a0, a0, a0, a0, a0, a0, a0, a0, a0, a1, a0, a0, a0, a0, { a0 with z := some [(1, (dd [0, 1, 14675736798966046206902122501113905151])), (0, (dd [0, 1, 1982068743014369403]))] }, a0, a0, a2, a0, a0, a2, a0, a0, a2, a0, a0, a2, a0, a0, a2, a0, a0, a2, a0, a0, a2, a0, a0, a2, a0, a0, a2, a2, a0, a0, a0, a0, a0, a0, a0, a0, a0, a0, a0, a0, a0, a0, a0, a0, a0, a0, a0, a0, a0, a0, a0, a0, a0, a1, a0, a0, a0, a0, { a0 with z := some [(1, (dd [0, 1, 14675736798966046206902122501113905151])), (0, (dd [0, 1, 1982068743014369403]))] }, a0, a0, a2, a0, a0, a2, a0, a0, a2, a0, a0, a2, a0, a0, a2, a0, a0, a2, a0, a0, a2, a0, a0, a2, a0, a0, a2, a2, a0, a0, a0, a0, a0, a0, a0, a0, a0, a0, a0, a0, a0, a0, a0, a0, a0, a0, a0, a0, a0, a0, a0, a0, a0, a1, a0, a0, a0, a0, { a0 with z := some [(1, (dd [0, 1, 14675736798966046206902122501113905151])), (0, (dd [0, 1, 1982068743014369403]))] }, a0, a0, a2, a0, a0, a2, a0, a0, a2, a0, a0, a2, a0, a0, a2, a0, a0, a2, a0, a0, a2, a0, a0, a2, a0, a0, a2, a2, a0, a0, a0, a0, a0, a0, a0, a0, a0, a0, a0, a0, a0, a0, a0, a0, a0, a0, a0, a0, a0, a0, a0, a0, a0, a1, a0, a0, a0, a0, { a0 with z := some [(1, (dd [0, 1, 14675736798966046206902122501113905151])), (0, (dd [0, 1, 1982068743014369403]))] }, a0, a0, a2, a0, a0, a2, a0, a0, a2, a0, a0, a2, a0, a0, a2, a0, a0, a2, a0, a0, a2, a0, a0, a2, a0, a0, a2, a2, a0, a0, a0, a0, a0, a0, a0, a0, a0, a0, a0, a0, a0, a0, a0, a0, a0, a0, a0, a0, a0, a0, a0, a0, a0, a1, a0, a0, a0, a0, { a0 with z := some [(1, (dd [0, 1, 14675736798966046206902122501113905151])), (0, (dd [0, 1, 1982068743014369403]))] }, a0, a0, a2, a0, a0, a2, a0, a0, a2, a0, a0, a2, a0, a0, a2, a0, a0, a2, a0, a0, a2, a0, a0, a2, a0, a0, a2, a2, a0, a0, a0, a0, a0, a0, a0, a0, a0, a0, a0, a0, a0, a0, a0, a0, a0, a0, a0, a0, a0, a0, a0, a0, a0, a1, a0, a0, a0, a0, { a0 with z := some [(1, (dd [0, 1, 14675736798966046206902122501113905151])), (0, (dd [0, 1, 1982068743014369403]))] }, a0, a0, a2, a0, a0, a2, a0, a0, a2, a0, a0, a2, a0, a0, a2, a0, a0, a2, a0, a0, a2, a0, a0, a2, a0, a0, a0, a0, a0, a0, a0, a0, a0, a0]
  hints := []
  zb := 0
  scratch := []
  keepBP := true

theorem mulBmi_zxy_ok : mulBmiChk Model.AsmCsidh.mulBmi C.mulBmi_zxy 0 0 [⟨[391, 388, 385, 382, 379, 376, 373, 371], 421, [(85, (dd [0, 0, 1])), (84, (dd [0, 1, 18446744073709551616])), (83, (dd [0, 1, 340282366920938463463374607431768211456])), (82, (dd [0, 1, 6277101735386680763835789423207666416102355444464034512896])), (81, (dd [0, 1, 115792089237316195423570985008687907853269984665640564039457584007913129639936])), (80, (dd [0, 1, 2135987035920910082395021706169552114602704522356652769947041607822219725780640550022962086936576])), (79, (dd [0, 1, 39402006196394479212279040100143613805079739270465446667948293404245721771497210611414266254884915640806627990306816])), (78, (dd [0, 1, 726838724295606890549323807888004534353641360687318060281490199180639288113397923326191050713763565560762521606266177933534601628614656])), (77, (dd [0, 1, 13407807929942597099574024998205846127479365820592393377723561443721764030073546976801874298166903427690031858186486050853753882811946569946433649006084096]))]⟩, ⟨[338, 335, 332, 329, 326, 323, 320, 318], 368, [(74, (dd [0, 0, 1])), (73, (dd [0, 1, 18446744073709551616])), (72, (dd [0, 1, 340282366920938463463374607431768211456])), (71, (dd [0, 1, 6277101735386680763835789423207666416102355444464034512896])), (70, (dd [0, 1, 115792089237316195423570985008687907853269984665640564039457584007913129639936])), (69, (dd [0, 1, 2135987035920910082395021706169552114602704522356652769947041607822219725780640550022962086936576])), (68, (dd [0, 1, 39402006196394479212279040100143613805079739270465446667948293404245721771497210611414266254884915640806627990306816])), (67, (dd [0, 1, 726838724295606890549323807888004534353641360687318060281490199180639288113397923326191050713763565560762521606266177933534601628614656])), (66, (dd [0, 1, 13407807929942597099574024998205846127479365820592393377723561443721764030073546976801874298166903427690031858186486050853753882811946569946433649006084096]))]⟩, ⟨[285, 282, 279, 276, 273, 270, 267, 265], 315, [(63, (dd [0, 0, 1])), (62, (dd [0, 1, 18446744073709551616])), (61, (dd [0, 1, 340282366920938463463374607431768211456])), (60, (dd [0, 1, 6277101735386680763835789423207666416102355444464034512896])), (59, (dd [0, 1, 115792089237316195423570985008687907853269984665640564039457584007913129639936])), (58, (dd [0, 1, 2135987035920910082395021706169552114602704522356652769947041607822219725780640550022962086936576])), (57, (dd [0, 1, 39402006196394479212279040100143613805079739270465446667948293404245721771497210611414266254884915640806627990306816])), (56, (dd [0, 1, 726838724295606890549323807888004534353641360687318060281490199180639288113397923326191050713763565560762521606266177933534601628614656])), (55, (dd [0, 1, 13407807929942597099574024998205846127479365820592393377723561443721764030073546976801874298166903427690031858186486050853753882811946569946433649006084096]))]⟩, ⟨[232, 229, 226, 223, 220, 217, 214, 212], 262, [(52, (dd [0, 0, 1])), (51, (dd [0, 1, 18446744073709551616])), (50, (dd [0, 1, 340282366920938463463374607431768211456])), (49, (dd [0, 1, 6277101735386680763835789423207666416102355444464034512896])), (48, (dd [0, 1, 115792089237316195423570985008687907853269984665640564039457584007913129639936])), (47, (dd [0, 1, 2135987035920910082395021706169552114602704522356652769947041607822219725780640550022962086936576])), (46, (dd [0, 1, 39402006196394479212279040100143613805079739270465446667948293404245721771497210611414266254884915640806627990306816])), (45, (dd [0, 1, 726838724295606890549323807888004534353641360687318060281490199180639288113397923326191050713763565560762521606266177933534601628614656])), (44, (dd [0, 1, 13407807929942597099574024998205846127479365820592393377723561443721764030073546976801874298166903427690031858186486050853753882811946569946433649006084096]))]⟩, ⟨[179, 176, 173, 170, 167, 164, 161, 159], 209, [(41, (dd [0, 0, 1])), (40, (dd [0, 1, 18446744073709551616])), (39, (dd [0, 1, 340282366920938463463374607431768211456])), (38, (dd [0, 1, 6277101735386680763835789423207666416102355444464034512896])), (37, (dd [0, 1, 115792089237316195423570985008687907853269984665640564039457584007913129639936])), (36, (dd [0, 1, 2135987035920910082395021706169552114602704522356652769947041607822219725780640550022962086936576])), (35, (dd [0, 1, 39402006196394479212279040100143613805079739270465446667948293404245721771497210611414266254884915640806627990306816])), (34, (dd [0, 1, 726838724295606890549323807888004534353641360687318060281490199180639288113397923326191050713763565560762521606266177933534601628614656])), (33, (dd [0, 1, 13407807929942597099574024998205846127479365820592393377723561443721764030073546976801874298166903427690031858186486050853753882811946569946433649006084096]))]⟩, ⟨[126, 123, 120, 117, 114, 111, 108, 106], 156, [(30, (dd [0, 0, 1])), (29, (dd [0, 1, 18446744073709551616])), (28, (dd [0, 1, 340282366920938463463374607431768211456])), (27, (dd [0, 1, 6277101735386680763835789423207666416102355444464034512896])), (26, (dd [0, 1, 115792089237316195423570985008687907853269984665640564039457584007913129639936])), (25, (dd [0, 1, 2135987035920910082395021706169552114602704522356652769947041607822219725780640550022962086936576])), (24, (dd [0, 1, 39402006196394479212279040100143613805079739270465446667948293404245721771497210611414266254884915640806627990306816])), (23, (dd [0, 1, 726838724295606890549323807888004534353641360687318060281490199180639288113397923326191050713763565560762521606266177933534601628614656])), (22, (dd [0, 1, 13407807929942597099574024998205846127479365820592393377723561443721764030073546976801874298166903427690031858186486050853753882811946569946433649006084096]))]⟩, ⟨[73, 70, 67, 64, 61, 58, 55, 53], 103, [(19, (dd [0, 0, 1])), (18, (dd [0, 1, 18446744073709551616])), (17, (dd [0, 1, 340282366920938463463374607431768211456])), (16, (dd [0, 1, 6277101735386680763835789423207666416102355444464034512896])), (15, (dd [0, 1, 115792089237316195423570985008687907853269984665640564039457584007913129639936])), (14, (dd [0, 1, 2135987035920910082395021706169552114602704522356652769947041607822219725780640550022962086936576])), (13, (dd [0, 1, 39402006196394479212279040100143613805079739270465446667948293404245721771497210611414266254884915640806627990306816])), (12, (dd [0, 1, 726838724295606890549323807888004534353641360687318060281490199180639288113397923326191050713763565560762521606266177933534601628614656])), (11, (dd [0, 1, 13407807929942597099574024998205846127479365820592393377723561443721764030073546976801874298166903427690031858186486050853753882811946569946433649006084096]))]⟩, ⟨[20, 17, 14, 11, 8, 5, 2, 0], 50, [(8, (dd [0, 0, 1])), (7, (dd [0, 1, 18446744073709551616])), (6, (dd [0, 1, 340282366920938463463374607431768211456])), (5, (dd [0, 1, 6277101735386680763835789423207666416102355444464034512896])), (4, (dd [0, 1, 115792089237316195423570985008687907853269984665640564039457584007913129639936])), (3, (dd [0, 1, 2135987035920910082395021706169552114602704522356652769947041607822219725780640550022962086936576])), (2, (dd [0, 1, 39402006196394479212279040100143613805079739270465446667948293404245721771497210611414266254884915640806627990306816])), (1, (dd [0, 1, 726838724295606890549323807888004534353641360687318060281490199180639288113397923326191050713763565560762521606266177933534601628614656])), (0, (dd [0, 1, 13407807929942597099574024998205846127479365820592393377723561443721764030073546976801874298166903427690031858186486050853753882811946569946433649006084096]))]⟩] = true := by decide +kernel

end Lemmas.AsmCertCsidh
