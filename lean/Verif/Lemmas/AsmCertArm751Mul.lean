import Verif.Lemmas.AsmFam
import Verif.Model.AsmArm751
/- Certificates for `mul` and `rdc` of p751/arith_arm64.s, printed by gen/asmgen_arm64.py. -/
set_option maxRecDepth 100000
namespace Lemmas.AsmCertArm751
open Model.Asm Lemmas.AsmSym Lemmas.AsmPoly Lemmas.AsmSound Lemmas.AsmCall Lemmas.AsmFam

def C.mul : Cert where
  S := ⟨[], [24, 12, 12], [.arr 0, .arr 1, .arr 2], 0⟩
  anns := [a0, a0, a0, a0, a0, a0, a0, a2, a2, a0, a0, a0, a0, a2, a2, a0, a0, a0, a0, a2, a2, a1, a0, a0, a0, a0, a2, a2, a0, a0, a0, a0, a2, a2, a0, a0, a0, a0, a2, a2, a1, a1, a1, a0, a0, a0, a0, a0, a0, a0, a0, a0, a0, a0, a0, a0, a0, a0, a0, a0, a0, a0, a0, a0, a0, a0, a0, a0, a0, a0, a0, a0, a0, a0, a1, a2, a2, a2, a1, a2, a2, a2, a1, a1, a1, a0, a0, a0, a0, a0, a0, a0, a0, a0, a0, a0, a0, a0, a0, a0, au 1 2578, au 2 2562, a1, a0, au 0 2674, a0, a1, a1, a0, au 0 2754, a0, a0, a1, a0, au 0 2834, a0, a0, a1, a0, au 0 2914, a0, a0, a1, a0, au 0 2994, a0, a0, a1, a0, au 0 3074, a0, a0, a1, a0, au 0 3154, a0, a0, a1, a0, a0, a0, a0, a0, a0, au 0 3266, a0, a0, a0, a0, a1, au 2 3378, a0, au 0 3442, a0, a1, a1, a0, au 0 3522, a0, a0, a1, a0, au 0 3602, a0, a0, a1, a0, au 0 3682, a0, a0, a1, a0, au 0 3762, a0, a0, a1, a0, au 0 3842, a0, a0, a1, a0, au 0 3922, a0, a0, a1, a0, a0, a0, a0, a0, a0, a0, a0, a0, a0, a0, a0, a0, a0, a0, a0, a0, a0, a0, a0, a0, au 1 4306, a0, a0, a0, au 1 4370, a0, a0, a0, a0, au 0 4466, a0, a1, a1, a0, au 0 4546, a0, a0, a1, a0, au 0 4626, a0, a0, a1, a0, au 0 4706, a0, a0, a1, a0, au 0 4786, a0, a0, a1, a0, au 0 4866, a0, a0, a1, a0, au 0 4946, a0, a0, a1, a0, a0, a0, a0, a0, a0, a0, a0, a0, a0, a0, a0, a0, a0, a0, a0, a0, a0, a0, a0, a0, a0, a0, a0, a0, a0, a0, a0, a0, a0, a0, a0, a0, a0, a0, a0, a1, a0, a0, a0, a0, a0, a0, a0, a0, a0, a0, a0, a0, a2, a2, a2, a1, a2, a2, a2, a1, a1, a1, a0, a0, a0, a0, a0, a0, a0, a0, a0, a0, a0, a0, a0, a0, a0, au 1 6162, au 2 6146, a1, a0, au 0 6258, a0, a1, a1, a0, au 0 6338, a0, a0, a1, a0, au 0 6418, a0, a0, a1, a0, au 0 6498, a0, a0, a1, a0, au 0 6578, a0, a0, a1, a0, au 0 6658, a0, a0, a1, a0, au 0 6738, a0, a0, a1, a0, a0, a0, a0, a0, a0, au 0 6850, a0, a0, a0, a0, a1, au 2 6962, a0, au 0 7026, a0, a1, a1, a0, au 0 7106, a0, a0, a1, a0, au 0 7186, a0, a0, a1, a0, au 0 7266, a0, a0, a1, a0, au 0 7346, a0, a0, a1, a0, au 0 7426, a0, a0, a1, a0, au 0 7506, a0, a0, a1, a0, a0, a0, a0, a0, a0, a0, a0, a0, a0, a0, a0, a0, a0, a0, a0, a0, a0, a0, a0, a0, au 1 7890, a0, a0, a0, au 1 7954, a0, a0, a0, a0, au 0 8050, a0, a1, a1, a0, au 0 8130, a0, a0, a1, a0, au 0 8210, a0, a0, a1, a0, au 0 8290, a0, a0, a1, a0, au 0 8370, a0, a0, a1, a0, au 0 8450, a0, a0, a1, a0, au 0 8530, a0, a0, a1, a0, a0, a0, a0, a0, a0, a0, a0, a0, a0, a0, a0, a0, a0, a0, a0, a0, a0, a0, a0, a0, a0, a0, a0, a0, a0, a0, a0, a0, a0, a0, a0, a0, a0, a0, a0, a0, a0, a0, a0, a0, a0, a0, a0, a0, a0, a0, a0, a0, a0, a0, a0, a0, a0, a0, a0, a0, a0, a0, a0, a0, a0, a0, a0, a0, a0, a0, a0, a0, a0, a0, a0, a0, a0, a0, a0, a0, a0, a0, a0, a0, a0, a0, a2, a2, a2, a1, a2, a2, a2, a1, a1, a1, a0, a0, a0, a0, a0, a0, a0, a0, a0, a0, a0, a0, a0, a0, a0, au 1 10290, au 2 10274, a1, a0, au 0 10386, a0, a1, a1, a0, au 0 10466, a0, a0, a1, a0, au 0 10546, a0, a0, a1, a0, au 0 10626, a0, a0, a1, a0, au 0 10706, a0, a0, a1, a0, au 0 10786, a0, a0, a1, a0, au 0 10866, a0, a0, a1, a0, a0, a0, a0, a0, a0, au 0 10978, a0, a0, a0, a0, a1, au 2 11090, a0, au 0 11154, a0, a1, a1, a0, au 0 11234, a0, a0, a1, a0, au 0 11314, a0, a0, a1, a0, au 0 11394, a0, a0, a1, a0, au 0 11474, a0, a0, a1, a0, au 0 11554, a0, a0, a1, a0, au 0 11634, a0, a0, a1, a0, a0, a0, a0, a0, a0, a0, a0, a0, a0, a0, a0, a0, a0, a0, a0, a0, a0, a0, a0, a0, au 1 12018, a0, a0, a0, au 1 12082, a0, a0, a0, a0, au 0 12178, a0, a1, a1, a0, au 0 12258, a0, a0, a1, a0, au 0 12338, a0, a0, a1, a0, au 0 12418, a0, a0, a1, a0, au 0 12498, a0, a0, a1, a0, au 0 12578, a0, a0, a1, a0, au 0 12658, a0, a0, a1, a0, a0, a0, a0, a0, a0, a0, a0, a0, a0, a0, a0, a0, a0, a0, a0, a0, a0, a0, a0, a0, a0, a0, a0, a0, a0, a0, a0, a0, a0, a0, a0, a0, a0, a0, a0, a0, a0, a0, a0, a0, a0, a0, a0, a0, a0, a0, a0, a0, a0, a0, a0, a0, a0, a0, a0, a0, a0, a0, a0, a0, a0, a0, a0, a0, a0, a0, a0, a0, a0, a0, a0, a0, a0, a0, a0]
  hints := [⟨[447, 439, 436, 435], (dd [3249, 0, 1]), []⟩, ⟨[411, 403, 400, 399], (dd [4017, 0, 1]), []⟩, ⟨[398, 397, 396, 395, 394, 393, 392], (dd [4225, 1, 1]), [(19, (dd [1448, 1, 1, 1464, 1, 18446744073709551616, 1544, 1, 340282366920938463463374607431768211456, 1560, 1, 1, 1640, 1, 18446744073709551616, 1656, 1, 340282366920938463463374607431768211456])), (18, (dd [1448, 1, 18446744073709551616, 1464, 1, 340282366920938463463374607431768211456, 1544, 1, 6277101735386680763835789423207666416102355444464034512896, 1560, 1, 18446744073709551616, 1640, 1, 340282366920938463463374607431768211456, 1656, 1, 6277101735386680763835789423207666416102355444464034512896])), (17, (dd [1448, 1, 340282366920938463463374607431768211456, 1464, 1, 6277101735386680763835789423207666416102355444464034512896, 1544, 1, 115792089237316195423570985008687907853269984665640564039457584007913129639936, 1560, 1, 340282366920938463463374607431768211456, 1640, 1, 6277101735386680763835789423207666416102355444464034512896, 1656, 1, 115792089237316195423570985008687907853269984665640564039457584007913129639936])), (16, (dd [2232, 1, 1, 2248, 1, 18446744073709551616, 2257, 1, 6277101735386680763835789423207666416102355444464034512896, 2264, 1, 340282366920938463463374607431768211456])), (15, (dd [2232, 1, 18446744073709551616, 2248, 1, 340282366920938463463374607431768211456, 2257, 1, 115792089237316195423570985008687907853269984665640564039457584007913129639936, 2264, 1, 6277101735386680763835789423207666416102355444464034512896])), (14, (dd [2232, 1, 340282366920938463463374607431768211456, 2248, 1, 6277101735386680763835789423207666416102355444464034512896, 2257, 1, 2135987035920910082395021706169552114602704522356652769947041607822219725780640550022962086936576, 2264, 1, 115792089237316195423570985008687907853269984665640564039457584007913129639936])), (1, (dd [0, 0, 39402006196394479212279040100143613805079739270465446667948293404245721771497210611414266254884915640806627990306816])), (0, (dd [0, 1, 39402006196394479212279040100143613805079739270465446667948293404245721771497210611414266254884915640806627990306816]))]⟩, ⟨[391, 390, 388, 386, 385, 384, 383], (dd [4449, 0, 1]), [(20, (dd [1448, 1, 1, 1464, 1, 18446744073709551616, 1544, 1, 340282366920938463463374607431768211456, 1560, 1, 1, 1640, 1, 18446744073709551616, 1656, 1, 340282366920938463463374607431768211456])), (19, (dd [1448, 1, 18446744073709551616, 1464, 1, 340282366920938463463374607431768211456, 1544, 1, 6277101735386680763835789423207666416102355444464034512896, 1560, 1, 18446744073709551616, 1640, 1, 340282366920938463463374607431768211456, 1656, 1, 6277101735386680763835789423207666416102355444464034512896])), (18, (dd [1448, 1, 340282366920938463463374607431768211456, 1464, 1, 6277101735386680763835789423207666416102355444464034512896, 1544, 1, 115792089237316195423570985008687907853269984665640564039457584007913129639936, 1560, 1, 340282366920938463463374607431768211456, 1640, 1, 6277101735386680763835789423207666416102355444464034512896, 1656, 1, 115792089237316195423570985008687907853269984665640564039457584007913129639936])), (17, (dd [2232, 1, 1, 2248, 1, 18446744073709551616, 2257, 1, 6277101735386680763835789423207666416102355444464034512896, 2264, 1, 340282366920938463463374607431768211456])), (16, (dd [2232, 1, 18446744073709551616, 2248, 1, 340282366920938463463374607431768211456, 2257, 1, 115792089237316195423570985008687907853269984665640564039457584007913129639936, 2264, 1, 6277101735386680763835789423207666416102355444464034512896])), (15, (dd [2232, 1, 340282366920938463463374607431768211456, 2248, 1, 6277101735386680763835789423207666416102355444464034512896, 2257, 1, 2135987035920910082395021706169552114602704522356652769947041607822219725780640550022962086936576, 2264, 1, 115792089237316195423570985008687907853269984665640564039457584007913129639936])), (2, (dd [0, 0, 39402006196394479212279040100143613805079739270465446667948293404245721771497210611414266254884915640806627990306816])), (1, (dd [0, 1, 39402006196394479212279040100143613805079739270465446667942016302510335090733374821991058588468813285362163955793920])), (0, (dd [0, 0, 726838724295606890549323807888004534353641360687318060281490199180639288113397923326191050713763565560762521606266177933534601628614656]))]⟩, ⟨[365, 357, 354, 353], (dd [5041, 0, 1]), []⟩, ⟨[352, 351, 350, 349, 348, 347, 346], (dd [5153, 1, 1]), [(22, (dd [1448, 1, 1, 1464, 1, 18446744073709551616, 1544, 1, 340282366920938463463374607431768211456, 1560, 1, 1, 1640, 1, 18446744073709551616, 1656, 1, 340282366920938463463374607431768211456])), (21, (dd [1448, 1, 18446744073709551616, 1464, 1, 340282366920938463463374607431768211456, 1544, 1, 6277101735386680763835789423207666416102355444464034512896, 1560, 1, 18446744073709551616, 1640, 1, 340282366920938463463374607431768211456, 1656, 1, 6277101735386680763835789423207666416102355444464034512896])), (20, (dd [1448, 1, 340282366920938463463374607431768211456, 1464, 1, 6277101735386680763835789423207666416102355444464034512896, 1544, 1, 115792089237316195423570985008687907853269984665640564039457584007913129639936, 1560, 1, 340282366920938463463374607431768211456, 1640, 1, 6277101735386680763835789423207666416102355444464034512896, 1656, 1, 115792089237316195423570985008687907853269984665640564039457584007913129639936])), (19, (dd [2232, 1, 1, 2248, 1, 18446744073709551616, 2257, 1, 6277101735386680763835789423207666416102355444464034512896, 2264, 1, 340282366920938463463374607431768211456])), (18, (dd [2232, 1, 18446744073709551616, 2248, 1, 340282366920938463463374607431768211456, 2257, 1, 115792089237316195423570985008687907853269984665640564039457584007913129639936, 2264, 1, 6277101735386680763835789423207666416102355444464034512896])), (17, (dd [2232, 1, 340282366920938463463374607431768211456, 2248, 1, 6277101735386680763835789423207666416102355444464034512896, 2257, 1, 2135987035920910082395021706169552114602704522356652769947041607822219725780640550022962086936576, 2264, 1, 115792089237316195423570985008687907853269984665640564039457584007913129639936])), (4, (dd [0, 0, 39402006196394479212279040100143613805079739270465446667948293404245721771497210611414266254884915640806627990306816])), (3, (dd [0, 1, 39402006196394479212279040100143613805079739270465446667942016302510335090733374821991058588468813285362163955793920])), (2, (dd [0, 0, 726838724295606890549323807888004534353641360687318060281490199180639288113397923326191050713763565560762521606266177933534601628614656])), (1, (dd [0, 0, 726838724295606890549323807888004534353641360687318060281490199180639288113397923326191050713763565560762521606266177933534601628614656])), (0, (dd [0, 1, 39402006196394479212279040100143613805079739270465446667948293404245721771497210611414266254884915640806627990306816]))]⟩, ⟨[352, 351, 350, 345, 344, 343, 342, 341, 340], (dd [5249, 0, 1]), [(23, (dd [1448, 1, 1, 1464, 1, 18446744073709551616, 1544, 1, 340282366920938463463374607431768211456, 1560, 1, 1, 1640, 1, 18446744073709551616, 1656, 1, 340282366920938463463374607431768211456])), (22, (dd [1448, 1, 18446744073709551616, 1464, 1, 340282366920938463463374607431768211456, 1544, 1, 6277101735386680763835789423207666416102355444464034512896, 1560, 1, 18446744073709551616, 1640, 1, 340282366920938463463374607431768211456, 1656, 1, 6277101735386680763835789423207666416102355444464034512896])), (21, (dd [1448, 1, 340282366920938463463374607431768211456, 1464, 1, 6277101735386680763835789423207666416102355444464034512896, 1544, 1, 115792089237316195423570985008687907853269984665640564039457584007913129639936, 1560, 1, 340282366920938463463374607431768211456, 1640, 1, 6277101735386680763835789423207666416102355444464034512896, 1656, 1, 115792089237316195423570985008687907853269984665640564039457584007913129639936])), (20, (dd [2232, 1, 1, 2248, 1, 18446744073709551616, 2257, 1, 6277101735386680763835789423207666416102355444464034512896, 2264, 1, 340282366920938463463374607431768211456])), (19, (dd [2232, 1, 18446744073709551616, 2248, 1, 340282366920938463463374607431768211456, 2257, 1, 115792089237316195423570985008687907853269984665640564039457584007913129639936, 2264, 1, 6277101735386680763835789423207666416102355444464034512896])), (18, (dd [2232, 1, 340282366920938463463374607431768211456, 2248, 1, 6277101735386680763835789423207666416102355444464034512896, 2257, 1, 2135987035920910082395021706169552114602704522356652769947041607822219725780640550022962086936576, 2264, 1, 115792089237316195423570985008687907853269984665640564039457584007913129639936])), (5, (dd [0, 0, 39402006196394479212279040100143613805079739270465446667948293404245721771497210611414266254884915640806627990306816])), (4, (dd [0, 1, 39402006196394479212279040100143613805079739270465446667942016302510335090733374821991058588468813285362163955793920])), (3, (dd [0, 0, 726838724295606890549323807888004534353641360687318060281490199180639288113397923326191050713763565560762521606266177933534601628614656])), (2, (dd [0, 0, 726838724295606890549323807888004534353641360687318060281490199180639288113397923326191050713763565560762521606266177933534601628614656])), (1, (dd [0, 0, 247330401473104534060502521019647190035131349101211839914023654086700830627319588130216257447437965250327205979348191045947119312535253999356131888847008252275800144158392320])), (0, (dd [0, 0, 726838724295606890549323807888004534353641360687318060281490199180639288113397923326191050713763565560762521606266177933534601628614656]))]⟩, ⟨[299, 291, 288, 287], (dd [6833, 0, 1]), []⟩, ⟨[263, 255, 252, 251], (dd [7601, 0, 1]), []⟩, ⟨[250, 249, 248, 247, 246, 245, 244], (dd [7809, 1, 1]), [(20, (dd [296, 1, 1, 304, 1, 18446744073709551616, 312, 1, 340282366920938463463374607431768211456, 320, 1, 1, 328, 1, 18446744073709551616, 336, 1, 340282366920938463463374607431768211456])), (19, (dd [296, 1, 18446744073709551616, 304, 1, 340282366920938463463374607431768211456, 312, 1, 6277101735386680763835789423207666416102355444464034512896, 320, 1, 18446744073709551616, 328, 1, 340282366920938463463374607431768211456, 336, 1, 6277101735386680763835789423207666416102355444464034512896])), (18, (dd [296, 1, 340282366920938463463374607431768211456, 304, 1, 6277101735386680763835789423207666416102355444464034512896, 312, 1, 115792089237316195423570985008687907853269984665640564039457584007913129639936, 320, 1, 340282366920938463463374607431768211456, 328, 1, 6277101735386680763835789423207666416102355444464034512896, 336, 1, 115792089237316195423570985008687907853269984665640564039457584007913129639936])), (17, (dd [5816, 1, 1, 5832, 1, 18446744073709551616, 5841, 1, 6277101735386680763835789423207666416102355444464034512896, 5848, 1, 340282366920938463463374607431768211456])), (16, (dd [5816, 1, 18446744073709551616, 5832, 1, 340282366920938463463374607431768211456, 5841, 1, 115792089237316195423570985008687907853269984665640564039457584007913129639936, 5848, 1, 6277101735386680763835789423207666416102355444464034512896])), (15, (dd [5816, 1, 340282366920938463463374607431768211456, 5832, 1, 6277101735386680763835789423207666416102355444464034512896, 5841, 1, 2135987035920910082395021706169552114602704522356652769947041607822219725780640550022962086936576, 5848, 1, 115792089237316195423570985008687907853269984665640564039457584007913129639936])), (1, (dd [0, 0, 39402006196394479212279040100143613805079739270465446667948293404245721771497210611414266254884915640806627990306816])), (0, (dd [0, 1, 39402006196394479212279040100143613805079739270465446667948293404245721771497210611414266254884915640806627990306816]))]⟩, ⟨[243, 242, 240, 238, 237, 236, 235], (dd [8033, 0, 1]), [(21, (dd [296, 1, 1, 304, 1, 18446744073709551616, 312, 1, 340282366920938463463374607431768211456, 320, 1, 1, 328, 1, 18446744073709551616, 336, 1, 340282366920938463463374607431768211456])), (20, (dd [296, 1, 18446744073709551616, 304, 1, 340282366920938463463374607431768211456, 312, 1, 6277101735386680763835789423207666416102355444464034512896, 320, 1, 18446744073709551616, 328, 1, 340282366920938463463374607431768211456, 336, 1, 6277101735386680763835789423207666416102355444464034512896])), (19, (dd [296, 1, 340282366920938463463374607431768211456, 304, 1, 6277101735386680763835789423207666416102355444464034512896, 312, 1, 115792089237316195423570985008687907853269984665640564039457584007913129639936, 320, 1, 340282366920938463463374607431768211456, 328, 1, 6277101735386680763835789423207666416102355444464034512896, 336, 1, 115792089237316195423570985008687907853269984665640564039457584007913129639936])), (18, (dd [5816, 1, 1, 5832, 1, 18446744073709551616, 5841, 1, 6277101735386680763835789423207666416102355444464034512896, 5848, 1, 340282366920938463463374607431768211456])), (17, (dd [5816, 1, 18446744073709551616, 5832, 1, 340282366920938463463374607431768211456, 5841, 1, 115792089237316195423570985008687907853269984665640564039457584007913129639936, 5848, 1, 6277101735386680763835789423207666416102355444464034512896])), (16, (dd [5816, 1, 340282366920938463463374607431768211456, 5832, 1, 6277101735386680763835789423207666416102355444464034512896, 5841, 1, 2135987035920910082395021706169552114602704522356652769947041607822219725780640550022962086936576, 5848, 1, 115792089237316195423570985008687907853269984665640564039457584007913129639936])), (2, (dd [0, 0, 39402006196394479212279040100143613805079739270465446667948293404245721771497210611414266254884915640806627990306816])), (1, (dd [0, 1, 39402006196394479212279040100143613805079739270465446667942016302510335090733374821991058588468813285362163955793920])), (0, (dd [0, 0, 726838724295606890549323807888004534353641360687318060281490199180639288113397923326191050713763565560762521606266177933534601628614656]))]⟩, ⟨[217, 209, 206, 205], (dd [8625, 0, 1]), []⟩, ⟨[204, 203, 202, 201, 200, 199, 198], (dd [8737, 1, 1]), [(23, (dd [296, 1, 1, 304, 1, 18446744073709551616, 312, 1, 340282366920938463463374607431768211456, 320, 1, 1, 328, 1, 18446744073709551616, 336, 1, 340282366920938463463374607431768211456])), (22, (dd [296, 1, 18446744073709551616, 304, 1, 340282366920938463463374607431768211456, 312, 1, 6277101735386680763835789423207666416102355444464034512896, 320, 1, 18446744073709551616, 328, 1, 340282366920938463463374607431768211456, 336, 1, 6277101735386680763835789423207666416102355444464034512896])), (21, (dd [296, 1, 340282366920938463463374607431768211456, 304, 1, 6277101735386680763835789423207666416102355444464034512896, 312, 1, 115792089237316195423570985008687907853269984665640564039457584007913129639936, 320, 1, 340282366920938463463374607431768211456, 328, 1, 6277101735386680763835789423207666416102355444464034512896, 336, 1, 115792089237316195423570985008687907853269984665640564039457584007913129639936])), (20, (dd [5816, 1, 1, 5832, 1, 18446744073709551616, 5841, 1, 6277101735386680763835789423207666416102355444464034512896, 5848, 1, 340282366920938463463374607431768211456])), (19, (dd [5816, 1, 18446744073709551616, 5832, 1, 340282366920938463463374607431768211456, 5841, 1, 115792089237316195423570985008687907853269984665640564039457584007913129639936, 5848, 1, 6277101735386680763835789423207666416102355444464034512896])), (18, (dd [5816, 1, 340282366920938463463374607431768211456, 5832, 1, 6277101735386680763835789423207666416102355444464034512896, 5841, 1, 2135987035920910082395021706169552114602704522356652769947041607822219725780640550022962086936576, 5848, 1, 115792089237316195423570985008687907853269984665640564039457584007913129639936])), (4, (dd [0, 0, 39402006196394479212279040100143613805079739270465446667948293404245721771497210611414266254884915640806627990306816])), (3, (dd [0, 1, 39402006196394479212279040100143613805079739270465446667942016302510335090733374821991058588468813285362163955793920])), (2, (dd [0, 0, 726838724295606890549323807888004534353641360687318060281490199180639288113397923326191050713763565560762521606266177933534601628614656])), (1, (dd [0, 0, 726838724295606890549323807888004534353641360687318060281490199180639288113397923326191050713763565560762521606266177933534601628614656])), (0, (dd [0, 1, 39402006196394479212279040100143613805079739270465446667948293404245721771497210611414266254884915640806627990306816]))]⟩, ⟨[204, 203, 202, 197, 196, 195, 194, 193, 192], (dd [8833, 0, 1]), [(24, (dd [296, 1, 1, 304, 1, 18446744073709551616, 312, 1, 340282366920938463463374607431768211456, 320, 1, 1, 328, 1, 18446744073709551616, 336, 1, 340282366920938463463374607431768211456])), (23, (dd [296, 1, 18446744073709551616, 304, 1, 340282366920938463463374607431768211456, 312, 1, 6277101735386680763835789423207666416102355444464034512896, 320, 1, 18446744073709551616, 328, 1, 340282366920938463463374607431768211456, 336, 1, 6277101735386680763835789423207666416102355444464034512896])), (22, (dd [296, 1, 340282366920938463463374607431768211456, 304, 1, 6277101735386680763835789423207666416102355444464034512896, 312, 1, 115792089237316195423570985008687907853269984665640564039457584007913129639936, 320, 1, 340282366920938463463374607431768211456, 328, 1, 6277101735386680763835789423207666416102355444464034512896, 336, 1, 115792089237316195423570985008687907853269984665640564039457584007913129639936])), (21, (dd [5816, 1, 1, 5832, 1, 18446744073709551616, 5841, 1, 6277101735386680763835789423207666416102355444464034512896, 5848, 1, 340282366920938463463374607431768211456])), (20, (dd [5816, 1, 18446744073709551616, 5832, 1, 340282366920938463463374607431768211456, 5841, 1, 115792089237316195423570985008687907853269984665640564039457584007913129639936, 5848, 1, 6277101735386680763835789423207666416102355444464034512896])), (19, (dd [5816, 1, 340282366920938463463374607431768211456, 5832, 1, 6277101735386680763835789423207666416102355444464034512896, 5841, 1, 2135987035920910082395021706169552114602704522356652769947041607822219725780640550022962086936576, 5848, 1, 115792089237316195423570985008687907853269984665640564039457584007913129639936])), (5, (dd [0, 0, 39402006196394479212279040100143613805079739270465446667948293404245721771497210611414266254884915640806627990306816])), (4, (dd [0, 1, 39402006196394479212279040100143613805079739270465446667942016302510335090733374821991058588468813285362163955793920])), (3, (dd [0, 0, 726838724295606890549323807888004534353641360687318060281490199180639288113397923326191050713763565560762521606266177933534601628614656])), (2, (dd [0, 0, 726838724295606890549323807888004534353641360687318060281490199180639288113397923326191050713763565560762521606266177933534601628614656])), (1, (dd [0, 0, 247330401473104534060502521019647190035131349101211839914023654086700830627319588130216257447437965250327205979348191045947119312535253999356131888847008252275800144158392320])), (0, (dd [0, 0, 726838724295606890549323807888004534353641360687318060281490199180639288113397923326191050713763565560762521606266177933534601628614656]))]⟩, ⟨[191, 190, 189, 188, 187, 186, 185, 184, 183, 182, 181, 180, 179], (dd [9281, 1, 1]), [(43, (dd [296, 1, 1, 304, 1, 18446744073709551616, 312, 1, 340282366920938463463374607431768211456, 320, 1, 6277101735386680763835789423207666416102355444464034512896, 328, 1, 115792089237316195423570985008687907853269984665640564039457584007913129639936, 336, 1, 2135987035920910082395021706169552114602704522356652769947041607822219725780640550022962086936576, 344, 1, 1, 352, 1, 18446744073709551616, 360, 1, 340282366920938463463374607431768211456, 368, 1, 6277101735386680763835789423207666416102355444464034512896, 376, 1, 115792089237316195423570985008687907853269984665640564039457584007913129639936, 384, 1, 2135987035920910082395021706169552114602704522356652769947041607822219725780640550022962086936576])), (42, (dd [296, 1, 18446744073709551616, 304, 1, 340282366920938463463374607431768211456, 312, 1, 6277101735386680763835789423207666416102355444464034512896, 320, 1, 115792089237316195423570985008687907853269984665640564039457584007913129639936, 328, 1, 2135987035920910082395021706169552114602704522356652769947041607822219725780640550022962086936576, 336, 1, 39402006196394479212279040100143613805079739270465446667948293404245721771497210611414266254884915640806627990306816, 344, 1, 18446744073709551616, 352, 1, 340282366920938463463374607431768211456, 360, 1, 6277101735386680763835789423207666416102355444464034512896, 368, 1, 115792089237316195423570985008687907853269984665640564039457584007913129639936, 376, 1, 2135987035920910082395021706169552114602704522356652769947041607822219725780640550022962086936576, 384, 1, 39402006196394479212279040100143613805079739270465446667948293404245721771497210611414266254884915640806627990306816])), (41, (dd [296, 1, 340282366920938463463374607431768211456, 304, 1, 6277101735386680763835789423207666416102355444464034512896, 312, 1, 115792089237316195423570985008687907853269984665640564039457584007913129639936, 320, 1, 2135987035920910082395021706169552114602704522356652769947041607822219725780640550022962086936576, 328, 1, 39402006196394479212279040100143613805079739270465446667948293404245721771497210611414266254884915640806627990306816, 336, 1, 726838724295606890549323807888004534353641360687318060281490199180639288113397923326191050713763565560762521606266177933534601628614656, 344, 1, 340282366920938463463374607431768211456, 352, 1, 6277101735386680763835789423207666416102355444464034512896, 360, 1, 115792089237316195423570985008687907853269984665640564039457584007913129639936, 368, 1, 2135987035920910082395021706169552114602704522356652769947041607822219725780640550022962086936576, 376, 1, 39402006196394479212279040100143613805079739270465446667948293404245721771497210611414266254884915640806627990306816, 384, 1, 726838724295606890549323807888004534353641360687318060281490199180639288113397923326191050713763565560762521606266177933534601628614656])), (40, (dd [296, 1, 6277101735386680763835789423207666416102355444464034512896, 304, 1, 115792089237316195423570985008687907853269984665640564039457584007913129639936, 312, 1, 2135987035920910082395021706169552114602704522356652769947041607822219725780640550022962086936576, 320, 1, 39402006196394479212279040100143613805079739270465446667948293404245721771497210611414266254884915640806627990306816, 328, 1, 726838724295606890549323807888004534353641360687318060281490199180639288113397923326191050713763565560762521606266177933534601628614656, 336, 1, 13407807929942597099574024998205846127479365820592393377723561443721764030073546976801874298166903427690031858186486050853753882811946569946433649006084096, 344, 1, 6277101735386680763835789423207666416102355444464034512896, 352, 1, 115792089237316195423570985008687907853269984665640564039457584007913129639936, 360, 1, 2135987035920910082395021706169552114602704522356652769947041607822219725780640550022962086936576, 368, 1, 39402006196394479212279040100143613805079739270465446667948293404245721771497210611414266254884915640806627990306816, 376, 1, 726838724295606890549323807888004534353641360687318060281490199180639288113397923326191050713763565560762521606266177933534601628614656, 384, 1, 13407807929942597099574024998205846127479365820592393377723561443721764030073546976801874298166903427690031858186486050853753882811946569946433649006084096])), (39, (dd [296, 1, 115792089237316195423570985008687907853269984665640564039457584007913129639936, 304, 1, 2135987035920910082395021706169552114602704522356652769947041607822219725780640550022962086936576, 312, 1, 39402006196394479212279040100143613805079739270465446667948293404245721771497210611414266254884915640806627990306816, 320, 1, 726838724295606890549323807888004534353641360687318060281490199180639288113397923326191050713763565560762521606266177933534601628614656, 328, 1, 13407807929942597099574024998205846127479365820592393377723561443721764030073546976801874298166903427690031858186486050853753882811946569946433649006084096, 336, 1, 247330401473104534060502521019647190035131349101211839914063056092897225106531867170316401061243044989597671426016139339351365034306751209967546155101893167916606772148699136, 344, 1, 115792089237316195423570985008687907853269984665640564039457584007913129639936, 352, 1, 2135987035920910082395021706169552114602704522356652769947041607822219725780640550022962086936576, 360, 1, 39402006196394479212279040100143613805079739270465446667948293404245721771497210611414266254884915640806627990306816, 368, 1, 726838724295606890549323807888004534353641360687318060281490199180639288113397923326191050713763565560762521606266177933534601628614656, 376, 1, 13407807929942597099574024998205846127479365820592393377723561443721764030073546976801874298166903427690031858186486050853753882811946569946433649006084096, 384, 1, 247330401473104534060502521019647190035131349101211839914063056092897225106531867170316401061243044989597671426016139339351365034306751209967546155101893167916606772148699136])), (38, (dd [296, 1, 2135987035920910082395021706169552114602704522356652769947041607822219725780640550022962086936576, 304, 1, 39402006196394479212279040100143613805079739270465446667948293404245721771497210611414266254884915640806627990306816, 312, 1, 726838724295606890549323807888004534353641360687318060281490199180639288113397923326191050713763565560762521606266177933534601628614656, 320, 1, 13407807929942597099574024998205846127479365820592393377723561443721764030073546976801874298166903427690031858186486050853753882811946569946433649006084096, 328, 1, 247330401473104534060502521019647190035131349101211839914063056092897225106531867170316401061243044989597671426016139339351365034306751209967546155101893167916606772148699136, 336, 1, 4562440617622195218641171605700291324893228507248559930579192517899275167208677386505912811317371399778642309573594407310688704721375437998252661319722214188251994674360264950082874192246603776, 344, 1, 2135987035920910082395021706169552114602704522356652769947041607822219725780640550022962086936576, 352, 1, 39402006196394479212279040100143613805079739270465446667948293404245721771497210611414266254884915640806627990306816, 360, 1, 726838724295606890549323807888004534353641360687318060281490199180639288113397923326191050713763565560762521606266177933534601628614656, 368, 1, 13407807929942597099574024998205846127479365820592393377723561443721764030073546976801874298166903427690031858186486050853753882811946569946433649006084096, 376, 1, 247330401473104534060502521019647190035131349101211839914063056092897225106531867170316401061243044989597671426016139339351365034306751209967546155101893167916606772148699136, 384, 1, 4562440617622195218641171605700291324893228507248559930579192517899275167208677386505912811317371399778642309573594407310688704721375437998252661319722214188251994674360264950082874192246603776])), (37, (dd [1144, 1, 1, 1160, 1, 18446744073709551616, 1240, 1, 340282366920938463463374607431768211456, 1256, 1, 6277101735386680763835789423207666416102355444464034512896, 1336, 1, 115792089237316195423570985008687907853269984665640564039457584007913129639936, 1345, 1, 39402006196394479212279040100143613805079739270465446667948293404245721771497210611414266254884915640806627990306816, 1352, 1, 2135987035920910082395021706169552114602704522356652769947041607822219725780640550022962086936576])), (36, (dd [1144, 1, 18446744073709551616, 1160, 1, 340282366920938463463374607431768211456, 1240, 1, 6277101735386680763835789423207666416102355444464034512896, 1256, 1, 115792089237316195423570985008687907853269984665640564039457584007913129639936, 1336, 1, 2135987035920910082395021706169552114602704522356652769947041607822219725780640550022962086936576, 1345, 1, 726838724295606890549323807888004534353641360687318060281490199180639288113397923326191050713763565560762521606266177933534601628614656, 1352, 1, 39402006196394479212279040100143613805079739270465446667948293404245721771497210611414266254884915640806627990306816])), (35, (dd [1144, 1, 340282366920938463463374607431768211456, 1160, 1, 6277101735386680763835789423207666416102355444464034512896, 1240, 1, 115792089237316195423570985008687907853269984665640564039457584007913129639936, 1256, 1, 2135987035920910082395021706169552114602704522356652769947041607822219725780640550022962086936576, 1336, 1, 39402006196394479212279040100143613805079739270465446667948293404245721771497210611414266254884915640806627990306816, 1345, 1, 13407807929942597099574024998205846127479365820592393377723561443721764030073546976801874298166903427690031858186486050853753882811946569946433649006084096, 1352, 1, 726838724295606890549323807888004534353641360687318060281490199180639288113397923326191050713763565560762521606266177933534601628614656])), (34, (dd [1144, 1, 6277101735386680763835789423207666416102355444464034512896, 1160, 1, 115792089237316195423570985008687907853269984665640564039457584007913129639936, 1240, 1, 2135987035920910082395021706169552114602704522356652769947041607822219725780640550022962086936576, 1256, 1, 39402006196394479212279040100143613805079739270465446667948293404245721771497210611414266254884915640806627990306816, 1336, 1, 726838724295606890549323807888004534353641360687318060281490199180639288113397923326191050713763565560762521606266177933534601628614656, 1345, 1, 247330401473104534060502521019647190035131349101211839914063056092897225106531867170316401061243044989597671426016139339351365034306751209967546155101893167916606772148699136, 1352, 1, 13407807929942597099574024998205846127479365820592393377723561443721764030073546976801874298166903427690031858186486050853753882811946569946433649006084096])), (33, (dd [1144, 1, 115792089237316195423570985008687907853269984665640564039457584007913129639936, 1160, 1, 2135987035920910082395021706169552114602704522356652769947041607822219725780640550022962086936576, 1240, 1, 39402006196394479212279040100143613805079739270465446667948293404245721771497210611414266254884915640806627990306816, 1256, 1, 726838724295606890549323807888004534353641360687318060281490199180639288113397923326191050713763565560762521606266177933534601628614656, 1336, 1, 13407807929942597099574024998205846127479365820592393377723561443721764030073546976801874298166903427690031858186486050853753882811946569946433649006084096, 1345, 1, 4562440617622195218641171605700291324893228507248559930579192517899275167208677386505912811317371399778642309573594407310688704721375437998252661319722214188251994674360264950082874192246603776, 1352, 1, 247330401473104534060502521019647190035131349101211839914063056092897225106531867170316401061243044989597671426016139339351365034306751209967546155101893167916606772148699136])), (32, (dd [1144, 1, 2135987035920910082395021706169552114602704522356652769947041607822219725780640550022962086936576, 1160, 1, 39402006196394479212279040100143613805079739270465446667948293404245721771497210611414266254884915640806627990306816, 1240, 1, 726838724295606890549323807888004534353641360687318060281490199180639288113397923326191050713763565560762521606266177933534601628614656, 1256, 1, 13407807929942597099574024998205846127479365820592393377723561443721764030073546976801874298166903427690031858186486050853753882811946569946433649006084096, 1336, 1, 247330401473104534060502521019647190035131349101211839914063056092897225106531867170316401061243044989597671426016139339351365034306751209967546155101893167916606772148699136, 1345, 1, 84162174424773976115855838126082058648805436845170781751972494449099714468753293153818664580441415219631727501698851483408310916002940861810045036330430093599283578738055113571066620126149163476340692027772502016, 1352, 1, 4562440617622195218641171605700291324893228507248559930579192517899275167208677386505912811317371399778642309573594407310688704721375437998252661319722214188251994674360264950082874192246603776])), (31, (dd [1448, 1, 6277101735386680763835789423207666416102355444464034512896, 1464, 1, 115792089237316195423570985008687907853269984665640564039457584007913129639936, 1544, 1, 2135987035920910082395021706169552114602704522356652769947041607822219725780640550022962086936576, 1560, 1, 6277101735386680763835789423207666416102355444464034512896, 1640, 1, 115792089237316195423570985008687907853269984665640564039457584007913129639936, 1656, 1, 2135987035920910082395021706169552114602704522356652769947041607822219725780640550022962086936576])), (30, (dd [1448, 1, 115792089237316195423570985008687907853269984665640564039457584007913129639936, 1464, 1, 2135987035920910082395021706169552114602704522356652769947041607822219725780640550022962086936576, 1544, 1, 39402006196394479212279040100143613805079739270465446667948293404245721771497210611414266254884915640806627990306816, 1560, 1, 115792089237316195423570985008687907853269984665640564039457584007913129639936, 1640, 1, 2135987035920910082395021706169552114602704522356652769947041607822219725780640550022962086936576, 1656, 1, 39402006196394479212279040100143613805079739270465446667948293404245721771497210611414266254884915640806627990306816])), (29, (dd [1448, 1, 2135987035920910082395021706169552114602704522356652769947041607822219725780640550022962086936576, 1464, 1, 39402006196394479212279040100143613805079739270465446667948293404245721771497210611414266254884915640806627990306816, 1544, 1, 726838724295606890549323807888004534353641360687318060281490199180639288113397923326191050713763565560762521606266177933534601628614656, 1560, 1, 2135987035920910082395021706169552114602704522356652769947041607822219725780640550022962086936576, 1640, 1, 39402006196394479212279040100143613805079739270465446667948293404245721771497210611414266254884915640806627990306816, 1656, 1, 726838724295606890549323807888004534353641360687318060281490199180639288113397923326191050713763565560762521606266177933534601628614656])), (28, (dd [2232, 1, 6277101735386680763835789423207666416102355444464034512896, 2248, 1, 115792089237316195423570985008687907853269984665640564039457584007913129639936, 2257, 1, 39402006196394479212279040100143613805079739270465446667948293404245721771497210611414266254884915640806627990306816, 2264, 1, 2135987035920910082395021706169552114602704522356652769947041607822219725780640550022962086936576])), (27, (dd [2232, 1, 115792089237316195423570985008687907853269984665640564039457584007913129639936, 2248, 1, 2135987035920910082395021706169552114602704522356652769947041607822219725780640550022962086936576, 2257, 1, 726838724295606890549323807888004534353641360687318060281490199180639288113397923326191050713763565560762521606266177933534601628614656, 2264, 1, 39402006196394479212279040100143613805079739270465446667948293404245721771497210611414266254884915640806627990306816])), (26, (dd [2232, 1, 2135987035920910082395021706169552114602704522356652769947041607822219725780640550022962086936576, 2248, 1, 39402006196394479212279040100143613805079739270465446667948293404245721771497210611414266254884915640806627990306816, 2257, 1, 13407807929942597099574024998205846127479365820592393377723561443721764030073546976801874298166903427690031858186486050853753882811946569946433649006084096, 2264, 1, 726838724295606890549323807888004534353641360687318060281490199180639288113397923326191050713763565560762521606266177933534601628614656])), (25, (dd [296, 0, 6277101735386680763835789423207666416102355444464034512896, 304, 0, 115792089237316195423570985008687907853269984665640564039457584007913129639936, 312, 0, 2135987035920910082395021706169552114602704522356652769947041607822219725780640550022962086936576, 320, 0, 6277101735386680763835789423207666416102355444464034512896, 328, 0, 115792089237316195423570985008687907853269984665640564039457584007913129639936, 336, 0, 2135987035920910082395021706169552114602704522356652769947041607822219725780640550022962086936576])), (24, (dd [296, 0, 115792089237316195423570985008687907853269984665640564039457584007913129639936, 304, 0, 2135987035920910082395021706169552114602704522356652769947041607822219725780640550022962086936576, 312, 0, 39402006196394479212279040100143613805079739270465446667948293404245721771497210611414266254884915640806627990306816, 320, 0, 115792089237316195423570985008687907853269984665640564039457584007913129639936, 328, 0, 2135987035920910082395021706169552114602704522356652769947041607822219725780640550022962086936576, 336, 0, 39402006196394479212279040100143613805079739270465446667948293404245721771497210611414266254884915640806627990306816])), (23, (dd [296, 0, 2135987035920910082395021706169552114602704522356652769947041607822219725780640550022962086936576, 304, 0, 39402006196394479212279040100143613805079739270465446667948293404245721771497210611414266254884915640806627990306816, 312, 0, 726838724295606890549323807888004534353641360687318060281490199180639288113397923326191050713763565560762521606266177933534601628614656, 320, 0, 2135987035920910082395021706169552114602704522356652769947041607822219725780640550022962086936576, 328, 0, 39402006196394479212279040100143613805079739270465446667948293404245721771497210611414266254884915640806627990306816, 336, 0, 726838724295606890549323807888004534353641360687318060281490199180639288113397923326191050713763565560762521606266177933534601628614656])), (22, (dd [5816, 0, 6277101735386680763835789423207666416102355444464034512896, 5832, 0, 115792089237316195423570985008687907853269984665640564039457584007913129639936, 5841, 0, 39402006196394479212279040100143613805079739270465446667948293404245721771497210611414266254884915640806627990306816, 5848, 0, 2135987035920910082395021706169552114602704522356652769947041607822219725780640550022962086936576])), (21, (dd [5816, 0, 115792089237316195423570985008687907853269984665640564039457584007913129639936, 5832, 0, 2135987035920910082395021706169552114602704522356652769947041607822219725780640550022962086936576, 5841, 0, 726838724295606890549323807888004534353641360687318060281490199180639288113397923326191050713763565560762521606266177933534601628614656, 5848, 0, 39402006196394479212279040100143613805079739270465446667948293404245721771497210611414266254884915640806627990306816])), (20, (dd [5816, 0, 2135987035920910082395021706169552114602704522356652769947041607822219725780640550022962086936576, 5832, 0, 39402006196394479212279040100143613805079739270465446667948293404245721771497210611414266254884915640806627990306816, 5841, 0, 13407807929942597099574024998205846127479365820592393377723561443721764030073546976801874298166903427690031858186486050853753882811946569946433649006084096, 5848, 0, 726838724295606890549323807888004534353641360687318060281490199180639288113397923326191050713763565560762521606266177933534601628614656])), (13, (dd [0, 0, 247330401473104534060502521019647190035131349101211839914063056092897225106531867170316401061243044989597671426016139339351365034306751209967546155101893167916606772148699136])), (12, (dd [0, 1, 247330401473104534060502521019647190035131349101211839914023654086700830627319588130216257447437965250327205979348191045947119312535253999356131888847008252275800144158392320])), (11, (dd [0, 0, 4562440617622195218641171605700291324893228507248559930579192517899275167208677386505912811317371399778642309573594407310688704721375437998252661319722214188251994674360264950082874192246603776])), (10, (dd [0, 0, 4562440617622195218641171605700291324893228507248559930579192517899275167208677386505912811317371399778642309573594407310688704721375437998252661319722214188251994674360264950082874192246603776])), (9, (dd [0, 0, 1552518092300708935148979488462502555256886017116696611138804707624577848152316383809858761638611346601386518857217010150078682819008282524273970873979938094214857304594833766210913920597291693615295453038614575582976240081667358720])), (8, (dd [0, 0, 4562440617622195218641171605700291324893228507248559930579192517899275167208677386505912811317371399778642309573594407310688704721375437998252661319722214188251994674360264950082874192246603776])), (7, (dd [0, 0, 1552518092300708935148979488462502555256886017116696611139052038026050952686376886330878408828646477950487730697131073206171580044114814391444287275041181139204454976020849905550265285631598444825262999193716468750892846853816057856])), (6, (dd [0, 1, 247330401473104534060502521019647190035131349101211839914063056092897225106531867170316401061243044989597671426016139339351365034306751209967546155101893167916606772148699136])), (5, (dd [0, 0, 247330401473104534060502521019647190035131349101211839914023654086700830627319588130216257447437965250327205979348191045947119312535253999356131888847008252275800144158392320])), (4, (dd [0, 1, 4562440617622195218641171605700291324893228507248559930579192517899275167208677386505912811317371399778642309573594407310688704721375437998252661319722214188251994674360264950082874192246603776])), (3, (dd [0, 1, 4562440617622195218641171605700291324893228507248559930579192517899275167208677386505912811317371399778642309573594407310688704721375437998252661319722214188251994674360264950082874192246603776])), (2, (dd [0, 1, 1552518092300708935148979488462502555256886017116696611138804707624577848152316383809858761638611346601386518857217010150078682819008282524273970873979938094214857304594833766210913920597291693615295453038614575582976240081667358720])), (1, (dd [0, 1, 4562440617622195218641171605700291324893228507248559930579192517899275167208677386505912811317371399778642309573594407310688704721375437998252661319722214188251994674360264950082874192246603776])), (0, (dd [0, 1, 1552518092300708935148979488462502555256886017116696611139052038026050952686376886330878408828646477950487730697131073206171580044114814391444287275041181139204454976020849905550265285631598444825262999193716468750892846853816057856]))]⟩, ⟨[204, 203, 202, 178, 177, 176, 175, 174, 173, 172, 171, 170, 169, 168, 167, 166], (dd [9729, 0, 1]), [(44, (dd [296, 1, 6277101735386680763835789423207666416102355444464034512896, 304, 1, 115792089237316195423570985008687907853269984665640564039457584007913129639936, 312, 1, 2135987035920910082395021706169552114602704522356652769947041607822219725780640550022962086936576, 320, 1, 39402006196394479212279040100143613805079739270465446667948293404245721771497210611414266254884915640806627990306816, 328, 1, 726838724295606890549323807888004534353641360687318060281490199180639288113397923326191050713763565560762521606266177933534601628614656, 336, 1, 13407807929942597099574024998205846127479365820592393377723561443721764030073546976801874298166903427690031858186486050853753882811946569946433649006084096, 344, 1, 6277101735386680763835789423207666416102355444464034512896, 352, 1, 115792089237316195423570985008687907853269984665640564039457584007913129639936, 360, 1, 2135987035920910082395021706169552114602704522356652769947041607822219725780640550022962086936576, 368, 1, 39402006196394479212279040100143613805079739270465446667948293404245721771497210611414266254884915640806627990306816, 376, 1, 726838724295606890549323807888004534353641360687318060281490199180639288113397923326191050713763565560762521606266177933534601628614656, 384, 1, 13407807929942597099574024998205846127479365820592393377723561443721764030073546976801874298166903427690031858186486050853753882811946569946433649006084096])), (43, (dd [296, 1, 115792089237316195423570985008687907853269984665640564039457584007913129639936, 304, 1, 2135987035920910082395021706169552114602704522356652769947041607822219725780640550022962086936576, 312, 1, 39402006196394479212279040100143613805079739270465446667948293404245721771497210611414266254884915640806627990306816, 320, 1, 726838724295606890549323807888004534353641360687318060281490199180639288113397923326191050713763565560762521606266177933534601628614656, 328, 1, 13407807929942597099574024998205846127479365820592393377723561443721764030073546976801874298166903427690031858186486050853753882811946569946433649006084096, 336, 1, 247330401473104534060502521019647190035131349101211839914063056092897225106531867170316401061243044989597671426016139339351365034306751209967546155101893167916606772148699136, 344, 1, 115792089237316195423570985008687907853269984665640564039457584007913129639936, 352, 1, 2135987035920910082395021706169552114602704522356652769947041607822219725780640550022962086936576, 360, 1, 39402006196394479212279040100143613805079739270465446667948293404245721771497210611414266254884915640806627990306816, 368, 1, 726838724295606890549323807888004534353641360687318060281490199180639288113397923326191050713763565560762521606266177933534601628614656, 376, 1, 13407807929942597099574024998205846127479365820592393377723561443721764030073546976801874298166903427690031858186486050853753882811946569946433649006084096, 384, 1, 247330401473104534060502521019647190035131349101211839914063056092897225106531867170316401061243044989597671426016139339351365034306751209967546155101893167916606772148699136])), (42, (dd [296, 1, 2135987035920910082395021706169552114602704522356652769947041607822219725780640550022962086936576, 304, 1, 39402006196394479212279040100143613805079739270465446667948293404245721771497210611414266254884915640806627990306816, 312, 1, 726838724295606890549323807888004534353641360687318060281490199180639288113397923326191050713763565560762521606266177933534601628614656, 320, 1, 13407807929942597099574024998205846127479365820592393377723561443721764030073546976801874298166903427690031858186486050853753882811946569946433649006084096, 328, 1, 247330401473104534060502521019647190035131349101211839914063056092897225106531867170316401061243044989597671426016139339351365034306751209967546155101893167916606772148699136, 336, 1, 4562440617622195218641171605700291324893228507248559930579192517899275167208677386505912811317371399778642309573594407310688704721375437998252661319722214188251994674360264950082874192246603776, 344, 1, 2135987035920910082395021706169552114602704522356652769947041607822219725780640550022962086936576, 352, 1, 39402006196394479212279040100143613805079739270465446667948293404245721771497210611414266254884915640806627990306816, 360, 1, 726838724295606890549323807888004534353641360687318060281490199180639288113397923326191050713763565560762521606266177933534601628614656, 368, 1, 13407807929942597099574024998205846127479365820592393377723561443721764030073546976801874298166903427690031858186486050853753882811946569946433649006084096, 376, 1, 247330401473104534060502521019647190035131349101211839914063056092897225106531867170316401061243044989597671426016139339351365034306751209967546155101893167916606772148699136, 384, 1, 4562440617622195218641171605700291324893228507248559930579192517899275167208677386505912811317371399778642309573594407310688704721375437998252661319722214188251994674360264950082874192246603776])), (41, (dd [296, 1, 39402006196394479212279040100143613805079739270465446667948293404245721771497210611414266254884915640806627990306816, 304, 1, 726838724295606890549323807888004534353641360687318060281490199180639288113397923326191050713763565560762521606266177933534601628614656, 312, 1, 13407807929942597099574024998205846127479365820592393377723561443721764030073546976801874298166903427690031858186486050853753882811946569946433649006084096, 320, 1, 247330401473104534060502521019647190035131349101211839914063056092897225106531867170316401061243044989597671426016139339351365034306751209967546155101893167916606772148699136, 328, 1, 4562440617622195218641171605700291324893228507248559930579192517899275167208677386505912811317371399778642309573594407310688704721375437998252661319722214188251994674360264950082874192246603776, 336, 1, 84162174424773976115855838126082058648805436845170781751972494449099714468753293153818664580441415219631727501698851483408310916002940861810045036330430093599283578738055113571066620126149163476340692027772502016, 344, 1, 39402006196394479212279040100143613805079739270465446667948293404245721771497210611414266254884915640806627990306816, 352, 1, 726838724295606890549323807888004534353641360687318060281490199180639288113397923326191050713763565560762521606266177933534601628614656, 360, 1, 13407807929942597099574024998205846127479365820592393377723561443721764030073546976801874298166903427690031858186486050853753882811946569946433649006084096, 368, 1, 247330401473104534060502521019647190035131349101211839914063056092897225106531867170316401061243044989597671426016139339351365034306751209967546155101893167916606772148699136, 376, 1, 4562440617622195218641171605700291324893228507248559930579192517899275167208677386505912811317371399778642309573594407310688704721375437998252661319722214188251994674360264950082874192246603776, 384, 1, 84162174424773976115855838126082058648805436845170781751972494449099714468753293153818664580441415219631727501698851483408310916002940861810045036330430093599283578738055113571066620126149163476340692027772502016])), (40, (dd [296, 1, 726838724295606890549323807888004534353641360687318060281490199180639288113397923326191050713763565560762521606266177933534601628614656, 304, 1, 13407807929942597099574024998205846127479365820592393377723561443721764030073546976801874298166903427690031858186486050853753882811946569946433649006084096, 312, 1, 247330401473104534060502521019647190035131349101211839914063056092897225106531867170316401061243044989597671426016139339351365034306751209967546155101893167916606772148699136, 320, 1, 4562440617622195218641171605700291324893228507248559930579192517899275167208677386505912811317371399778642309573594407310688704721375437998252661319722214188251994674360264950082874192246603776, 328, 1, 84162174424773976115855838126082058648805436845170781751972494449099714468753293153818664580441415219631727501698851483408310916002940861810045036330430093599283578738055113571066620126149163476340692027772502016, 336, 1, 1552518092300708935148979488462502555256886017116696611139052038026050952686376886330878408828646477950487730697131073206171580044114814391444287275041181139204454976020849905550265285631598444825262999193716468750892846853816057856, 344, 1, 726838724295606890549323807888004534353641360687318060281490199180639288113397923326191050713763565560762521606266177933534601628614656, 352, 1, 13407807929942597099574024998205846127479365820592393377723561443721764030073546976801874298166903427690031858186486050853753882811946569946433649006084096, 360, 1, 247330401473104534060502521019647190035131349101211839914063056092897225106531867170316401061243044989597671426016139339351365034306751209967546155101893167916606772148699136, 368, 1, 4562440617622195218641171605700291324893228507248559930579192517899275167208677386505912811317371399778642309573594407310688704721375437998252661319722214188251994674360264950082874192246603776, 376, 1, 84162174424773976115855838126082058648805436845170781751972494449099714468753293153818664580441415219631727501698851483408310916002940861810045036330430093599283578738055113571066620126149163476340692027772502016, 384, 1, 1552518092300708935148979488462502555256886017116696611139052038026050952686376886330878408828646477950487730697131073206171580044114814391444287275041181139204454976020849905550265285631598444825262999193716468750892846853816057856])), (39, (dd [296, 1, 13407807929942597099574024998205846127479365820592393377723561443721764030073546976801874298166903427690031858186486050853753882811946569946433649006084096, 304, 1, 247330401473104534060502521019647190035131349101211839914063056092897225106531867170316401061243044989597671426016139339351365034306751209967546155101893167916606772148699136, 312, 1, 4562440617622195218641171605700291324893228507248559930579192517899275167208677386505912811317371399778642309573594407310688704721375437998252661319722214188251994674360264950082874192246603776, 320, 1, 84162174424773976115855838126082058648805436845170781751972494449099714468753293153818664580441415219631727501698851483408310916002940861810045036330430093599283578738055113571066620126149163476340692027772502016, 328, 1, 1552518092300708935148979488462502555256886017116696611139052038026050952686376886330878408828646477950487730697131073206171580044114814391444287275041181139204454976020849905550265285631598444825262999193716468750892846853816057856, 336, 1, 28638903918474961204418783933674838490721739172170652529441449702311064005352904159345284265824628375429359509218999720074396860757073376700445026041564579620512874307979212102266801261478978776245040008231745247475930553606737583615358787106474295296, 344, 1, 13407807929942597099574024998205846127479365820592393377723561443721764030073546976801874298166903427690031858186486050853753882811946569946433649006084096, 352, 1, 247330401473104534060502521019647190035131349101211839914063056092897225106531867170316401061243044989597671426016139339351365034306751209967546155101893167916606772148699136, 360, 1, 4562440617622195218641171605700291324893228507248559930579192517899275167208677386505912811317371399778642309573594407310688704721375437998252661319722214188251994674360264950082874192246603776, 368, 1, 84162174424773976115855838126082058648805436845170781751972494449099714468753293153818664580441415219631727501698851483408310916002940861810045036330430093599283578738055113571066620126149163476340692027772502016, 376, 1, 1552518092300708935148979488462502555256886017116696611139052038026050952686376886330878408828646477950487730697131073206171580044114814391444287275041181139204454976020849905550265285631598444825262999193716468750892846853816057856, 384, 1, 28638903918474961204418783933674838490721739172170652529441449702311064005352904159345284265824628375429359509218999720074396860757073376700445026041564579620512874307979212102266801261478978776245040008231745247475930553606737583615358787106474295296])), (38, (dd [1144, 1, 6277101735386680763835789423207666416102355444464034512896, 1160, 1, 115792089237316195423570985008687907853269984665640564039457584007913129639936, 1240, 1, 2135987035920910082395021706169552114602704522356652769947041607822219725780640550022962086936576, 1256, 1, 39402006196394479212279040100143613805079739270465446667948293404245721771497210611414266254884915640806627990306816, 1336, 1, 726838724295606890549323807888004534353641360687318060281490199180639288113397923326191050713763565560762521606266177933534601628614656, 1345, 1, 247330401473104534060502521019647190035131349101211839914063056092897225106531867170316401061243044989597671426016139339351365034306751209967546155101893167916606772148699136, 1352, 1, 13407807929942597099574024998205846127479365820592393377723561443721764030073546976801874298166903427690031858186486050853753882811946569946433649006084096])), (37, (dd [1144, 1, 115792089237316195423570985008687907853269984665640564039457584007913129639936, 1160, 1, 2135987035920910082395021706169552114602704522356652769947041607822219725780640550022962086936576, 1240, 1, 39402006196394479212279040100143613805079739270465446667948293404245721771497210611414266254884915640806627990306816, 1256, 1, 726838724295606890549323807888004534353641360687318060281490199180639288113397923326191050713763565560762521606266177933534601628614656, 1336, 1, 13407807929942597099574024998205846127479365820592393377723561443721764030073546976801874298166903427690031858186486050853753882811946569946433649006084096, 1345, 1, 4562440617622195218641171605700291324893228507248559930579192517899275167208677386505912811317371399778642309573594407310688704721375437998252661319722214188251994674360264950082874192246603776, 1352, 1, 247330401473104534060502521019647190035131349101211839914063056092897225106531867170316401061243044989597671426016139339351365034306751209967546155101893167916606772148699136])), (36, (dd [1144, 1, 2135987035920910082395021706169552114602704522356652769947041607822219725780640550022962086936576, 1160, 1, 39402006196394479212279040100143613805079739270465446667948293404245721771497210611414266254884915640806627990306816, 1240, 1, 726838724295606890549323807888004534353641360687318060281490199180639288113397923326191050713763565560762521606266177933534601628614656, 1256, 1, 13407807929942597099574024998205846127479365820592393377723561443721764030073546976801874298166903427690031858186486050853753882811946569946433649006084096, 1336, 1, 247330401473104534060502521019647190035131349101211839914063056092897225106531867170316401061243044989597671426016139339351365034306751209967546155101893167916606772148699136, 1345, 1, 84162174424773976115855838126082058648805436845170781751972494449099714468753293153818664580441415219631727501698851483408310916002940861810045036330430093599283578738055113571066620126149163476340692027772502016, 1352, 1, 4562440617622195218641171605700291324893228507248559930579192517899275167208677386505912811317371399778642309573594407310688704721375437998252661319722214188251994674360264950082874192246603776])), (35, (dd [1144, 1, 39402006196394479212279040100143613805079739270465446667948293404245721771497210611414266254884915640806627990306816, 1160, 1, 726838724295606890549323807888004534353641360687318060281490199180639288113397923326191050713763565560762521606266177933534601628614656, 1240, 1, 13407807929942597099574024998205846127479365820592393377723561443721764030073546976801874298166903427690031858186486050853753882811946569946433649006084096, 1256, 1, 247330401473104534060502521019647190035131349101211839914063056092897225106531867170316401061243044989597671426016139339351365034306751209967546155101893167916606772148699136, 1336, 1, 4562440617622195218641171605700291324893228507248559930579192517899275167208677386505912811317371399778642309573594407310688704721375437998252661319722214188251994674360264950082874192246603776, 1345, 1, 1552518092300708935148979488462502555256886017116696611139052038026050952686376886330878408828646477950487730697131073206171580044114814391444287275041181139204454976020849905550265285631598444825262999193716468750892846853816057856, 1352, 1, 84162174424773976115855838126082058648805436845170781751972494449099714468753293153818664580441415219631727501698851483408310916002940861810045036330430093599283578738055113571066620126149163476340692027772502016])), (34, (dd [1144, 1, 726838724295606890549323807888004534353641360687318060281490199180639288113397923326191050713763565560762521606266177933534601628614656, 1160, 1, 13407807929942597099574024998205846127479365820592393377723561443721764030073546976801874298166903427690031858186486050853753882811946569946433649006084096, 1240, 1, 247330401473104534060502521019647190035131349101211839914063056092897225106531867170316401061243044989597671426016139339351365034306751209967546155101893167916606772148699136, 1256, 1, 4562440617622195218641171605700291324893228507248559930579192517899275167208677386505912811317371399778642309573594407310688704721375437998252661319722214188251994674360264950082874192246603776, 1336, 1, 84162174424773976115855838126082058648805436845170781751972494449099714468753293153818664580441415219631727501698851483408310916002940861810045036330430093599283578738055113571066620126149163476340692027772502016, 1345, 1, 28638903918474961204418783933674838490721739172170652529441449702311064005352904159345284265824628375429359509218999720074396860757073376700445026041564579620512874307979212102266801261478978776245040008231745247475930553606737583615358787106474295296, 1352, 1, 1552518092300708935148979488462502555256886017116696611139052038026050952686376886330878408828646477950487730697131073206171580044114814391444287275041181139204454976020849905550265285631598444825262999193716468750892846853816057856])), (33, (dd [1144, 1, 13407807929942597099574024998205846127479365820592393377723561443721764030073546976801874298166903427690031858186486050853753882811946569946433649006084096, 1160, 1, 247330401473104534060502521019647190035131349101211839914063056092897225106531867170316401061243044989597671426016139339351365034306751209967546155101893167916606772148699136, 1240, 1, 4562440617622195218641171605700291324893228507248559930579192517899275167208677386505912811317371399778642309573594407310688704721375437998252661319722214188251994674360264950082874192246603776, 1256, 1, 84162174424773976115855838126082058648805436845170781751972494449099714468753293153818664580441415219631727501698851483408310916002940861810045036330430093599283578738055113571066620126149163476340692027772502016, 1336, 1, 1552518092300708935148979488462502555256886017116696611139052038026050952686376886330878408828646477950487730697131073206171580044114814391444287275041181139204454976020849905550265285631598444825262999193716468750892846853816057856, 1345, 1, 528294531135665246352339784916516606518847326036121522127960709026673902556724859474417255887657187894674394993257128678882347559502685537250538978462939576908386683999005084168731517676426441053024232908211188404148028292751561738838396898767036476489538580897737998336, 1352, 1, 28638903918474961204418783933674838490721739172170652529441449702311064005352904159345284265824628375429359509218999720074396860757073376700445026041564579620512874307979212102266801261478978776245040008231745247475930553606737583615358787106474295296])), (32, (dd [1448, 1, 39402006196394479212279040100143613805079739270465446667948293404245721771497210611414266254884915640806627990306816, 1464, 1, 726838724295606890549323807888004534353641360687318060281490199180639288113397923326191050713763565560762521606266177933534601628614656, 1544, 1, 13407807929942597099574024998205846127479365820592393377723561443721764030073546976801874298166903427690031858186486050853753882811946569946433649006084096, 1560, 1, 39402006196394479212279040100143613805079739270465446667948293404245721771497210611414266254884915640806627990306816, 1640, 1, 726838724295606890549323807888004534353641360687318060281490199180639288113397923326191050713763565560762521606266177933534601628614656, 1656, 1, 13407807929942597099574024998205846127479365820592393377723561443721764030073546976801874298166903427690031858186486050853753882811946569946433649006084096])), (31, (dd [1448, 1, 726838724295606890549323807888004534353641360687318060281490199180639288113397923326191050713763565560762521606266177933534601628614656, 1464, 1, 13407807929942597099574024998205846127479365820592393377723561443721764030073546976801874298166903427690031858186486050853753882811946569946433649006084096, 1544, 1, 247330401473104534060502521019647190035131349101211839914063056092897225106531867170316401061243044989597671426016139339351365034306751209967546155101893167916606772148699136, 1560, 1, 726838724295606890549323807888004534353641360687318060281490199180639288113397923326191050713763565560762521606266177933534601628614656, 1640, 1, 13407807929942597099574024998205846127479365820592393377723561443721764030073546976801874298166903427690031858186486050853753882811946569946433649006084096, 1656, 1, 247330401473104534060502521019647190035131349101211839914063056092897225106531867170316401061243044989597671426016139339351365034306751209967546155101893167916606772148699136])), (30, (dd [1448, 1, 13407807929942597099574024998205846127479365820592393377723561443721764030073546976801874298166903427690031858186486050853753882811946569946433649006084096, 1464, 1, 247330401473104534060502521019647190035131349101211839914063056092897225106531867170316401061243044989597671426016139339351365034306751209967546155101893167916606772148699136, 1544, 1, 4562440617622195218641171605700291324893228507248559930579192517899275167208677386505912811317371399778642309573594407310688704721375437998252661319722214188251994674360264950082874192246603776, 1560, 1, 13407807929942597099574024998205846127479365820592393377723561443721764030073546976801874298166903427690031858186486050853753882811946569946433649006084096, 1640, 1, 247330401473104534060502521019647190035131349101211839914063056092897225106531867170316401061243044989597671426016139339351365034306751209967546155101893167916606772148699136, 1656, 1, 4562440617622195218641171605700291324893228507248559930579192517899275167208677386505912811317371399778642309573594407310688704721375437998252661319722214188251994674360264950082874192246603776])), (29, (dd [2232, 1, 39402006196394479212279040100143613805079739270465446667948293404245721771497210611414266254884915640806627990306816, 2248, 1, 726838724295606890549323807888004534353641360687318060281490199180639288113397923326191050713763565560762521606266177933534601628614656, 2257, 1, 247330401473104534060502521019647190035131349101211839914063056092897225106531867170316401061243044989597671426016139339351365034306751209967546155101893167916606772148699136, 2264, 1, 13407807929942597099574024998205846127479365820592393377723561443721764030073546976801874298166903427690031858186486050853753882811946569946433649006084096])), (28, (dd [2232, 1, 726838724295606890549323807888004534353641360687318060281490199180639288113397923326191050713763565560762521606266177933534601628614656, 2248, 1, 13407807929942597099574024998205846127479365820592393377723561443721764030073546976801874298166903427690031858186486050853753882811946569946433649006084096, 2257, 1, 4562440617622195218641171605700291324893228507248559930579192517899275167208677386505912811317371399778642309573594407310688704721375437998252661319722214188251994674360264950082874192246603776, 2264, 1, 247330401473104534060502521019647190035131349101211839914063056092897225106531867170316401061243044989597671426016139339351365034306751209967546155101893167916606772148699136])), (27, (dd [2232, 1, 13407807929942597099574024998205846127479365820592393377723561443721764030073546976801874298166903427690031858186486050853753882811946569946433649006084096, 2248, 1, 247330401473104534060502521019647190035131349101211839914063056092897225106531867170316401061243044989597671426016139339351365034306751209967546155101893167916606772148699136, 2257, 1, 84162174424773976115855838126082058648805436845170781751972494449099714468753293153818664580441415219631727501698851483408310916002940861810045036330430093599283578738055113571066620126149163476340692027772502016, 2264, 1, 4562440617622195218641171605700291324893228507248559930579192517899275167208677386505912811317371399778642309573594407310688704721375437998252661319722214188251994674360264950082874192246603776])), (26, (dd [296, 0, 39402006196394479212279040100143613805079739270465446667948293404245721771497210611414266254884915640806627990306815, 304, 0, 726838724295606890549323807888004534353641360687318060281490199180639288113397923326191050713763565560762521606266159486790527919063040, 312, 0, 13407807929942597099574024998205846127479365820592393377723561443721764030073546976801874298166903427690031858186485710571386961873483106571826217237872640, 320, 0, 39402006196394479212279040100143613805079739270465446667948293404245721771497210611414266254884915640806627990306815, 328, 0, 726838724295606890549323807888004534353641360687318060281490199180639288113397923326191050713763565560762521606266159486790527919063040, 336, 0, 13407807929942597099574024998205846127479365820592393377723561443721764030073546976801874298166903427690031858186485710571386961873483106571826217237872640])), (25, (dd [296, 0, 726838724295606890549323807888004534353641360687318060281490199180639288113397923326191050713763565560762521606266159486790527919063040, 304, 0, 13407807929942597099574024998205846127479365820592393377723561443721764030073546976801874298166903427690031858186485710571386961873483106571826217237872640, 312, 0, 247330401473104534060502521019647190035131349101211839914063056092897225106531867170316401061243044989597671426016133062249629647625987374178122947435477065561162308114186240, 320, 0, 726838724295606890549323807888004534353641360687318060281490199180639288113397923326191050713763565560762521606266159486790527919063040, 328, 0, 13407807929942597099574024998205846127479365820592393377723561443721764030073546976801874298166903427690031858186485710571386961873483106571826217237872640, 336, 0, 247330401473104534060502521019647190035131349101211839914063056092897225106531867170316401061243044989597671426016133062249629647625987374178122947435477065561162308114186240])), (24, (dd [296, 0, 13407807929942597099574024998205846127479365820592393377723561443721764030073546976801874298166903427690031858186485710571386961873483106571826217237872640, 304, 0, 247330401473104534060502521019647190035131349101211839914063056092897225106531867170316401061243044989597671426016133062249629647625987374178122947435477065561162308114186240, 312, 0, 4562440617622195218641171605700291324893228507248559930579192517899275167208677386505912811317371399778642309573594291518599467405180014427267652631814360918267329033796225492498866279116963840, 320, 0, 13407807929942597099574024998205846127479365820592393377723561443721764030073546976801874298166903427690031858186485710571386961873483106571826217237872640, 328, 0, 247330401473104534060502521019647190035131349101211839914063056092897225106531867170316401061243044989597671426016133062249629647625987374178122947435477065561162308114186240, 336, 0, 4562440617622195218641171605700291324893228507248559930579192517899275167208677386505912811317371399778642309573594291518599467405180014427267652631814360918267329033796225492498866279116963840])), (23, (dd [5816, 0, 39402006196394479212279040100143613805079739270465446667948293404245721771497210611414266254884915640806627990306815, 5832, 0, 726838724295606890549323807888004534353641360687318060281490199180639288113397923326191050713763565560762521606266159486790527919063040, 5841, 0, 247330401473104534060502521019647190035131349101211839914063056092897225106531867170316401061243044989597671426016133062249629647625987374178122947435477065561162308114186240, 5848, 0, 13407807929942597099574024998205846127479365820592393377723561443721764030073546976801874298166903427690031858186485710571386961873483106571826217237872640])), (22, (dd [5816, 0, 726838724295606890549323807888004534353641360687318060281490199180639288113397923326191050713763565560762521606266159486790527919063040, 5832, 0, 13407807929942597099574024998205846127479365820592393377723561443721764030073546976801874298166903427690031858186485710571386961873483106571826217237872640, 5841, 0, 4562440617622195218641171605700291324893228507248559930579192517899275167208677386505912811317371399778642309573594291518599467405180014427267652631814360918267329033796225492498866279116963840, 5848, 0, 247330401473104534060502521019647190035131349101211839914063056092897225106531867170316401061243044989597671426016133062249629647625987374178122947435477065561162308114186240])), (21, (dd [5816, 0, 13407807929942597099574024998205846127479365820592393377723561443721764030073546976801874298166903427690031858186485710571386961873483106571826217237872640, 5832, 0, 247330401473104534060502521019647190035131349101211839914063056092897225106531867170316401061243044989597671426016133062249629647625987374178122947435477065561162308114186240, 5841, 0, 84162174424773976115855838126082058648805436845170781751972494449099714468753293153818664580441415219631727501698849347421274995092858466788338866778315490894761222085285166529458797906423382835790669065685565440, 5848, 0, 4562440617622195218641171605700291324893228507248559930579192517899275167208677386505912811317371399778642309573594291518599467405180014427267652631814360918267329033796225492498866279116963840])), (14, (dd [0, 0, 1552518092300708935148979488462502555256886017116696611139052038026050952686376886330878408828646477950487730697131073206171580044114814391444287275041181139204454976020849905550265285631598444825262999193716468750892846853816057856])), (13, (dd [0, 1, 1552518092300708935148979488462502555256886017116696611138804707624577848152316383809858761638611346601386518857217010150078682819008282524273970873979938094214857304594833766210913920597291693615295453038614575582976240081667358720])), (12, (dd [0, 0, 28638903918474961204418783933674838490721739172170652529441449702311064005352904159345284265824628375429359509218999720074396860757073376700445026041564579620512874307979212102266801261478978776245040008231745247475930553606737583615358787106474295296])), (11, (dd [0, 0, 28638903918474961204418783933674838490721739172170652529441449702311064005352904159345284265824628375429359509218999720074396860757073376700445026041564579620512874307979212102266801261478978776245040008231745247475930553606737583615358787106474295296])), (10, (dd [0, 0, 9745314011399999080353382387875188310876226857595007526866353939120647981831277122977152563326753373208188219620269616145433118912516717160247108887484006941580789969259341956664618075445938833961355306204177197734481142949374025040196098329837367168002475803910561078330935743138098053120])), (9, (dd [0, 0, 28638903918474961204418783933674838490721739172170652529441449702311064005352904159345284265824628375429359509218999720074396860757073376700445026041564579620512874307979212102266801261478978776245040008231745247475930553606737583615358787106474295296])), (8, (dd [0, 0, 9745314011399999080353382387875188310876226857595007526867906457212948690766426102465615065882010259225304916231408668183459169865203094046577987296312653419531277699956473029870789655490053648352799593479218378873685597925394874945746363615468965612827738803104277547081828589991914110976])), (7, (dd [0, 1, 1552518092300708935148979488462502555256886017116696611139052038026050952686376886330878408828646477950487730697131033804165383649635602112404187131427376059465184510574181957256861039909826947614651584927461583835252040225825751040])), (6, (dd [0, 0, 1552518092300708935148979488462502555256886017116696611138804707624577848152316383809858761638611346601386518857216970748072486424529070245233870730366133014475586839148165824194611410262200960240473461980026106769690877917711564800])), (5, (dd [0, 1, 28638903918474961204418783933674838490721739172170652529441449702311064005352904159345284265824628375429359509218998993235672565150182827376637138037030225979152186989918930612067620622190865378321713817181031483910369791085131317437425252504845680640])), (4, (dd [0, 1, 28638903918474961204418783933674838490721739172170652529441449702311064005352904159345284265824628375429359509218998993235672565150182827376637138037030225979152186989918930612067620622190865378321713817181031483910369791085131317437425252504845680640])), (3, (dd [0, 1, 9745314011399999080353382387875188310876226857595007526866353939120647981831277122977152563326753373208188219620269368815031645807982656657726089240293971810231688757419427933010531374615311514373225089946729759769230815743394676849150151210524831914003119672021714070078659942993939660800])), (2, (dd [0, 1, 28638903918474961204418783933674838490721739172170652529441449702311064005352904159345284265824628375429359509218998993235672565150182827376637138037030225979152186989918930612067620622190865378321713817181031483910369791085131317437425252504845680640])), (1, (dd [0, 1, 9745314011399999080353382387875188310876226857595007526867906457212948690766426102465615065882010259225304916231408420853057696760669033544056967649122618288182176488116558966814696758264947116485629277078157135828696000253968858806407012250434658861617771256949175653913911983219765411840])), (0, (dd [0, 0, 179769313486231590772930519078902473361797697894230657273430081157732675805500963132708477322407536021120113879871393357658789768814416622492847430639474124377767893424865485276302219601246094119453082952085005768838150682342462881473913110540827237163350510684586298239947245938479716304835356329624224137216]))]⟩, ⟨[132, 124, 121, 120], (dd [10961, 0, 1]), []⟩, ⟨[96, 88, 85, 84], (dd [11729, 0, 1]), []⟩, ⟨[83, 82, 81, 80, 79, 78, 77], (dd [11937, 1, 1]), [(23, (dd [344, 1, 1, 352, 1, 18446744073709551616, 360, 1, 340282366920938463463374607431768211456, 368, 1, 1, 376, 1, 18446744073709551616, 384, 1, 340282366920938463463374607431768211456])), (22, (dd [344, 1, 18446744073709551616, 352, 1, 340282366920938463463374607431768211456, 360, 1, 6277101735386680763835789423207666416102355444464034512896, 368, 1, 18446744073709551616, 376, 1, 340282366920938463463374607431768211456, 384, 1, 6277101735386680763835789423207666416102355444464034512896])), (21, (dd [344, 1, 340282366920938463463374607431768211456, 352, 1, 6277101735386680763835789423207666416102355444464034512896, 360, 1, 115792089237316195423570985008687907853269984665640564039457584007913129639936, 368, 1, 340282366920938463463374607431768211456, 376, 1, 6277101735386680763835789423207666416102355444464034512896, 384, 1, 115792089237316195423570985008687907853269984665640564039457584007913129639936])), (20, (dd [9944, 1, 1, 9960, 1, 18446744073709551616, 9969, 1, 6277101735386680763835789423207666416102355444464034512896, 9976, 1, 340282366920938463463374607431768211456])), (19, (dd [9944, 1, 18446744073709551616, 9960, 1, 340282366920938463463374607431768211456, 9969, 1, 115792089237316195423570985008687907853269984665640564039457584007913129639936, 9976, 1, 6277101735386680763835789423207666416102355444464034512896])), (18, (dd [9944, 1, 340282366920938463463374607431768211456, 9960, 1, 6277101735386680763835789423207666416102355444464034512896, 9969, 1, 2135987035920910082395021706169552114602704522356652769947041607822219725780640550022962086936576, 9976, 1, 115792089237316195423570985008687907853269984665640564039457584007913129639936])), (1, (dd [0, 0, 39402006196394479212279040100143613805079739270465446667948293404245721771497210611414266254884915640806627990306816])), (0, (dd [0, 1, 39402006196394479212279040100143613805079739270465446667948293404245721771497210611414266254884915640806627990306816]))]⟩, ⟨[76, 75, 73, 71, 70, 69, 68], (dd [12161, 0, 1]), [(24, (dd [344, 1, 1, 352, 1, 18446744073709551616, 360, 1, 340282366920938463463374607431768211456, 368, 1, 1, 376, 1, 18446744073709551616, 384, 1, 340282366920938463463374607431768211456])), (23, (dd [344, 1, 18446744073709551616, 352, 1, 340282366920938463463374607431768211456, 360, 1, 6277101735386680763835789423207666416102355444464034512896, 368, 1, 18446744073709551616, 376, 1, 340282366920938463463374607431768211456, 384, 1, 6277101735386680763835789423207666416102355444464034512896])), (22, (dd [344, 1, 340282366920938463463374607431768211456, 352, 1, 6277101735386680763835789423207666416102355444464034512896, 360, 1, 115792089237316195423570985008687907853269984665640564039457584007913129639936, 368, 1, 340282366920938463463374607431768211456, 376, 1, 6277101735386680763835789423207666416102355444464034512896, 384, 1, 115792089237316195423570985008687907853269984665640564039457584007913129639936])), (21, (dd [9944, 1, 1, 9960, 1, 18446744073709551616, 9969, 1, 6277101735386680763835789423207666416102355444464034512896, 9976, 1, 340282366920938463463374607431768211456])), (20, (dd [9944, 1, 18446744073709551616, 9960, 1, 340282366920938463463374607431768211456, 9969, 1, 115792089237316195423570985008687907853269984665640564039457584007913129639936, 9976, 1, 6277101735386680763835789423207666416102355444464034512896])), (19, (dd [9944, 1, 340282366920938463463374607431768211456, 9960, 1, 6277101735386680763835789423207666416102355444464034512896, 9969, 1, 2135987035920910082395021706169552114602704522356652769947041607822219725780640550022962086936576, 9976, 1, 115792089237316195423570985008687907853269984665640564039457584007913129639936])), (2, (dd [0, 0, 39402006196394479212279040100143613805079739270465446667948293404245721771497210611414266254884915640806627990306816])), (1, (dd [0, 1, 39402006196394479212279040100143613805079739270465446667942016302510335090733374821991058588468813285362163955793920])), (0, (dd [0, 0, 726838724295606890549323807888004534353641360687318060281490199180639288113397923326191050713763565560762521606266177933534601628614656]))]⟩, ⟨[50, 42, 39, 38], (dd [12753, 0, 1]), []⟩, ⟨[37, 36, 35, 34, 33, 32, 31], (dd [12865, 1, 1]), [(26, (dd [344, 1, 1, 352, 1, 18446744073709551616, 360, 1, 340282366920938463463374607431768211456, 368, 1, 1, 376, 1, 18446744073709551616, 384, 1, 340282366920938463463374607431768211456])), (25, (dd [344, 1, 18446744073709551616, 352, 1, 340282366920938463463374607431768211456, 360, 1, 6277101735386680763835789423207666416102355444464034512896, 368, 1, 18446744073709551616, 376, 1, 340282366920938463463374607431768211456, 384, 1, 6277101735386680763835789423207666416102355444464034512896])), (24, (dd [344, 1, 340282366920938463463374607431768211456, 352, 1, 6277101735386680763835789423207666416102355444464034512896, 360, 1, 115792089237316195423570985008687907853269984665640564039457584007913129639936, 368, 1, 340282366920938463463374607431768211456, 376, 1, 6277101735386680763835789423207666416102355444464034512896, 384, 1, 115792089237316195423570985008687907853269984665640564039457584007913129639936])), (23, (dd [9944, 1, 1, 9960, 1, 18446744073709551616, 9969, 1, 6277101735386680763835789423207666416102355444464034512896, 9976, 1, 340282366920938463463374607431768211456])), (22, (dd [9944, 1, 18446744073709551616, 9960, 1, 340282366920938463463374607431768211456, 9969, 1, 115792089237316195423570985008687907853269984665640564039457584007913129639936, 9976, 1, 6277101735386680763835789423207666416102355444464034512896])), (21, (dd [9944, 1, 340282366920938463463374607431768211456, 9960, 1, 6277101735386680763835789423207666416102355444464034512896, 9969, 1, 2135987035920910082395021706169552114602704522356652769947041607822219725780640550022962086936576, 9976, 1, 115792089237316195423570985008687907853269984665640564039457584007913129639936])), (4, (dd [0, 0, 39402006196394479212279040100143613805079739270465446667948293404245721771497210611414266254884915640806627990306816])), (3, (dd [0, 1, 39402006196394479212279040100143613805079739270465446667942016302510335090733374821991058588468813285362163955793920])), (2, (dd [0, 0, 726838724295606890549323807888004534353641360687318060281490199180639288113397923326191050713763565560762521606266177933534601628614656])), (1, (dd [0, 0, 726838724295606890549323807888004534353641360687318060281490199180639288113397923326191050713763565560762521606266177933534601628614656])), (0, (dd [0, 1, 39402006196394479212279040100143613805079739270465446667948293404245721771497210611414266254884915640806627990306816]))]⟩, ⟨[37, 36, 35, 30, 29, 28, 27, 26, 25], (dd [12961, 0, 1]), [(27, (dd [344, 1, 1, 352, 1, 18446744073709551616, 360, 1, 340282366920938463463374607431768211456, 368, 1, 1, 376, 1, 18446744073709551616, 384, 1, 340282366920938463463374607431768211456])), (26, (dd [344, 1, 18446744073709551616, 352, 1, 340282366920938463463374607431768211456, 360, 1, 6277101735386680763835789423207666416102355444464034512896, 368, 1, 18446744073709551616, 376, 1, 340282366920938463463374607431768211456, 384, 1, 6277101735386680763835789423207666416102355444464034512896])), (25, (dd [344, 1, 340282366920938463463374607431768211456, 352, 1, 6277101735386680763835789423207666416102355444464034512896, 360, 1, 115792089237316195423570985008687907853269984665640564039457584007913129639936, 368, 1, 340282366920938463463374607431768211456, 376, 1, 6277101735386680763835789423207666416102355444464034512896, 384, 1, 115792089237316195423570985008687907853269984665640564039457584007913129639936])), (24, (dd [9944, 1, 1, 9960, 1, 18446744073709551616, 9969, 1, 6277101735386680763835789423207666416102355444464034512896, 9976, 1, 340282366920938463463374607431768211456])), (23, (dd [9944, 1, 18446744073709551616, 9960, 1, 340282366920938463463374607431768211456, 9969, 1, 115792089237316195423570985008687907853269984665640564039457584007913129639936, 9976, 1, 6277101735386680763835789423207666416102355444464034512896])), (22, (dd [9944, 1, 340282366920938463463374607431768211456, 9960, 1, 6277101735386680763835789423207666416102355444464034512896, 9969, 1, 2135987035920910082395021706169552114602704522356652769947041607822219725780640550022962086936576, 9976, 1, 115792089237316195423570985008687907853269984665640564039457584007913129639936])), (5, (dd [0, 0, 39402006196394479212279040100143613805079739270465446667948293404245721771497210611414266254884915640806627990306816])), (4, (dd [0, 1, 39402006196394479212279040100143613805079739270465446667942016302510335090733374821991058588468813285362163955793920])), (3, (dd [0, 0, 726838724295606890549323807888004534353641360687318060281490199180639288113397923326191050713763565560762521606266177933534601628614656])), (2, (dd [0, 0, 726838724295606890549323807888004534353641360687318060281490199180639288113397923326191050713763565560762521606266177933534601628614656])), (1, (dd [0, 0, 247330401473104534060502521019647190035131349101211839914023654086700830627319588130216257447437965250327205979348191045947119312535253999356131888847008252275800144158392320])), (0, (dd [0, 0, 726838724295606890549323807888004534353641360687318060281490199180639288113397923326191050713763565560762521606266177933534601628614656]))]⟩, ⟨[204, 203, 202, 24, 23, 22, 21, 20, 19, 18, 17, 16, 15, 14, 13, 12], (dd [13473, 1, 1]), [(52, (dd [296, 1, 6277101735386680763835789423207666416102355444464034512896, 304, 1, 115792089237316195423570985008687907853269984665640564039457584007913129639936, 312, 1, 2135987035920910082395021706169552114602704522356652769947041607822219725780640550022962086936576, 320, 1, 39402006196394479212279040100143613805079739270465446667948293404245721771497210611414266254884915640806627990306816, 328, 1, 726838724295606890549323807888004534353641360687318060281490199180639288113397923326191050713763565560762521606266177933534601628614656, 336, 1, 13407807929942597099574024998205846127479365820592393377723561443721764030073546976801874298166903427690031858186486050853753882811946569946433649006084096, 344, 1, 6277101735386680763835789423207666416102355444464034512896, 352, 1, 115792089237316195423570985008687907853269984665640564039457584007913129639936, 360, 1, 2135987035920910082395021706169552114602704522356652769947041607822219725780640550022962086936576, 368, 1, 39402006196394479212279040100143613805079739270465446667948293404245721771497210611414266254884915640806627990306816, 376, 1, 726838724295606890549323807888004534353641360687318060281490199180639288113397923326191050713763565560762521606266177933534601628614656, 384, 1, 13407807929942597099574024998205846127479365820592393377723561443721764030073546976801874298166903427690031858186486050853753882811946569946433649006084096])), (51, (dd [296, 1, 115792089237316195423570985008687907853269984665640564039457584007913129639936, 304, 1, 2135987035920910082395021706169552114602704522356652769947041607822219725780640550022962086936576, 312, 1, 39402006196394479212279040100143613805079739270465446667948293404245721771497210611414266254884915640806627990306816, 320, 1, 726838724295606890549323807888004534353641360687318060281490199180639288113397923326191050713763565560762521606266177933534601628614656, 328, 1, 13407807929942597099574024998205846127479365820592393377723561443721764030073546976801874298166903427690031858186486050853753882811946569946433649006084096, 336, 1, 247330401473104534060502521019647190035131349101211839914063056092897225106531867170316401061243044989597671426016139339351365034306751209967546155101893167916606772148699136, 344, 1, 115792089237316195423570985008687907853269984665640564039457584007913129639936, 352, 1, 2135987035920910082395021706169552114602704522356652769947041607822219725780640550022962086936576, 360, 1, 39402006196394479212279040100143613805079739270465446667948293404245721771497210611414266254884915640806627990306816, 368, 1, 726838724295606890549323807888004534353641360687318060281490199180639288113397923326191050713763565560762521606266177933534601628614656, 376, 1, 13407807929942597099574024998205846127479365820592393377723561443721764030073546976801874298166903427690031858186486050853753882811946569946433649006084096, 384, 1, 247330401473104534060502521019647190035131349101211839914063056092897225106531867170316401061243044989597671426016139339351365034306751209967546155101893167916606772148699136])), (50, (dd [296, 1, 2135987035920910082395021706169552114602704522356652769947041607822219725780640550022962086936576, 304, 1, 39402006196394479212279040100143613805079739270465446667948293404245721771497210611414266254884915640806627990306816, 312, 1, 726838724295606890549323807888004534353641360687318060281490199180639288113397923326191050713763565560762521606266177933534601628614656, 320, 1, 13407807929942597099574024998205846127479365820592393377723561443721764030073546976801874298166903427690031858186486050853753882811946569946433649006084096, 328, 1, 247330401473104534060502521019647190035131349101211839914063056092897225106531867170316401061243044989597671426016139339351365034306751209967546155101893167916606772148699136, 336, 1, 4562440617622195218641171605700291324893228507248559930579192517899275167208677386505912811317371399778642309573594407310688704721375437998252661319722214188251994674360264950082874192246603776, 344, 1, 2135987035920910082395021706169552114602704522356652769947041607822219725780640550022962086936576, 352, 1, 39402006196394479212279040100143613805079739270465446667948293404245721771497210611414266254884915640806627990306816, 360, 1, 726838724295606890549323807888004534353641360687318060281490199180639288113397923326191050713763565560762521606266177933534601628614656, 368, 1, 13407807929942597099574024998205846127479365820592393377723561443721764030073546976801874298166903427690031858186486050853753882811946569946433649006084096, 376, 1, 247330401473104534060502521019647190035131349101211839914063056092897225106531867170316401061243044989597671426016139339351365034306751209967546155101893167916606772148699136, 384, 1, 4562440617622195218641171605700291324893228507248559930579192517899275167208677386505912811317371399778642309573594407310688704721375437998252661319722214188251994674360264950082874192246603776])), (49, (dd [296, 1, 39402006196394479212279040100143613805079739270465446667948293404245721771497210611414266254884915640806627990306816, 304, 1, 726838724295606890549323807888004534353641360687318060281490199180639288113397923326191050713763565560762521606266177933534601628614656, 312, 1, 13407807929942597099574024998205846127479365820592393377723561443721764030073546976801874298166903427690031858186486050853753882811946569946433649006084096, 320, 1, 247330401473104534060502521019647190035131349101211839914063056092897225106531867170316401061243044989597671426016139339351365034306751209967546155101893167916606772148699136, 328, 1, 4562440617622195218641171605700291324893228507248559930579192517899275167208677386505912811317371399778642309573594407310688704721375437998252661319722214188251994674360264950082874192246603776, 336, 1, 84162174424773976115855838126082058648805436845170781751972494449099714468753293153818664580441415219631727501698851483408310916002940861810045036330430093599283578738055113571066620126149163476340692027772502016, 344, 1, 39402006196394479212279040100143613805079739270465446667948293404245721771497210611414266254884915640806627990306816, 352, 1, 726838724295606890549323807888004534353641360687318060281490199180639288113397923326191050713763565560762521606266177933534601628614656, 360, 1, 13407807929942597099574024998205846127479365820592393377723561443721764030073546976801874298166903427690031858186486050853753882811946569946433649006084096, 368, 1, 247330401473104534060502521019647190035131349101211839914063056092897225106531867170316401061243044989597671426016139339351365034306751209967546155101893167916606772148699136, 376, 1, 4562440617622195218641171605700291324893228507248559930579192517899275167208677386505912811317371399778642309573594407310688704721375437998252661319722214188251994674360264950082874192246603776, 384, 1, 84162174424773976115855838126082058648805436845170781751972494449099714468753293153818664580441415219631727501698851483408310916002940861810045036330430093599283578738055113571066620126149163476340692027772502016])), (48, (dd [296, 1, 726838724295606890549323807888004534353641360687318060281490199180639288113397923326191050713763565560762521606266177933534601628614656, 304, 1, 13407807929942597099574024998205846127479365820592393377723561443721764030073546976801874298166903427690031858186486050853753882811946569946433649006084096, 312, 1, 247330401473104534060502521019647190035131349101211839914063056092897225106531867170316401061243044989597671426016139339351365034306751209967546155101893167916606772148699136, 320, 1, 4562440617622195218641171605700291324893228507248559930579192517899275167208677386505912811317371399778642309573594407310688704721375437998252661319722214188251994674360264950082874192246603776, 328, 1, 84162174424773976115855838126082058648805436845170781751972494449099714468753293153818664580441415219631727501698851483408310916002940861810045036330430093599283578738055113571066620126149163476340692027772502016, 336, 1, 1552518092300708935148979488462502555256886017116696611139052038026050952686376886330878408828646477950487730697131073206171580044114814391444287275041181139204454976020849905550265285631598444825262999193716468750892846853816057856, 344, 1, 726838724295606890549323807888004534353641360687318060281490199180639288113397923326191050713763565560762521606266177933534601628614656, 352, 1, 13407807929942597099574024998205846127479365820592393377723561443721764030073546976801874298166903427690031858186486050853753882811946569946433649006084096, 360, 1, 247330401473104534060502521019647190035131349101211839914063056092897225106531867170316401061243044989597671426016139339351365034306751209967546155101893167916606772148699136, 368, 1, 4562440617622195218641171605700291324893228507248559930579192517899275167208677386505912811317371399778642309573594407310688704721375437998252661319722214188251994674360264950082874192246603776, 376, 1, 84162174424773976115855838126082058648805436845170781751972494449099714468753293153818664580441415219631727501698851483408310916002940861810045036330430093599283578738055113571066620126149163476340692027772502016, 384, 1, 1552518092300708935148979488462502555256886017116696611139052038026050952686376886330878408828646477950487730697131073206171580044114814391444287275041181139204454976020849905550265285631598444825262999193716468750892846853816057856])), (47, (dd [296, 1, 13407807929942597099574024998205846127479365820592393377723561443721764030073546976801874298166903427690031858186486050853753882811946569946433649006084096, 304, 1, 247330401473104534060502521019647190035131349101211839914063056092897225106531867170316401061243044989597671426016139339351365034306751209967546155101893167916606772148699136, 312, 1, 4562440617622195218641171605700291324893228507248559930579192517899275167208677386505912811317371399778642309573594407310688704721375437998252661319722214188251994674360264950082874192246603776, 320, 1, 84162174424773976115855838126082058648805436845170781751972494449099714468753293153818664580441415219631727501698851483408310916002940861810045036330430093599283578738055113571066620126149163476340692027772502016, 328, 1, 1552518092300708935148979488462502555256886017116696611139052038026050952686376886330878408828646477950487730697131073206171580044114814391444287275041181139204454976020849905550265285631598444825262999193716468750892846853816057856, 336, 1, 28638903918474961204418783933674838490721739172170652529441449702311064005352904159345284265824628375429359509218999720074396860757073376700445026041564579620512874307979212102266801261478978776245040008231745247475930553606737583615358787106474295296, 344, 1, 13407807929942597099574024998205846127479365820592393377723561443721764030073546976801874298166903427690031858186486050853753882811946569946433649006084096, 352, 1, 247330401473104534060502521019647190035131349101211839914063056092897225106531867170316401061243044989597671426016139339351365034306751209967546155101893167916606772148699136, 360, 1, 4562440617622195218641171605700291324893228507248559930579192517899275167208677386505912811317371399778642309573594407310688704721375437998252661319722214188251994674360264950082874192246603776, 368, 1, 84162174424773976115855838126082058648805436845170781751972494449099714468753293153818664580441415219631727501698851483408310916002940861810045036330430093599283578738055113571066620126149163476340692027772502016, 376, 1, 1552518092300708935148979488462502555256886017116696611139052038026050952686376886330878408828646477950487730697131073206171580044114814391444287275041181139204454976020849905550265285631598444825262999193716468750892846853816057856, 384, 1, 28638903918474961204418783933674838490721739172170652529441449702311064005352904159345284265824628375429359509218999720074396860757073376700445026041564579620512874307979212102266801261478978776245040008231745247475930553606737583615358787106474295296])), (46, (dd [1144, 1, 6277101735386680763835789423207666416102355444464034512896, 1160, 1, 115792089237316195423570985008687907853269984665640564039457584007913129639936, 1240, 1, 2135987035920910082395021706169552114602704522356652769947041607822219725780640550022962086936576, 1256, 1, 39402006196394479212279040100143613805079739270465446667948293404245721771497210611414266254884915640806627990306816, 1336, 1, 726838724295606890549323807888004534353641360687318060281490199180639288113397923326191050713763565560762521606266177933534601628614656, 1345, 1, 247330401473104534060502521019647190035131349101211839914063056092897225106531867170316401061243044989597671426016139339351365034306751209967546155101893167916606772148699136, 1352, 1, 13407807929942597099574024998205846127479365820592393377723561443721764030073546976801874298166903427690031858186486050853753882811946569946433649006084096])), (45, (dd [1144, 1, 115792089237316195423570985008687907853269984665640564039457584007913129639936, 1160, 1, 2135987035920910082395021706169552114602704522356652769947041607822219725780640550022962086936576, 1240, 1, 39402006196394479212279040100143613805079739270465446667948293404245721771497210611414266254884915640806627990306816, 1256, 1, 726838724295606890549323807888004534353641360687318060281490199180639288113397923326191050713763565560762521606266177933534601628614656, 1336, 1, 13407807929942597099574024998205846127479365820592393377723561443721764030073546976801874298166903427690031858186486050853753882811946569946433649006084096, 1345, 1, 4562440617622195218641171605700291324893228507248559930579192517899275167208677386505912811317371399778642309573594407310688704721375437998252661319722214188251994674360264950082874192246603776, 1352, 1, 247330401473104534060502521019647190035131349101211839914063056092897225106531867170316401061243044989597671426016139339351365034306751209967546155101893167916606772148699136])), (44, (dd [1144, 1, 2135987035920910082395021706169552114602704522356652769947041607822219725780640550022962086936576, 1160, 1, 39402006196394479212279040100143613805079739270465446667948293404245721771497210611414266254884915640806627990306816, 1240, 1, 726838724295606890549323807888004534353641360687318060281490199180639288113397923326191050713763565560762521606266177933534601628614656, 1256, 1, 13407807929942597099574024998205846127479365820592393377723561443721764030073546976801874298166903427690031858186486050853753882811946569946433649006084096, 1336, 1, 247330401473104534060502521019647190035131349101211839914063056092897225106531867170316401061243044989597671426016139339351365034306751209967546155101893167916606772148699136, 1345, 1, 84162174424773976115855838126082058648805436845170781751972494449099714468753293153818664580441415219631727501698851483408310916002940861810045036330430093599283578738055113571066620126149163476340692027772502016, 1352, 1, 4562440617622195218641171605700291324893228507248559930579192517899275167208677386505912811317371399778642309573594407310688704721375437998252661319722214188251994674360264950082874192246603776])), (43, (dd [1144, 1, 39402006196394479212279040100143613805079739270465446667948293404245721771497210611414266254884915640806627990306816, 1160, 1, 726838724295606890549323807888004534353641360687318060281490199180639288113397923326191050713763565560762521606266177933534601628614656, 1240, 1, 13407807929942597099574024998205846127479365820592393377723561443721764030073546976801874298166903427690031858186486050853753882811946569946433649006084096, 1256, 1, 247330401473104534060502521019647190035131349101211839914063056092897225106531867170316401061243044989597671426016139339351365034306751209967546155101893167916606772148699136, 1336, 1, 4562440617622195218641171605700291324893228507248559930579192517899275167208677386505912811317371399778642309573594407310688704721375437998252661319722214188251994674360264950082874192246603776, 1345, 1, 1552518092300708935148979488462502555256886017116696611139052038026050952686376886330878408828646477950487730697131073206171580044114814391444287275041181139204454976020849905550265285631598444825262999193716468750892846853816057856, 1352, 1, 84162174424773976115855838126082058648805436845170781751972494449099714468753293153818664580441415219631727501698851483408310916002940861810045036330430093599283578738055113571066620126149163476340692027772502016])), (42, (dd [1144, 1, 726838724295606890549323807888004534353641360687318060281490199180639288113397923326191050713763565560762521606266177933534601628614656, 1160, 1, 13407807929942597099574024998205846127479365820592393377723561443721764030073546976801874298166903427690031858186486050853753882811946569946433649006084096, 1240, 1, 247330401473104534060502521019647190035131349101211839914063056092897225106531867170316401061243044989597671426016139339351365034306751209967546155101893167916606772148699136, 1256, 1, 4562440617622195218641171605700291324893228507248559930579192517899275167208677386505912811317371399778642309573594407310688704721375437998252661319722214188251994674360264950082874192246603776, 1336, 1, 84162174424773976115855838126082058648805436845170781751972494449099714468753293153818664580441415219631727501698851483408310916002940861810045036330430093599283578738055113571066620126149163476340692027772502016, 1345, 1, 28638903918474961204418783933674838490721739172170652529441449702311064005352904159345284265824628375429359509218999720074396860757073376700445026041564579620512874307979212102266801261478978776245040008231745247475930553606737583615358787106474295296, 1352, 1, 1552518092300708935148979488462502555256886017116696611139052038026050952686376886330878408828646477950487730697131073206171580044114814391444287275041181139204454976020849905550265285631598444825262999193716468750892846853816057856])), (41, (dd [1144, 1, 13407807929942597099574024998205846127479365820592393377723561443721764030073546976801874298166903427690031858186486050853753882811946569946433649006084096, 1160, 1, 247330401473104534060502521019647190035131349101211839914063056092897225106531867170316401061243044989597671426016139339351365034306751209967546155101893167916606772148699136, 1240, 1, 4562440617622195218641171605700291324893228507248559930579192517899275167208677386505912811317371399778642309573594407310688704721375437998252661319722214188251994674360264950082874192246603776, 1256, 1, 84162174424773976115855838126082058648805436845170781751972494449099714468753293153818664580441415219631727501698851483408310916002940861810045036330430093599283578738055113571066620126149163476340692027772502016, 1336, 1, 1552518092300708935148979488462502555256886017116696611139052038026050952686376886330878408828646477950487730697131073206171580044114814391444287275041181139204454976020849905550265285631598444825262999193716468750892846853816057856, 1345, 1, 528294531135665246352339784916516606518847326036121522127960709026673902556724859474417255887657187894674394993257128678882347559502685537250538978462939576908386683999005084168731517676426441053024232908211188404148028292751561738838396898767036476489538580897737998336, 1352, 1, 28638903918474961204418783933674838490721739172170652529441449702311064005352904159345284265824628375429359509218999720074396860757073376700445026041564579620512874307979212102266801261478978776245040008231745247475930553606737583615358787106474295296])), (40, (dd [1448, 1, 39402006196394479212279040100143613805079739270465446667948293404245721771497210611414266254884915640806627990306816, 1464, 1, 726838724295606890549323807888004534353641360687318060281490199180639288113397923326191050713763565560762521606266177933534601628614656, 1544, 1, 13407807929942597099574024998205846127479365820592393377723561443721764030073546976801874298166903427690031858186486050853753882811946569946433649006084096, 1560, 1, 39402006196394479212279040100143613805079739270465446667948293404245721771497210611414266254884915640806627990306816, 1640, 1, 726838724295606890549323807888004534353641360687318060281490199180639288113397923326191050713763565560762521606266177933534601628614656, 1656, 1, 13407807929942597099574024998205846127479365820592393377723561443721764030073546976801874298166903427690031858186486050853753882811946569946433649006084096])), (39, (dd [1448, 1, 726838724295606890549323807888004534353641360687318060281490199180639288113397923326191050713763565560762521606266177933534601628614656, 1464, 1, 13407807929942597099574024998205846127479365820592393377723561443721764030073546976801874298166903427690031858186486050853753882811946569946433649006084096, 1544, 1, 247330401473104534060502521019647190035131349101211839914063056092897225106531867170316401061243044989597671426016139339351365034306751209967546155101893167916606772148699136, 1560, 1, 726838724295606890549323807888004534353641360687318060281490199180639288113397923326191050713763565560762521606266177933534601628614656, 1640, 1, 13407807929942597099574024998205846127479365820592393377723561443721764030073546976801874298166903427690031858186486050853753882811946569946433649006084096, 1656, 1, 247330401473104534060502521019647190035131349101211839914063056092897225106531867170316401061243044989597671426016139339351365034306751209967546155101893167916606772148699136])), (38, (dd [1448, 1, 13407807929942597099574024998205846127479365820592393377723561443721764030073546976801874298166903427690031858186486050853753882811946569946433649006084096, 1464, 1, 247330401473104534060502521019647190035131349101211839914063056092897225106531867170316401061243044989597671426016139339351365034306751209967546155101893167916606772148699136, 1544, 1, 4562440617622195218641171605700291324893228507248559930579192517899275167208677386505912811317371399778642309573594407310688704721375437998252661319722214188251994674360264950082874192246603776, 1560, 1, 13407807929942597099574024998205846127479365820592393377723561443721764030073546976801874298166903427690031858186486050853753882811946569946433649006084096, 1640, 1, 247330401473104534060502521019647190035131349101211839914063056092897225106531867170316401061243044989597671426016139339351365034306751209967546155101893167916606772148699136, 1656, 1, 4562440617622195218641171605700291324893228507248559930579192517899275167208677386505912811317371399778642309573594407310688704721375437998252661319722214188251994674360264950082874192246603776])), (37, (dd [2232, 1, 39402006196394479212279040100143613805079739270465446667948293404245721771497210611414266254884915640806627990306816, 2248, 1, 726838724295606890549323807888004534353641360687318060281490199180639288113397923326191050713763565560762521606266177933534601628614656, 2257, 1, 247330401473104534060502521019647190035131349101211839914063056092897225106531867170316401061243044989597671426016139339351365034306751209967546155101893167916606772148699136, 2264, 1, 13407807929942597099574024998205846127479365820592393377723561443721764030073546976801874298166903427690031858186486050853753882811946569946433649006084096])), (36, (dd [2232, 1, 726838724295606890549323807888004534353641360687318060281490199180639288113397923326191050713763565560762521606266177933534601628614656, 2248, 1, 13407807929942597099574024998205846127479365820592393377723561443721764030073546976801874298166903427690031858186486050853753882811946569946433649006084096, 2257, 1, 4562440617622195218641171605700291324893228507248559930579192517899275167208677386505912811317371399778642309573594407310688704721375437998252661319722214188251994674360264950082874192246603776, 2264, 1, 247330401473104534060502521019647190035131349101211839914063056092897225106531867170316401061243044989597671426016139339351365034306751209967546155101893167916606772148699136])), (35, (dd [2232, 1, 13407807929942597099574024998205846127479365820592393377723561443721764030073546976801874298166903427690031858186486050853753882811946569946433649006084096, 2248, 1, 247330401473104534060502521019647190035131349101211839914063056092897225106531867170316401061243044989597671426016139339351365034306751209967546155101893167916606772148699136, 2257, 1, 84162174424773976115855838126082058648805436845170781751972494449099714468753293153818664580441415219631727501698851483408310916002940861810045036330430093599283578738055113571066620126149163476340692027772502016, 2264, 1, 4562440617622195218641171605700291324893228507248559930579192517899275167208677386505912811317371399778642309573594407310688704721375437998252661319722214188251994674360264950082874192246603776])), (34, (dd [296, 0, 39402006196394479212279040100143613805079739270465446667948293404245721771497210611414266254884915640806627990306815, 304, 0, 726838724295606890549323807888004534353641360687318060281490199180639288113397923326191050713763565560762521606266159486790527919063040, 312, 0, 13407807929942597099574024998205846127479365820592393377723561443721764030073546976801874298166903427690031858186485710571386961873483106571826217237872640, 320, 0, 39402006196394479212279040100143613805079739270465446667948293404245721771497210611414266254884915640806627990306815, 328, 0, 726838724295606890549323807888004534353641360687318060281490199180639288113397923326191050713763565560762521606266159486790527919063040, 336, 0, 13407807929942597099574024998205846127479365820592393377723561443721764030073546976801874298166903427690031858186485710571386961873483106571826217237872640])), (33, (dd [296, 0, 726838724295606890549323807888004534353641360687318060281490199180639288113397923326191050713763565560762521606266159486790527919063040, 304, 0, 13407807929942597099574024998205846127479365820592393377723561443721764030073546976801874298166903427690031858186485710571386961873483106571826217237872640, 312, 0, 247330401473104534060502521019647190035131349101211839914063056092897225106531867170316401061243044989597671426016133062249629647625987374178122947435477065561162308114186240, 320, 0, 726838724295606890549323807888004534353641360687318060281490199180639288113397923326191050713763565560762521606266159486790527919063040, 328, 0, 13407807929942597099574024998205846127479365820592393377723561443721764030073546976801874298166903427690031858186485710571386961873483106571826217237872640, 336, 0, 247330401473104534060502521019647190035131349101211839914063056092897225106531867170316401061243044989597671426016133062249629647625987374178122947435477065561162308114186240])), (32, (dd [296, 0, 13407807929942597099574024998205846127479365820592393377723561443721764030073546976801874298166903427690031858186485710571386961873483106571826217237872640, 304, 0, 247330401473104534060502521019647190035131349101211839914063056092897225106531867170316401061243044989597671426016133062249629647625987374178122947435477065561162308114186240, 312, 0, 4562440617622195218641171605700291324893228507248559930579192517899275167208677386505912811317371399778642309573594291518599467405180014427267652631814360918267329033796225492498866279116963840, 320, 0, 13407807929942597099574024998205846127479365820592393377723561443721764030073546976801874298166903427690031858186485710571386961873483106571826217237872640, 328, 0, 247330401473104534060502521019647190035131349101211839914063056092897225106531867170316401061243044989597671426016133062249629647625987374178122947435477065561162308114186240, 336, 0, 4562440617622195218641171605700291324893228507248559930579192517899275167208677386505912811317371399778642309573594291518599467405180014427267652631814360918267329033796225492498866279116963840])), (31, (dd [5816, 0, 39402006196394479212279040100143613805079739270465446667948293404245721771497210611414266254884915640806627990306815, 5832, 0, 726838724295606890549323807888004534353641360687318060281490199180639288113397923326191050713763565560762521606266159486790527919063040, 5841, 0, 247330401473104534060502521019647190035131349101211839914063056092897225106531867170316401061243044989597671426016133062249629647625987374178122947435477065561162308114186240, 5848, 0, 13407807929942597099574024998205846127479365820592393377723561443721764030073546976801874298166903427690031858186485710571386961873483106571826217237872640])), (30, (dd [5816, 0, 726838724295606890549323807888004534353641360687318060281490199180639288113397923326191050713763565560762521606266159486790527919063040, 5832, 0, 13407807929942597099574024998205846127479365820592393377723561443721764030073546976801874298166903427690031858186485710571386961873483106571826217237872640, 5841, 0, 4562440617622195218641171605700291324893228507248559930579192517899275167208677386505912811317371399778642309573594291518599467405180014427267652631814360918267329033796225492498866279116963840, 5848, 0, 247330401473104534060502521019647190035131349101211839914063056092897225106531867170316401061243044989597671426016133062249629647625987374178122947435477065561162308114186240])), (29, (dd [5816, 0, 13407807929942597099574024998205846127479365820592393377723561443721764030073546976801874298166903427690031858186485710571386961873483106571826217237872640, 5832, 0, 247330401473104534060502521019647190035131349101211839914063056092897225106531867170316401061243044989597671426016133062249629647625987374178122947435477065561162308114186240, 5841, 0, 84162174424773976115855838126082058648805436845170781751972494449099714468753293153818664580441415219631727501698849347421274995092858466788338866778315490894761222085285166529458797906423382835790669065685565440, 5848, 0, 4562440617622195218641171605700291324893228507248559930579192517899275167208677386505912811317371399778642309573594291518599467405180014427267652631814360918267329033796225492498866279116963840])), (28, (dd [344, 0, 39402006196394479212279040100143613805079739270465446667948293404245721771497210611414266254884915640806627990306816, 352, 0, 726838724295606890549323807888004534353641360687318060281490199180639288113397923326191050713763565560762521606266177933534601628614656, 360, 0, 13407807929942597099574024998205846127479365820592393377723561443721764030073546976801874298166903427690031858186486050853753882811946569946433649006084096, 368, 0, 39402006196394479212279040100143613805079739270465446667948293404245721771497210611414266254884915640806627990306816, 376, 0, 726838724295606890549323807888004534353641360687318060281490199180639288113397923326191050713763565560762521606266177933534601628614656, 384, 0, 13407807929942597099574024998205846127479365820592393377723561443721764030073546976801874298166903427690031858186486050853753882811946569946433649006084096])), (27, (dd [344, 0, 726838724295606890549323807888004534353641360687318060281490199180639288113397923326191050713763565560762521606266177933534601628614656, 352, 0, 13407807929942597099574024998205846127479365820592393377723561443721764030073546976801874298166903427690031858186486050853753882811946569946433649006084096, 360, 0, 247330401473104534060502521019647190035131349101211839914063056092897225106531867170316401061243044989597671426016139339351365034306751209967546155101893167916606772148699136, 368, 0, 726838724295606890549323807888004534353641360687318060281490199180639288113397923326191050713763565560762521606266177933534601628614656, 376, 0, 13407807929942597099574024998205846127479365820592393377723561443721764030073546976801874298166903427690031858186486050853753882811946569946433649006084096, 384, 0, 247330401473104534060502521019647190035131349101211839914063056092897225106531867170316401061243044989597671426016139339351365034306751209967546155101893167916606772148699136])), (26, (dd [344, 0, 13407807929942597099574024998205846127479365820592393377723561443721764030073546976801874298166903427690031858186486050853753882811946569946433649006084096, 352, 0, 247330401473104534060502521019647190035131349101211839914063056092897225106531867170316401061243044989597671426016139339351365034306751209967546155101893167916606772148699136, 360, 0, 4562440617622195218641171605700291324893228507248559930579192517899275167208677386505912811317371399778642309573594407310688704721375437998252661319722214188251994674360264950082874192246603776, 368, 0, 13407807929942597099574024998205846127479365820592393377723561443721764030073546976801874298166903427690031858186486050853753882811946569946433649006084096, 376, 0, 247330401473104534060502521019647190035131349101211839914063056092897225106531867170316401061243044989597671426016139339351365034306751209967546155101893167916606772148699136, 384, 0, 4562440617622195218641171605700291324893228507248559930579192517899275167208677386505912811317371399778642309573594407310688704721375437998252661319722214188251994674360264950082874192246603776])), (25, (dd [9944, 0, 39402006196394479212279040100143613805079739270465446667948293404245721771497210611414266254884915640806627990306816, 9960, 0, 726838724295606890549323807888004534353641360687318060281490199180639288113397923326191050713763565560762521606266177933534601628614656, 9969, 0, 247330401473104534060502521019647190035131349101211839914063056092897225106531867170316401061243044989597671426016139339351365034306751209967546155101893167916606772148699136, 9976, 0, 13407807929942597099574024998205846127479365820592393377723561443721764030073546976801874298166903427690031858186486050853753882811946569946433649006084096])), (24, (dd [9944, 0, 726838724295606890549323807888004534353641360687318060281490199180639288113397923326191050713763565560762521606266177933534601628614656, 9960, 0, 13407807929942597099574024998205846127479365820592393377723561443721764030073546976801874298166903427690031858186486050853753882811946569946433649006084096, 9969, 0, 4562440617622195218641171605700291324893228507248559930579192517899275167208677386505912811317371399778642309573594407310688704721375437998252661319722214188251994674360264950082874192246603776, 9976, 0, 247330401473104534060502521019647190035131349101211839914063056092897225106531867170316401061243044989597671426016139339351365034306751209967546155101893167916606772148699136])), (23, (dd [9944, 0, 13407807929942597099574024998205846127479365820592393377723561443721764030073546976801874298166903427690031858186486050853753882811946569946433649006084096, 9960, 0, 247330401473104534060502521019647190035131349101211839914063056092897225106531867170316401061243044989597671426016139339351365034306751209967546155101893167916606772148699136, 9969, 0, 84162174424773976115855838126082058648805436845170781751972494449099714468753293153818664580441415219631727501698851483408310916002940861810045036330430093599283578738055113571066620126149163476340692027772502016, 9976, 0, 4562440617622195218641171605700291324893228507248559930579192517899275167208677386505912811317371399778642309573594407310688704721375437998252661319722214188251994674360264950082874192246603776])), (22, (dd [0, 0, 1552518092300708935148979488462502555256886017116696611139052038026050952686376886330878408828646477950487730697131073206171580044114814391444287275041181139204454976020849905550265285631598444825262999193716468750892846853816057856])), (21, (dd [0, 1, 1552518092300708935148979488462502555256886017116696611138804707624577848152316383809858761638611346601386518857217010150078682819008282524273970873979938094214857304594833766210913920597291693615295453038614575582976240081667358720])), (20, (dd [0, 0, 28638903918474961204418783933674838490721739172170652529441449702311064005352904159345284265824628375429359509218999720074396860757073376700445026041564579620512874307979212102266801261478978776245040008231745247475930553606737583615358787106474295296])), (19, (dd [0, 0, 28638903918474961204418783933674838490721739172170652529441449702311064005352904159345284265824628375429359509218999720074396860757073376700445026041564579620512874307979212102266801261478978776245040008231745247475930553606737583615358787106474295296])), (18, (dd [0, 0, 9745314011399999080353382387875188310876226857595007526866353939120647981831277122977152563326753373208188219620269616145433118912516717160247108887484006941580789969259341956664618075445938833961355306204177197734481142949374025040196098329837367168002475803910561078330935743138098053120])), (17, (dd [0, 0, 28638903918474961204418783933674838490721739172170652529441449702311064005352904159345284265824628375429359509218999720074396860757073376700445026041564579620512874307979212102266801261478978776245040008231745247475930553606737583615358787106474295296])), (16, (dd [0, 0, 9745314011399999080353382387875188310876226857595007526867906457212948690766426102465615065882010259225304916231408668183459169865203094046577987296312653419531277699956473029870789655490053648352799593479218378873685597925394874945746363615468965612827738803104277547081828589991914110976])), (15, (dd [0, 1, 1552518092300708935148979488462502555256886017116696611139052038026050952686376886330878408828646477950487730697131033804165383649635602112404187131427376059465184510574181957256861039909826947614651584927461583835252040225825751040])), (14, (dd [0, 0, 1552518092300708935148979488462502555256886017116696611138804707624577848152316383809858761638611346601386518857216970748072486424529070245233870730366133014475586839148165824194611410262200960240473461980026106769690877917711564800])), (13, (dd [0, 1, 28638903918474961204418783933674838490721739172170652529441449702311064005352904159345284265824628375429359509218998993235672565150182827376637138037030225979152186989918930612067620622190865378321713817181031483910369791085131317437425252504845680640])), (12, (dd [0, 1, 28638903918474961204418783933674838490721739172170652529441449702311064005352904159345284265824628375429359509218998993235672565150182827376637138037030225979152186989918930612067620622190865378321713817181031483910369791085131317437425252504845680640])), (11, (dd [0, 1, 9745314011399999080353382387875188310876226857595007526866353939120647981831277122977152563326753373208188219620269368815031645807982656657726089240293971810231688757419427933010531374615311514373225089946729759769230815743394676849150151210524831914003119672021714070078659942993939660800])), (10, (dd [0, 1, 28638903918474961204418783933674838490721739172170652529441449702311064005352904159345284265824628375429359509218998993235672565150182827376637138037030225979152186989918930612067620622190865378321713817181031483910369791085131317437425252504845680640])), (9, (dd [0, 1, 9745314011399999080353382387875188310876226857595007526867906457212948690766426102465615065882010259225304916231408420853057696760669033544056967649122618288182176488116558966814696758264947116485629277078157135828696000253968858806407012250434658861617771256949175653913911983219765411840])), (8, (dd [0, 0, 179769313486231590772930519078902473361797697894230657273430081157732675805500963132708477322407536021120113879871393357658789768814416622492847430639474124377767893424865485276302219601246094119453082952085005768838150682342462881473913110540827237163350510684586298239947245938479716304835356329624224137216])), (7, (dd [0, 0, 179769313486231590772930519078902473361797697894230657273430081157732675805500963132708477322407536021120113879871393357658789768814416622492847430639474124377767893424865485276302219601246094119453082952085005768838150682342462881473913110540827237163350510684586298239947245938479716304835356329624224137216])), (6, (dd [0, 1, 1552518092300708935148979488462502555256886017116696611139052038026050952686376886330878408828646477950487730697131073206171580044114814391444287275041181139204454976020849905550265285631598444825262999193716468750892846853816057856])), (5, (dd [0, 0, 1552518092300708935148979488462502555256886017116696611138804707624577848152316383809858761638611346601386518857217010150078682819008282524273970873979938094214857304594833766210913920597291693615295453038614575582976240081667358720])), (4, (dd [0, 1, 28638903918474961204418783933674838490721739172170652529441449702311064005352904159345284265824628375429359509218999720074396860757073376700445026041564579620512874307979212102266801261478978776245040008231745247475930553606737583615358787106474295296])), (3, (dd [0, 1, 28638903918474961204418783933674838490721739172170652529441449702311064005352904159345284265824628375429359509218999720074396860757073376700445026041564579620512874307979212102266801261478978776245040008231745247475930553606737583615358787106474295296])), (2, (dd [0, 1, 9745314011399999080353382387875188310876226857595007526866353939120647981831277122977152563326753373208188219620269616145433118912516717160247108887484006941580789969259341956664618075445938833961355306204177197734481142949374025040196098329837367168002475803910561078330935743138098053120])), (1, (dd [0, 1, 28638903918474961204418783933674838490721739172170652529441449702311064005352904159345284265824628375429359509218999720074396860757073376700445026041564579620512874307979212102266801261478978776245040008231745247475930553606737583615358787106474295296])), (0, (dd [0, 1, 9745314011399999080353382387875188310876226857595007526867906457212948690766426102465615065882010259225304916231408668183459169865203094046577987296312653419531277699956473029870789655490053648352799593479218378873685597925394874945746363615468965612827738803104277547081828589991914110976]))]⟩]
  zb := 0
  scratch := []
  keepBP := false

theorem mul_ok : mulChk Model.Arm751.mul C.mul 12 1 2 [(53, (dd [296, 1, 39402006196394479212279040100143613805079739270465446667948293404245721771497210611414266254884915640806627990306816, 304, 1, 726838724295606890549323807888004534353641360687318060281490199180639288113397923326191050713763565560762521606266177933534601628614656, 312, 1, 13407807929942597099574024998205846127479365820592393377723561443721764030073546976801874298166903427690031858186486050853753882811946569946433649006084096, 320, 1, 247330401473104534060502521019647190035131349101211839914063056092897225106531867170316401061243044989597671426016139339351365034306751209967546155101893167916606772148699136, 328, 1, 4562440617622195218641171605700291324893228507248559930579192517899275167208677386505912811317371399778642309573594407310688704721375437998252661319722214188251994674360264950082874192246603776, 336, 1, 84162174424773976115855838126082058648805436845170781751972494449099714468753293153818664580441415219631727501698851483408310916002940861810045036330430093599283578738055113571066620126149163476340692027772502016, 344, 1, 39402006196394479212279040100143613805079739270465446667948293404245721771497210611414266254884915640806627990306816, 352, 1, 726838724295606890549323807888004534353641360687318060281490199180639288113397923326191050713763565560762521606266177933534601628614656, 360, 1, 13407807929942597099574024998205846127479365820592393377723561443721764030073546976801874298166903427690031858186486050853753882811946569946433649006084096, 368, 1, 247330401473104534060502521019647190035131349101211839914063056092897225106531867170316401061243044989597671426016139339351365034306751209967546155101893167916606772148699136, 376, 1, 4562440617622195218641171605700291324893228507248559930579192517899275167208677386505912811317371399778642309573594407310688704721375437998252661319722214188251994674360264950082874192246603776, 384, 1, 84162174424773976115855838126082058648805436845170781751972494449099714468753293153818664580441415219631727501698851483408310916002940861810045036330430093599283578738055113571066620126149163476340692027772502016])), (52, (dd [296, 1, 726838724295606890549323807888004534353641360687318060281490199180639288113397923326191050713763565560762521606266177933534601628614656, 304, 1, 13407807929942597099574024998205846127479365820592393377723561443721764030073546976801874298166903427690031858186486050853753882811946569946433649006084096, 312, 1, 247330401473104534060502521019647190035131349101211839914063056092897225106531867170316401061243044989597671426016139339351365034306751209967546155101893167916606772148699136, 320, 1, 4562440617622195218641171605700291324893228507248559930579192517899275167208677386505912811317371399778642309573594407310688704721375437998252661319722214188251994674360264950082874192246603776, 328, 1, 84162174424773976115855838126082058648805436845170781751972494449099714468753293153818664580441415219631727501698851483408310916002940861810045036330430093599283578738055113571066620126149163476340692027772502016, 336, 1, 1552518092300708935148979488462502555256886017116696611139052038026050952686376886330878408828646477950487730697131073206171580044114814391444287275041181139204454976020849905550265285631598444825262999193716468750892846853816057856, 344, 1, 726838724295606890549323807888004534353641360687318060281490199180639288113397923326191050713763565560762521606266177933534601628614656, 352, 1, 13407807929942597099574024998205846127479365820592393377723561443721764030073546976801874298166903427690031858186486050853753882811946569946433649006084096, 360, 1, 247330401473104534060502521019647190035131349101211839914063056092897225106531867170316401061243044989597671426016139339351365034306751209967546155101893167916606772148699136, 368, 1, 4562440617622195218641171605700291324893228507248559930579192517899275167208677386505912811317371399778642309573594407310688704721375437998252661319722214188251994674360264950082874192246603776, 376, 1, 84162174424773976115855838126082058648805436845170781751972494449099714468753293153818664580441415219631727501698851483408310916002940861810045036330430093599283578738055113571066620126149163476340692027772502016, 384, 1, 1552518092300708935148979488462502555256886017116696611139052038026050952686376886330878408828646477950487730697131073206171580044114814391444287275041181139204454976020849905550265285631598444825262999193716468750892846853816057856])), (51, (dd [296, 1, 13407807929942597099574024998205846127479365820592393377723561443721764030073546976801874298166903427690031858186486050853753882811946569946433649006084096, 304, 1, 247330401473104534060502521019647190035131349101211839914063056092897225106531867170316401061243044989597671426016139339351365034306751209967546155101893167916606772148699136, 312, 1, 4562440617622195218641171605700291324893228507248559930579192517899275167208677386505912811317371399778642309573594407310688704721375437998252661319722214188251994674360264950082874192246603776, 320, 1, 84162174424773976115855838126082058648805436845170781751972494449099714468753293153818664580441415219631727501698851483408310916002940861810045036330430093599283578738055113571066620126149163476340692027772502016, 328, 1, 1552518092300708935148979488462502555256886017116696611139052038026050952686376886330878408828646477950487730697131073206171580044114814391444287275041181139204454976020849905550265285631598444825262999193716468750892846853816057856, 336, 1, 28638903918474961204418783933674838490721739172170652529441449702311064005352904159345284265824628375429359509218999720074396860757073376700445026041564579620512874307979212102266801261478978776245040008231745247475930553606737583615358787106474295296, 344, 1, 13407807929942597099574024998205846127479365820592393377723561443721764030073546976801874298166903427690031858186486050853753882811946569946433649006084096, 352, 1, 247330401473104534060502521019647190035131349101211839914063056092897225106531867170316401061243044989597671426016139339351365034306751209967546155101893167916606772148699136, 360, 1, 4562440617622195218641171605700291324893228507248559930579192517899275167208677386505912811317371399778642309573594407310688704721375437998252661319722214188251994674360264950082874192246603776, 368, 1, 84162174424773976115855838126082058648805436845170781751972494449099714468753293153818664580441415219631727501698851483408310916002940861810045036330430093599283578738055113571066620126149163476340692027772502016, 376, 1, 1552518092300708935148979488462502555256886017116696611139052038026050952686376886330878408828646477950487730697131073206171580044114814391444287275041181139204454976020849905550265285631598444825262999193716468750892846853816057856, 384, 1, 28638903918474961204418783933674838490721739172170652529441449702311064005352904159345284265824628375429359509218999720074396860757073376700445026041564579620512874307979212102266801261478978776245040008231745247475930553606737583615358787106474295296])), (50, (dd [296, 1, 247330401473104534060502521019647190035131349101211839914063056092897225106531867170316401061243044989597671426016139339351365034306751209967546155101893167916606772148699136, 304, 1, 4562440617622195218641171605700291324893228507248559930579192517899275167208677386505912811317371399778642309573594407310688704721375437998252661319722214188251994674360264950082874192246603776, 312, 1, 84162174424773976115855838126082058648805436845170781751972494449099714468753293153818664580441415219631727501698851483408310916002940861810045036330430093599283578738055113571066620126149163476340692027772502016, 320, 1, 1552518092300708935148979488462502555256886017116696611139052038026050952686376886330878408828646477950487730697131073206171580044114814391444287275041181139204454976020849905550265285631598444825262999193716468750892846853816057856, 328, 1, 28638903918474961204418783933674838490721739172170652529441449702311064005352904159345284265824628375429359509218999720074396860757073376700445026041564579620512874307979212102266801261478978776245040008231745247475930553606737583615358787106474295296, 336, 1, 528294531135665246352339784916516606518847326036121522127960709026673902556724859474417255887657187894674394993257128678882347559502685537250538978462939576908386683999005084168731517676426441053024232908211188404148028292751561738838396898767036476489538580897737998336, 344, 1, 247330401473104534060502521019647190035131349101211839914063056092897225106531867170316401061243044989597671426016139339351365034306751209967546155101893167916606772148699136, 352, 1, 4562440617622195218641171605700291324893228507248559930579192517899275167208677386505912811317371399778642309573594407310688704721375437998252661319722214188251994674360264950082874192246603776, 360, 1, 84162174424773976115855838126082058648805436845170781751972494449099714468753293153818664580441415219631727501698851483408310916002940861810045036330430093599283578738055113571066620126149163476340692027772502016, 368, 1, 1552518092300708935148979488462502555256886017116696611139052038026050952686376886330878408828646477950487730697131073206171580044114814391444287275041181139204454976020849905550265285631598444825262999193716468750892846853816057856, 376, 1, 28638903918474961204418783933674838490721739172170652529441449702311064005352904159345284265824628375429359509218999720074396860757073376700445026041564579620512874307979212102266801261478978776245040008231745247475930553606737583615358787106474295296, 384, 1, 528294531135665246352339784916516606518847326036121522127960709026673902556724859474417255887657187894674394993257128678882347559502685537250538978462939576908386683999005084168731517676426441053024232908211188404148028292751561738838396898767036476489538580897737998336])), (49, (dd [296, 1, 4562440617622195218641171605700291324893228507248559930579192517899275167208677386505912811317371399778642309573594407310688704721375437998252661319722214188251994674360264950082874192246603776, 304, 1, 84162174424773976115855838126082058648805436845170781751972494449099714468753293153818664580441415219631727501698851483408310916002940861810045036330430093599283578738055113571066620126149163476340692027772502016, 312, 1, 1552518092300708935148979488462502555256886017116696611139052038026050952686376886330878408828646477950487730697131073206171580044114814391444287275041181139204454976020849905550265285631598444825262999193716468750892846853816057856, 320, 1, 28638903918474961204418783933674838490721739172170652529441449702311064005352904159345284265824628375429359509218999720074396860757073376700445026041564579620512874307979212102266801261478978776245040008231745247475930553606737583615358787106474295296, 328, 1, 528294531135665246352339784916516606518847326036121522127960709026673902556724859474417255887657187894674394993257128678882347559502685537250538978462939576908386683999005084168731517676426441053024232908211188404148028292751561738838396898767036476489538580897737998336, 336, 1, 9745314011399999080353382387875188310876226857595007526867906457212948690766426102465615065882010259225304916231408668183459169865203094046577987296312653419531277699956473029870789655490053648352799593479218378873685597925394874945746363615468965612827738803104277547081828589991914110976, 344, 1, 4562440617622195218641171605700291324893228507248559930579192517899275167208677386505912811317371399778642309573594407310688704721375437998252661319722214188251994674360264950082874192246603776, 352, 1, 84162174424773976115855838126082058648805436845170781751972494449099714468753293153818664580441415219631727501698851483408310916002940861810045036330430093599283578738055113571066620126149163476340692027772502016, 360, 1, 1552518092300708935148979488462502555256886017116696611139052038026050952686376886330878408828646477950487730697131073206171580044114814391444287275041181139204454976020849905550265285631598444825262999193716468750892846853816057856, 368, 1, 28638903918474961204418783933674838490721739172170652529441449702311064005352904159345284265824628375429359509218999720074396860757073376700445026041564579620512874307979212102266801261478978776245040008231745247475930553606737583615358787106474295296, 376, 1, 528294531135665246352339784916516606518847326036121522127960709026673902556724859474417255887657187894674394993257128678882347559502685537250538978462939576908386683999005084168731517676426441053024232908211188404148028292751561738838396898767036476489538580897737998336, 384, 1, 9745314011399999080353382387875188310876226857595007526867906457212948690766426102465615065882010259225304916231408668183459169865203094046577987296312653419531277699956473029870789655490053648352799593479218378873685597925394874945746363615468965612827738803104277547081828589991914110976])), (48, (dd [296, 1, 84162174424773976115855838126082058648805436845170781751972494449099714468753293153818664580441415219631727501698851483408310916002940861810045036330430093599283578738055113571066620126149163476340692027772502016, 304, 1, 1552518092300708935148979488462502555256886017116696611139052038026050952686376886330878408828646477950487730697131073206171580044114814391444287275041181139204454976020849905550265285631598444825262999193716468750892846853816057856, 312, 1, 28638903918474961204418783933674838490721739172170652529441449702311064005352904159345284265824628375429359509218999720074396860757073376700445026041564579620512874307979212102266801261478978776245040008231745247475930553606737583615358787106474295296, 320, 1, 528294531135665246352339784916516606518847326036121522127960709026673902556724859474417255887657187894674394993257128678882347559502685537250538978462939576908386683999005084168731517676426441053024232908211188404148028292751561738838396898767036476489538580897737998336, 328, 1, 9745314011399999080353382387875188310876226857595007526867906457212948690766426102465615065882010259225304916231408668183459169865203094046577987296312653419531277699956473029870789655490053648352799593479218378873685597925394874945746363615468965612827738803104277547081828589991914110976, 336, 1, 179769313486231590772930519078902473361797697894230657273430081157732675805500963132708477322407536021120113879871393357658789768814416622492847430639474124377767893424865485276302219601246094119453082952085005768838150682342462881473913110540827237163350510684586298239947245938479716304835356329624224137216, 344, 1, 84162174424773976115855838126082058648805436845170781751972494449099714468753293153818664580441415219631727501698851483408310916002940861810045036330430093599283578738055113571066620126149163476340692027772502016, 352, 1, 1552518092300708935148979488462502555256886017116696611139052038026050952686376886330878408828646477950487730697131073206171580044114814391444287275041181139204454976020849905550265285631598444825262999193716468750892846853816057856, 360, 1, 28638903918474961204418783933674838490721739172170652529441449702311064005352904159345284265824628375429359509218999720074396860757073376700445026041564579620512874307979212102266801261478978776245040008231745247475930553606737583615358787106474295296, 368, 1, 528294531135665246352339784916516606518847326036121522127960709026673902556724859474417255887657187894674394993257128678882347559502685537250538978462939576908386683999005084168731517676426441053024232908211188404148028292751561738838396898767036476489538580897737998336, 376, 1, 9745314011399999080353382387875188310876226857595007526867906457212948690766426102465615065882010259225304916231408668183459169865203094046577987296312653419531277699956473029870789655490053648352799593479218378873685597925394874945746363615468965612827738803104277547081828589991914110976, 384, 1, 179769313486231590772930519078902473361797697894230657273430081157732675805500963132708477322407536021120113879871393357658789768814416622492847430639474124377767893424865485276302219601246094119453082952085005768838150682342462881473913110540827237163350510684586298239947245938479716304835356329624224137216])), (47, (dd [1144, 1, 39402006196394479212279040100143613805079739270465446667948293404245721771497210611414266254884915640806627990306816, 1160, 1, 726838724295606890549323807888004534353641360687318060281490199180639288113397923326191050713763565560762521606266177933534601628614656, 1240, 1, 13407807929942597099574024998205846127479365820592393377723561443721764030073546976801874298166903427690031858186486050853753882811946569946433649006084096, 1256, 1, 247330401473104534060502521019647190035131349101211839914063056092897225106531867170316401061243044989597671426016139339351365034306751209967546155101893167916606772148699136, 1336, 1, 4562440617622195218641171605700291324893228507248559930579192517899275167208677386505912811317371399778642309573594407310688704721375437998252661319722214188251994674360264950082874192246603776, 1345, 1, 1552518092300708935148979488462502555256886017116696611139052038026050952686376886330878408828646477950487730697131073206171580044114814391444287275041181139204454976020849905550265285631598444825262999193716468750892846853816057856, 1352, 1, 84162174424773976115855838126082058648805436845170781751972494449099714468753293153818664580441415219631727501698851483408310916002940861810045036330430093599283578738055113571066620126149163476340692027772502016])), (46, (dd [1144, 1, 726838724295606890549323807888004534353641360687318060281490199180639288113397923326191050713763565560762521606266177933534601628614656, 1160, 1, 13407807929942597099574024998205846127479365820592393377723561443721764030073546976801874298166903427690031858186486050853753882811946569946433649006084096, 1240, 1, 247330401473104534060502521019647190035131349101211839914063056092897225106531867170316401061243044989597671426016139339351365034306751209967546155101893167916606772148699136, 1256, 1, 4562440617622195218641171605700291324893228507248559930579192517899275167208677386505912811317371399778642309573594407310688704721375437998252661319722214188251994674360264950082874192246603776, 1336, 1, 84162174424773976115855838126082058648805436845170781751972494449099714468753293153818664580441415219631727501698851483408310916002940861810045036330430093599283578738055113571066620126149163476340692027772502016, 1345, 1, 28638903918474961204418783933674838490721739172170652529441449702311064005352904159345284265824628375429359509218999720074396860757073376700445026041564579620512874307979212102266801261478978776245040008231745247475930553606737583615358787106474295296, 1352, 1, 1552518092300708935148979488462502555256886017116696611139052038026050952686376886330878408828646477950487730697131073206171580044114814391444287275041181139204454976020849905550265285631598444825262999193716468750892846853816057856])), (45, (dd [1144, 1, 13407807929942597099574024998205846127479365820592393377723561443721764030073546976801874298166903427690031858186486050853753882811946569946433649006084096, 1160, 1, 247330401473104534060502521019647190035131349101211839914063056092897225106531867170316401061243044989597671426016139339351365034306751209967546155101893167916606772148699136, 1240, 1, 4562440617622195218641171605700291324893228507248559930579192517899275167208677386505912811317371399778642309573594407310688704721375437998252661319722214188251994674360264950082874192246603776, 1256, 1, 84162174424773976115855838126082058648805436845170781751972494449099714468753293153818664580441415219631727501698851483408310916002940861810045036330430093599283578738055113571066620126149163476340692027772502016, 1336, 1, 1552518092300708935148979488462502555256886017116696611139052038026050952686376886330878408828646477950487730697131073206171580044114814391444287275041181139204454976020849905550265285631598444825262999193716468750892846853816057856, 1345, 1, 528294531135665246352339784916516606518847326036121522127960709026673902556724859474417255887657187894674394993257128678882347559502685537250538978462939576908386683999005084168731517676426441053024232908211188404148028292751561738838396898767036476489538580897737998336, 1352, 1, 28638903918474961204418783933674838490721739172170652529441449702311064005352904159345284265824628375429359509218999720074396860757073376700445026041564579620512874307979212102266801261478978776245040008231745247475930553606737583615358787106474295296])), (44, (dd [1144, 1, 247330401473104534060502521019647190035131349101211839914063056092897225106531867170316401061243044989597671426016139339351365034306751209967546155101893167916606772148699136, 1160, 1, 4562440617622195218641171605700291324893228507248559930579192517899275167208677386505912811317371399778642309573594407310688704721375437998252661319722214188251994674360264950082874192246603776, 1240, 1, 84162174424773976115855838126082058648805436845170781751972494449099714468753293153818664580441415219631727501698851483408310916002940861810045036330430093599283578738055113571066620126149163476340692027772502016, 1256, 1, 1552518092300708935148979488462502555256886017116696611139052038026050952686376886330878408828646477950487730697131073206171580044114814391444287275041181139204454976020849905550265285631598444825262999193716468750892846853816057856, 1336, 1, 28638903918474961204418783933674838490721739172170652529441449702311064005352904159345284265824628375429359509218999720074396860757073376700445026041564579620512874307979212102266801261478978776245040008231745247475930553606737583615358787106474295296, 1345, 1, 9745314011399999080353382387875188310876226857595007526867906457212948690766426102465615065882010259225304916231408668183459169865203094046577987296312653419531277699956473029870789655490053648352799593479218378873685597925394874945746363615468965612827738803104277547081828589991914110976, 1352, 1, 528294531135665246352339784916516606518847326036121522127960709026673902556724859474417255887657187894674394993257128678882347559502685537250538978462939576908386683999005084168731517676426441053024232908211188404148028292751561738838396898767036476489538580897737998336])), (43, (dd [1144, 1, 4562440617622195218641171605700291324893228507248559930579192517899275167208677386505912811317371399778642309573594407310688704721375437998252661319722214188251994674360264950082874192246603776, 1160, 1, 84162174424773976115855838126082058648805436845170781751972494449099714468753293153818664580441415219631727501698851483408310916002940861810045036330430093599283578738055113571066620126149163476340692027772502016, 1240, 1, 1552518092300708935148979488462502555256886017116696611139052038026050952686376886330878408828646477950487730697131073206171580044114814391444287275041181139204454976020849905550265285631598444825262999193716468750892846853816057856, 1256, 1, 28638903918474961204418783933674838490721739172170652529441449702311064005352904159345284265824628375429359509218999720074396860757073376700445026041564579620512874307979212102266801261478978776245040008231745247475930553606737583615358787106474295296, 1336, 1, 528294531135665246352339784916516606518847326036121522127960709026673902556724859474417255887657187894674394993257128678882347559502685537250538978462939576908386683999005084168731517676426441053024232908211188404148028292751561738838396898767036476489538580897737998336, 1345, 1, 179769313486231590772930519078902473361797697894230657273430081157732675805500963132708477322407536021120113879871393357658789768814416622492847430639474124377767893424865485276302219601246094119453082952085005768838150682342462881473913110540827237163350510684586298239947245938479716304835356329624224137216, 1352, 1, 9745314011399999080353382387875188310876226857595007526867906457212948690766426102465615065882010259225304916231408668183459169865203094046577987296312653419531277699956473029870789655490053648352799593479218378873685597925394874945746363615468965612827738803104277547081828589991914110976])), (42, (dd [1144, 1, 84162174424773976115855838126082058648805436845170781751972494449099714468753293153818664580441415219631727501698851483408310916002940861810045036330430093599283578738055113571066620126149163476340692027772502016, 1160, 1, 1552518092300708935148979488462502555256886017116696611139052038026050952686376886330878408828646477950487730697131073206171580044114814391444287275041181139204454976020849905550265285631598444825262999193716468750892846853816057856, 1240, 1, 28638903918474961204418783933674838490721739172170652529441449702311064005352904159345284265824628375429359509218999720074396860757073376700445026041564579620512874307979212102266801261478978776245040008231745247475930553606737583615358787106474295296, 1256, 1, 528294531135665246352339784916516606518847326036121522127960709026673902556724859474417255887657187894674394993257128678882347559502685537250538978462939576908386683999005084168731517676426441053024232908211188404148028292751561738838396898767036476489538580897737998336, 1336, 1, 9745314011399999080353382387875188310876226857595007526867906457212948690766426102465615065882010259225304916231408668183459169865203094046577987296312653419531277699956473029870789655490053648352799593479218378873685597925394874945746363615468965612827738803104277547081828589991914110976, 1345, 1, 3316158518186977171087283760642741158699936149735704467159471849921418683482035763477878926564345847729145083728966646356210626353328840324989147544629059746554141479347263264595425816446455256534872353644097455203319930608430165174159005378955830171087831965898486080345430665055936553487340789901656166618033483630075818541056, 1352, 1, 179769313486231590772930519078902473361797697894230657273430081157732675805500963132708477322407536021120113879871393357658789768814416622492847430639474124377767893424865485276302219601246094119453082952085005768838150682342462881473913110540827237163350510684586298239947245938479716304835356329624224137216])), (41, (dd [1448, 1, 247330401473104534060502521019647190035131349101211839914063056092897225106531867170316401061243044989597671426016139339351365034306751209967546155101893167916606772148699136, 1464, 1, 4562440617622195218641171605700291324893228507248559930579192517899275167208677386505912811317371399778642309573594407310688704721375437998252661319722214188251994674360264950082874192246603776, 1544, 1, 84162174424773976115855838126082058648805436845170781751972494449099714468753293153818664580441415219631727501698851483408310916002940861810045036330430093599283578738055113571066620126149163476340692027772502016, 1560, 1, 247330401473104534060502521019647190035131349101211839914063056092897225106531867170316401061243044989597671426016139339351365034306751209967546155101893167916606772148699136, 1640, 1, 4562440617622195218641171605700291324893228507248559930579192517899275167208677386505912811317371399778642309573594407310688704721375437998252661319722214188251994674360264950082874192246603776, 1656, 1, 84162174424773976115855838126082058648805436845170781751972494449099714468753293153818664580441415219631727501698851483408310916002940861810045036330430093599283578738055113571066620126149163476340692027772502016])), (40, (dd [1448, 1, 4562440617622195218641171605700291324893228507248559930579192517899275167208677386505912811317371399778642309573594407310688704721375437998252661319722214188251994674360264950082874192246603776, 1464, 1, 84162174424773976115855838126082058648805436845170781751972494449099714468753293153818664580441415219631727501698851483408310916002940861810045036330430093599283578738055113571066620126149163476340692027772502016, 1544, 1, 1552518092300708935148979488462502555256886017116696611139052038026050952686376886330878408828646477950487730697131073206171580044114814391444287275041181139204454976020849905550265285631598444825262999193716468750892846853816057856, 1560, 1, 4562440617622195218641171605700291324893228507248559930579192517899275167208677386505912811317371399778642309573594407310688704721375437998252661319722214188251994674360264950082874192246603776, 1640, 1, 84162174424773976115855838126082058648805436845170781751972494449099714468753293153818664580441415219631727501698851483408310916002940861810045036330430093599283578738055113571066620126149163476340692027772502016, 1656, 1, 1552518092300708935148979488462502555256886017116696611139052038026050952686376886330878408828646477950487730697131073206171580044114814391444287275041181139204454976020849905550265285631598444825262999193716468750892846853816057856])), (39, (dd [1448, 1, 84162174424773976115855838126082058648805436845170781751972494449099714468753293153818664580441415219631727501698851483408310916002940861810045036330430093599283578738055113571066620126149163476340692027772502016, 1464, 1, 1552518092300708935148979488462502555256886017116696611139052038026050952686376886330878408828646477950487730697131073206171580044114814391444287275041181139204454976020849905550265285631598444825262999193716468750892846853816057856, 1544, 1, 28638903918474961204418783933674838490721739172170652529441449702311064005352904159345284265824628375429359509218999720074396860757073376700445026041564579620512874307979212102266801261478978776245040008231745247475930553606737583615358787106474295296, 1560, 1, 84162174424773976115855838126082058648805436845170781751972494449099714468753293153818664580441415219631727501698851483408310916002940861810045036330430093599283578738055113571066620126149163476340692027772502016, 1640, 1, 1552518092300708935148979488462502555256886017116696611139052038026050952686376886330878408828646477950487730697131073206171580044114814391444287275041181139204454976020849905550265285631598444825262999193716468750892846853816057856, 1656, 1, 28638903918474961204418783933674838490721739172170652529441449702311064005352904159345284265824628375429359509218999720074396860757073376700445026041564579620512874307979212102266801261478978776245040008231745247475930553606737583615358787106474295296])), (38, (dd [2232, 1, 247330401473104534060502521019647190035131349101211839914063056092897225106531867170316401061243044989597671426016139339351365034306751209967546155101893167916606772148699136, 2248, 1, 4562440617622195218641171605700291324893228507248559930579192517899275167208677386505912811317371399778642309573594407310688704721375437998252661319722214188251994674360264950082874192246603776, 2257, 1, 1552518092300708935148979488462502555256886017116696611139052038026050952686376886330878408828646477950487730697131073206171580044114814391444287275041181139204454976020849905550265285631598444825262999193716468750892846853816057856, 2264, 1, 84162174424773976115855838126082058648805436845170781751972494449099714468753293153818664580441415219631727501698851483408310916002940861810045036330430093599283578738055113571066620126149163476340692027772502016])), (37, (dd [2232, 1, 4562440617622195218641171605700291324893228507248559930579192517899275167208677386505912811317371399778642309573594407310688704721375437998252661319722214188251994674360264950082874192246603776, 2248, 1, 84162174424773976115855838126082058648805436845170781751972494449099714468753293153818664580441415219631727501698851483408310916002940861810045036330430093599283578738055113571066620126149163476340692027772502016, 2257, 1, 28638903918474961204418783933674838490721739172170652529441449702311064005352904159345284265824628375429359509218999720074396860757073376700445026041564579620512874307979212102266801261478978776245040008231745247475930553606737583615358787106474295296, 2264, 1, 1552518092300708935148979488462502555256886017116696611139052038026050952686376886330878408828646477950487730697131073206171580044114814391444287275041181139204454976020849905550265285631598444825262999193716468750892846853816057856])), (36, (dd [2232, 1, 84162174424773976115855838126082058648805436845170781751972494449099714468753293153818664580441415219631727501698851483408310916002940861810045036330430093599283578738055113571066620126149163476340692027772502016, 2248, 1, 1552518092300708935148979488462502555256886017116696611139052038026050952686376886330878408828646477950487730697131073206171580044114814391444287275041181139204454976020849905550265285631598444825262999193716468750892846853816057856, 2257, 1, 528294531135665246352339784916516606518847326036121522127960709026673902556724859474417255887657187894674394993257128678882347559502685537250538978462939576908386683999005084168731517676426441053024232908211188404148028292751561738838396898767036476489538580897737998336, 2264, 1, 28638903918474961204418783933674838490721739172170652529441449702311064005352904159345284265824628375429359509218999720074396860757073376700445026041564579620512874307979212102266801261478978776245040008231745247475930553606737583615358787106474295296])), (35, (dd [296, 0, 247330401473104534060502521019647190035131349101211839914063056092897225106531867170316401061243044989597671426016133062249629647625987374178122947435477065561162308114186240, 304, 0, 4562440617622195218641171605700291324893228507248559930579192517899275167208677386505912811317371399778642309573594291518599467405180014427267652631814360918267329033796225492498866279116963840, 312, 0, 84162174424773976115855838126082058648805436845170781751972494449099714468753293153818664580441415219631727501698849347421274995092858466788338866778315490894761222085285166529458797906423382835790669065685565440, 320, 0, 247330401473104534060502521019647190035131349101211839914063056092897225106531867170316401061243044989597671426016133062249629647625987374178122947435477065561162308114186240, 328, 0, 4562440617622195218641171605700291324893228507248559930579192517899275167208677386505912811317371399778642309573594291518599467405180014427267652631814360918267329033796225492498866279116963840, 336, 0, 84162174424773976115855838126082058648805436845170781751972494449099714468753293153818664580441415219631727501698849347421274995092858466788338866778315490894761222085285166529458797906423382835790669065685565440])), (34, (dd [296, 0, 4562440617622195218641171605700291324893228507248559930579192517899275167208677386505912811317371399778642309573594291518599467405180014427267652631814360918267329033796225492498866279116963840, 304, 0, 84162174424773976115855838126082058648805436845170781751972494449099714468753293153818664580441415219631727501698849347421274995092858466788338866778315490894761222085285166529458797906423382835790669065685565440, 312, 0, 1552518092300708935148979488462502555256886017116696611139052038026050952686376886330878408828646477950487730697131033804165383649635602112404187131427376059465184510574181957256861039909826947614651584927461583835252040225825751040, 320, 0, 4562440617622195218641171605700291324893228507248559930579192517899275167208677386505912811317371399778642309573594291518599467405180014427267652631814360918267329033796225492498866279116963840, 328, 0, 84162174424773976115855838126082058648805436845170781751972494449099714468753293153818664580441415219631727501698849347421274995092858466788338866778315490894761222085285166529458797906423382835790669065685565440, 336, 0, 1552518092300708935148979488462502555256886017116696611139052038026050952686376886330878408828646477950487730697131033804165383649635602112404187131427376059465184510574181957256861039909826947614651584927461583835252040225825751040])), (33, (dd [296, 0, 84162174424773976115855838126082058648805436845170781751972494449099714468753293153818664580441415219631727501698849347421274995092858466788338866778315490894761222085285166529458797906423382835790669065685565440, 304, 0, 1552518092300708935148979488462502555256886017116696611139052038026050952686376886330878408828646477950487730697131033804165383649635602112404187131427376059465184510574181957256861039909826947614651584927461583835252040225825751040, 312, 0, 28638903918474961204418783933674838490721739172170652529441449702311064005352904159345284265824628375429359509218998993235672565150182827376637138037030225979152186989918930612067620622190865378321713817181031483910369791085131317437425252504845680640, 320, 0, 84162174424773976115855838126082058648805436845170781751972494449099714468753293153818664580441415219631727501698849347421274995092858466788338866778315490894761222085285166529458797906423382835790669065685565440, 328, 0, 1552518092300708935148979488462502555256886017116696611139052038026050952686376886330878408828646477950487730697131033804165383649635602112404187131427376059465184510574181957256861039909826947614651584927461583835252040225825751040, 336, 0, 28638903918474961204418783933674838490721739172170652529441449702311064005352904159345284265824628375429359509218998993235672565150182827376637138037030225979152186989918930612067620622190865378321713817181031483910369791085131317437425252504845680640])), (32, (dd [5816, 0, 247330401473104534060502521019647190035131349101211839914063056092897225106531867170316401061243044989597671426016133062249629647625987374178122947435477065561162308114186240, 5832, 0, 4562440617622195218641171605700291324893228507248559930579192517899275167208677386505912811317371399778642309573594291518599467405180014427267652631814360918267329033796225492498866279116963840, 5841, 0, 1552518092300708935148979488462502555256886017116696611139052038026050952686376886330878408828646477950487730697131033804165383649635602112404187131427376059465184510574181957256861039909826947614651584927461583835252040225825751040, 5848, 0, 84162174424773976115855838126082058648805436845170781751972494449099714468753293153818664580441415219631727501698849347421274995092858466788338866778315490894761222085285166529458797906423382835790669065685565440])), (31, (dd [5816, 0, 4562440617622195218641171605700291324893228507248559930579192517899275167208677386505912811317371399778642309573594291518599467405180014427267652631814360918267329033796225492498866279116963840, 5832, 0, 84162174424773976115855838126082058648805436845170781751972494449099714468753293153818664580441415219631727501698849347421274995092858466788338866778315490894761222085285166529458797906423382835790669065685565440, 5841, 0, 28638903918474961204418783933674838490721739172170652529441449702311064005352904159345284265824628375429359509218998993235672565150182827376637138037030225979152186989918930612067620622190865378321713817181031483910369791085131317437425252504845680640, 5848, 0, 1552518092300708935148979488462502555256886017116696611139052038026050952686376886330878408828646477950487730697131033804165383649635602112404187131427376059465184510574181957256861039909826947614651584927461583835252040225825751040])), (30, (dd [5816, 0, 84162174424773976115855838126082058648805436845170781751972494449099714468753293153818664580441415219631727501698849347421274995092858466788338866778315490894761222085285166529458797906423382835790669065685565440, 5832, 0, 1552518092300708935148979488462502555256886017116696611139052038026050952686376886330878408828646477950487730697131033804165383649635602112404187131427376059465184510574181957256861039909826947614651584927461583835252040225825751040, 5841, 0, 528294531135665246352339784916516606518847326036121522127960709026673902556724859474417255887657187894674394993257115271074417616905585963225540772616812097542566091605627360607287795912396367506047431033913021500720338260893375252787543144884224529919592147248731914240, 5848, 0, 28638903918474961204418783933674838490721739172170652529441449702311064005352904159345284265824628375429359509218998993235672565150182827376637138037030225979152186989918930612067620622190865378321713817181031483910369791085131317437425252504845680640])), (29, (dd [344, 1, 9745314011399999080353382387875188310876226857595007526867906457212948690766426102465615065882010259225304916231408420853057696760669033544056967649122618288182176488116558966814696758264947116485629277078157135828696000253968858806407012250434658861617771256949175653913911983219765411840, 352, 1, 179769313486231590772930519078902473361797697894230657273430081157732675805500963132708477322407536021120113879871388795218172146619197981321241730348149231149260644864934906083784320326078885442066577039273688397438372040032889287066602421836105861725352258023266576025758993943805356039885273455431977533440, 360, 1, 3316158518186977171087283760642741158699936149735704467159471849921418683482035763477878926564345847729145083728966562194036201579352724469151021462570410941117296308565511292100976716731986503241718534979517013788100298880928466322675597068039827230226021920862155650251831381477198498373769723281530017454557142938048046039040, 368, 1, 9745314011399999080353382387875188310876226857595007526867906457212948690766426102465615065882010259225304916231408420853057696760669033544056967649122618288182176488116558966814696758264947116485629277078157135828696000253968858806407012250434658861617771256949175653913911983219765411840, 376, 1, 179769313486231590772930519078902473361797697894230657273430081157732675805500963132708477322407536021120113879871388795218172146619197981321241730348149231149260644864934906083784320326078885442066577039273688397438372040032889287066602421836105861725352258023266576025758993943805356039885273455431977533440, 384, 1, 3316158518186977171087283760642741158699936149735704467159471849921418683482035763477878926564345847729145083728966562194036201579352724469151021462570410941117296308565511292100976716731986503241718534979517013788100298880928466322675597068039827230226021920862155650251831381477198498373769723281530017454557142938048046039040])), (28, (dd [344, 1, 179769313486231590772930519078902473361797697894230657273430081157732675805500963132708477322407536021120113879871388795218172146619197981321241730348149231149260644864934906083784320326078885442066577039273688397438372040032889287066602421836105861725352258023266576025758993943805356039885273455431977533440, 352, 1, 3316158518186977171087283760642741158699936149735704467159471849921418683482035763477878926564345847729145083728966562194036201579352724469151021462570410941117296308565511292100976716731986503241718534979517013788100298880928466322675597068039827230226021920862155650251831381477198498373769723281530017454557142938048046039040, 360, 1, 61172327492847069472032393719205726809135813743440799050195397570919697796091958321786863938157971792315844506873507494026366707646101001670845154387655368800047356274869483001071757146063268022725721933732999275610167290344136567515841960576255908030508397682599722690485598148539631148207495443284295639017720970169640826795927225562563231088640, 368, 1, 179769313486231590772930519078902473361797697894230657273430081157732675805500963132708477322407536021120113879871388795218172146619197981321241730348149231149260644864934906083784320326078885442066577039273688397438372040032889287066602421836105861725352258023266576025758993943805356039885273455431977533440, 376, 1, 3316158518186977171087283760642741158699936149735704467159471849921418683482035763477878926564345847729145083728966562194036201579352724469151021462570410941117296308565511292100976716731986503241718534979517013788100298880928466322675597068039827230226021920862155650251831381477198498373769723281530017454557142938048046039040, 384, 1, 61172327492847069472032393719205726809135813743440799050195397570919697796091958321786863938157971792315844506873507494026366707646101001670845154387655368800047356274869483001071757146063268022725721933732999275610167290344136567515841960576255908030508397682599722690485598148539631148207495443284295639017720970169640826795927225562563231088640])), (27, (dd [344, 1, 3316158518186977171087283760642741158699936149735704467159471849921418683482035763477878926564345847729145083728966562194036201579352724469151021462570410941117296308565511292100976716731986503241718534979517013788100298880928466322675597068039827230226021920862155650251831381477198498373769723281530017454557142938048046039040, 352, 1, 61172327492847069472032393719205726809135813743440799050195397570919697796091958321786863938157971792315844506873507494026366707646101001670845154387655368800047356274869483001071757146063268022725721933732999275610167290344136567515841960576255908030508397682599722690485598148539631148207495443284295639017720970169640826795927225562563231088640, 360, 1, 1128430269653696552505663664688505519051893948117725342710709407999638941941219040912833546632301522012495604549678605978408783319969756278149916470436018498160433048865917576919956070634332979696174880249501463874722041470230194944019445317470307104720504558900817980649418109454619138479825704463833652128124900166531408293257546571478173638888412507351845951242240, 368, 1, 3316158518186977171087283760642741158699936149735704467159471849921418683482035763477878926564345847729145083728966562194036201579352724469151021462570410941117296308565511292100976716731986503241718534979517013788100298880928466322675597068039827230226021920862155650251831381477198498373769723281530017454557142938048046039040, 376, 1, 61172327492847069472032393719205726809135813743440799050195397570919697796091958321786863938157971792315844506873507494026366707646101001670845154387655368800047356274869483001071757146063268022725721933732999275610167290344136567515841960576255908030508397682599722690485598148539631148207495443284295639017720970169640826795927225562563231088640, 384, 1, 1128430269653696552505663664688505519051893948117725342710709407999638941941219040912833546632301522012495604549678605978408783319969756278149916470436018498160433048865917576919956070634332979696174880249501463874722041470230194944019445317470307104720504558900817980649418109454619138479825704463833652128124900166531408293257546571478173638888412507351845951242240])), (26, (dd [9944, 1, 9745314011399999080353382387875188310876226857595007526867906457212948690766426102465615065882010259225304916231408420853057696760669033544056967649122618288182176488116558966814696758264947116485629277078157135828696000253968858806407012250434658861617771256949175653913911983219765411840, 9960, 1, 179769313486231590772930519078902473361797697894230657273430081157732675805500963132708477322407536021120113879871388795218172146619197981321241730348149231149260644864934906083784320326078885442066577039273688397438372040032889287066602421836105861725352258023266576025758993943805356039885273455431977533440, 9969, 1, 61172327492847069472032393719205726809135813743440799050195397570919697796091958321786863938157971792315844506873507494026366707646101001670845154387655368800047356274869483001071757146063268022725721933732999275610167290344136567515841960576255908030508397682599722690485598148539631148207495443284295639017720970169640826795927225562563231088640, 9976, 1, 3316158518186977171087283760642741158699936149735704467159471849921418683482035763477878926564345847729145083728966562194036201579352724469151021462570410941117296308565511292100976716731986503241718534979517013788100298880928466322675597068039827230226021920862155650251831381477198498373769723281530017454557142938048046039040])), (25, (dd [9944, 1, 179769313486231590772930519078902473361797697894230657273430081157732675805500963132708477322407536021120113879871388795218172146619197981321241730348149231149260644864934906083784320326078885442066577039273688397438372040032889287066602421836105861725352258023266576025758993943805356039885273455431977533440, 9960, 1, 3316158518186977171087283760642741158699936149735704467159471849921418683482035763477878926564345847729145083728966562194036201579352724469151021462570410941117296308565511292100976716731986503241718534979517013788100298880928466322675597068039827230226021920862155650251831381477198498373769723281530017454557142938048046039040, 9969, 1, 1128430269653696552505663664688505519051893948117725342710709407999638941941219040912833546632301522012495604549678605978408783319969756278149916470436018498160433048865917576919956070634332979696174880249501463874722041470230194944019445317470307104720504558900817980649418109454619138479825704463833652128124900166531408293257546571478173638888412507351845951242240, 9976, 1, 61172327492847069472032393719205726809135813743440799050195397570919697796091958321786863938157971792315844506873507494026366707646101001670845154387655368800047356274869483001071757146063268022725721933732999275610167290344136567515841960576255908030508397682599722690485598148539631148207495443284295639017720970169640826795927225562563231088640])), (24, (dd [9944, 1, 3316158518186977171087283760642741158699936149735704467159471849921418683482035763477878926564345847729145083728966562194036201579352724469151021462570410941117296308565511292100976716731986503241718534979517013788100298880928466322675597068039827230226021920862155650251831381477198498373769723281530017454557142938048046039040, 9960, 1, 61172327492847069472032393719205726809135813743440799050195397570919697796091958321786863938157971792315844506873507494026366707646101001670845154387655368800047356274869483001071757146063268022725721933732999275610167290344136567515841960576255908030508397682599722690485598148539631148207495443284295639017720970169640826795927225562563231088640, 9969, 1, 20815864389328798163850480654728171077230524494533409610638224700807216119346720596024478883464648369684843227908561487288235996831400577476494896694748122678522222897256312730837340025420610376086444423839491965235492679900103700605246120421317017897927447231643858717499924783372512204248280932264161177253083420173372830864992722949173164496017263342573606764952951882530508599459840, 9976, 1, 1128430269653696552505663664688505519051893948117725342710709407999638941941219040912833546632301522012495604549678605978408783319969756278149916470436018498160433048865917576919956070634332979696174880249501463874722041470230194944019445317470307104720504558900817980649418109454619138479825704463833652128124900166531408293257546571478173638888412507351845951242240])), (23, (dd [0, 0, 9745314011399999080353382387875188310876226857595007526867906457212948690766426102465615065882010259225304916231408668183459169865203094046577987296312653419531277699956473029870789655490053648352799593479218378873685597925394874945746363615468965612827738803104277547081828589991914110976])), (22, (dd [0, 1, 9745314011399999080353382387875188310876226857595007526866353939120647981831277122977152563326753373208188219620269616145433118912516717160247108887484006941580789969259341956664618075445938833961355306204177197734481142949374025040196098329837367168002475803910561078330935743138098053120])), (21, (dd [0, 0, 179769313486231590772930519078902473361797697894230657273430081157732675805500963132708477322407536021120113879871393357658789768814416622492847430639474124377767893424865485276302219601246094119453082952085005768838150682342462881473913110540827237163350510684586298239947245938479716304835356329624224137216])), (20, (dd [0, 0, 179769313486231590772930519078902473361797697894230657273430081157732675805500963132708477322407536021120113879871393357658789768814416622492847430639474124377767893424865485276302219601246094119453082952085005768838150682342462881473913110540827237163350510684586298239947245938479716304835356329624224137216])), (19, (dd [0, 0, 61172327492847069472032393719205726809135813743440799050185652256908297797011604939398988749847095565458249499346641140087246059664269724547868001824328615426839168055249213384926324027150751305565474824845515268668586500374877225559177342500809969196547042376395545492751117005590257123167299344954458271849718494365730265717596289819425133035520])), (18, (dd [0, 0, 179769313486231590772930519078902473361797697894230657273430081157732675805500963132708477322407536021120113879871393357658789768814416622492847430639474124377767893424865485276302219601246094119453082952085005768838150682342462881473913110540827237163350510684586298239947245938479716304835356329624224137216])), (17, (dd [0, 0, 61172327492847069472032393719205726809135813743440799050195397570919697796091958321786863938157971792315844506873509046544459008355036150650333616890210625686064472971480622053109783197015954399612052812141827922088117778074833698589048132156300022844899841969874763871624802603515651998113045708569927237462546233168834543264678118409417047146496])), (16, (dd [0, 1, 9745314011399999080353382387875188310876226857595007526867906457212948690766426102465615065882010259225304916231408420853057696760669033544056967649122618288182176488116558966814696758264947116485629277078157135828696000253968858806407012250434658861617771256949175653913911983219765411840])), (15, (dd [0, 0, 9745314011399999080353382387875188310876226857595007526866353939120647981831277122977152563326753373208188219620269368815031645807982656657726089240293971810231688757419427933010531374615311514373225089946729759769230815743394676849150151210524831914003119672021714070078659942993939660800])), (14, (dd [0, 1, 179769313486231590772930519078902473361797697894230657273430081157732675805500963132708477322407536021120113879871388795218172146619197981321241730348149231149260644864934906083784320326078885442066577039273688397438372040032889287066602421836105861725352258023266576025758993943805356039885273455431977533440])), (13, (dd [0, 1, 179769313486231590772930519078902473361797697894230657273430081157732675805500963132708477322407536021120113879871388795218172146619197981321241730348149231149260644864934906083784320326078885442066577039273688397438372040032889287066602421836105861725352258023266576025758993943805356039885273455431977533440])), (12, (dd [0, 1, 61172327492847069472032393719205726809135813743440799050185652256908297797011604939398988749847095565458249499346639587569153758955334575568379539321773358540822051358638074580218699449302598989181664966083876657321985113856020008549027263817990960914022768405521565554656902148285662289401088431033860980156103198912691651142013313579343465676800])), (11, (dd [0, 1, 179769313486231590772930519078902473361797697894230657273430081157732675805500963132708477322407536021120113879871388795218172146619197981321241730348149231149260644864934906083784320326078885442066577039273688397438372040032889287066602421836105861725352258023266576025758993943805356039885273455431977533440])), (10, (dd [0, 1, 61172327492847069472032393719205726809135813743440799050195397570919697796091958321786863938157971792315844506873507494026366707646101001670845154387655368800047356274869483001071757146063268022725721933732999275610167290344136567515841960576255908030508397682599722690485598148539631148207495443284295639017720970169640826795927225562563231088640])), (9, (dd [0, 0, 1128430269653696552505663664688505519051893948117725342710709407999638941941219040912833546632301522012495604549678634617312701794930960696933850145274509219899605219518447018369658381698338332600334225533767288503097470829739413943739519714331064178097205003926859545229038622328927117691927971265095131106901145206539640038505022502031780376472027866138952425537536])), (8, (dd [0, 0, 1128430269653696552505663664688505519051893948117725342710709407999638941941219040912833546632301522012495604549678634617312701794930960696933850145274509219899605219518447018369658381698338332600334225533767288503097470829739413943739519714331064178097205003926859545229038622328927117691927971265095131106901145206539640038505022502031780376472027866138952425537536])), (7, (dd [0, 0, 383984923062992702193107238768305990575971314802788874095145673202075995393018055488645297669674812185833211621938090724659508320715616692194400691710372378213418288788259466578068565105380321435293594783163552709668447090733983822804479683920206525585304147102121952077858745165100457564757557672186919467520041104262121681944859667561541416814386589402282723926249233541944750920981099067576946199101440])), (6, (dd [0, 1, 383984923062992702193107238768305990575971314802788874095084500874583148323546023094926091942865676372089770822887895327088588622919524733872613827772214406421102444281385959084042198397734220433622749628775897340868399734459114339803407926774143257562578425168388952802248577874756320997241715711610663559489532706579521959254374069413001785666179093958998428287231512571775110094185171842014382968012800])), (5, (dd [0, 0, 7083271603906078757501937199839970337237042072752024044272935252133021449487672037753077279976540494138725768234495639460865213383891750514006138423978523497385900672697721806778792081483055605376660789950197995749542384583557634760437214694792759342541383886741186148643243190031453502483908707138782883330117061211004372852736744112420227693376322850938821026815951518811414139423517682368550485918569681625682604499927040])), (4, (dd [0, 0, 7083271603906078757501937199839970337237042072752024044272935252133021449487672037753077279976540494138725768234495639460865213383891750514006138423978523497385900672697721806778792081483055605376660789950197995749542384583557634760437214694792759342541383886741186148643243190031453502483908707138782883330117061211004372852736744112420227693376322850938821026815951518811414139423517682368550485918569681625682604499927040])), (3, (dd [0, 0, 2410312426921032588580116606028314112912093247945688951359291054142194398889610093430316718116770078348645977406792797942332848136332468237087248484494290703455636686960636938648551649899169791026329355581739289707591611724609466133836774097985772607411871712942246914294118843717911963966936574500668647890384052909307328163054285148619583158817232982046557774224527342530414634735698579334708318113448006611881985247542259232750729738936987209671018397093068800])), (2, (dd [0, 0, 7083271603906078757501937199839970337237042072752024044272935252133021449487672037753077279976540494138725768234495639460865213383891750514006138423978523497385900672697721806778792081483055605376660789950197995749542384583557634760437214694792759342541383886741186148643243190031453502483908707138782883330117061211004372852736744112420227693376322850938821026815951518811414139423517682368550485918569681625682604499927040])), (1, (dd [0, 0, 2410312426921032588580116606028314112912093247945688951359675039065257391591803200669085024107346049663448766280887943615534924131725486292575893782163965515641469898582575029373211158219885407718523756273449662085805030013397725600414842663091152928847165307725410467003787290808645947789741054184588854415969357056409450115132143893784683616381990539718744693692047383634676756417643439002269859530262393201284267971468508466292674489857968308738595343292170240])), (0, (dd [0, 0, 1128430269653696552505663664688505519051893948117725342710709407999638941941219040912833546632301522012495604549678634617312701794930960696933850145274509219899605219518447018369658381698338332600334225533767288503097470829739413943739519714331064178097205003926859545229038622328927117691927971265095131106901145206539640038505022502031780376472027866138952425537536]))] = true := by decide +kernel

def C.mul_xy : Cert where
  S := ⟨[], [24, 12], [.arr 0, .arr 1, .arr 1], 0⟩
  anns := [a0, a0, a0, a0, a0, a0, a0, a2, a2, a0, a0, a0, a0, a2, a2, a0, a0, a0, a0, a2, a2, a1, a0, a0, a0, a0, a2, a2, a0, a0, a0, a0, a2, a2, a0, a0, a0, a0, a2, a2, a1, a1, a1, a0, a0, a0, a0, a0, a0, a0, a0, a0, a0, a0, a0, a0, a0, a0, a0, a0, a0, a0, a0, a0, a0, a0, a0, a0, a0, a0, a0, a0, a0, a0, a1, a2, a2, a2, a1, a2, a2, a2, a1, a1, a1, a0, a0, a0, a0, a0, a0, a0, a0, a0, a0, a0, a0, a0, a0, a0, au 1 2578, au 2 2562, a1, a0, au 0 2674, a0, a1, a1, a0, au 0 2754, a0, a0, a1, a0, au 0 2834, a0, a0, a1, a0, au 0 2914, a0, a0, a1, a0, au 0 2994, a0, a0, a1, a0, au 0 3074, a0, a0, a1, a0, au 0 3154, a0, a0, a1, a0, a0, a0, a0, a0, a0, au 0 3266, a0, a0, a0, a0, a1, au 2 3378, a0, au 0 3442, a0, a1, a1, a0, au 0 3522, a0, a0, a1, a0, au 0 3602, a0, a0, a1, a0, au 0 3682, a0, a0, a1, a0, au 0 3762, a0, a0, a1, a0, au 0 3842, a0, a0, a1, a0, au 0 3922, a0, a0, a1, a0, a0, a0, a0, a0, a0, a0, a0, a0, a0, a0, a0, a0, a0, a0, a0, a0, a0, a0, a0, a0, au 1 4306, a0, a0, a0, au 1 4370, a0, a0, a0, a0, au 0 4466, a0, a1, a1, a0, au 0 4546, a0, a0, a1, a0, au 0 4626, a0, a0, a1, a0, au 0 4706, a0, a0, a1, a0, au 0 4786, a0, a0, a1, a0, au 0 4866, a0, a0, a1, a0, au 0 4946, a0, a0, a1, a0, a0, a0, a0, a0, a0, a0, a0, a0, a0, a0, a0, a0, a0, a0, a0, a0, a0, a0, a0, a0, a0, a0, a0, a0, a0, a0, a0, a0, a0, a0, a0, a0, a0, a0, a0, a1, a0, a0, a0, a0, a0, a0, a0, a0, a0, a0, a0, a0, a2, a2, a2, a1, a2, a2, a2, a1, a1, a1, a0, a0, a0, a0, a0, a0, a0, a0, a0, a0, a0, a0, a0, a0, a0, au 1 6162, au 2 6146, a1, a0, au 0 6258, a0, a1, a1, a0, au 0 6338, a0, a0, a1, a0, au 0 6418, a0, a0, a1, a0, au 0 6498, a0, a0, a1, a0, au 0 6578, a0, a0, a1, a0, au 0 6658, a0, a0, a1, a0, au 0 6738, a0, a0, a1, a0, a0, a0, a0, a0, a0, au 0 6850, a0, a0, a0, a0, a1, au 2 6962, au 2 6962, au 3 6962, a0, a1, a1, a0, au 0 7106, a0, a0, a1, a0, au 0 7186, a0, a0, a1, au 7 7106, au 8 7106, a0, a0, a1, a0, au 0 7346, a0, a0, a1, au 3 7346, au 4 7346, a0, a0, a1, a0, au 0 7506, a0, a0, a1, a0, a0, a0, a0, a0, a0, a0, a0, a0, a0, a0, a0, a0, a0, a0, a0, a0, a0, a0, a0, a0, au 1 7890, a0, a0, a0, au 1 7954, a0, a0, a0, au 4 7954, au 5 7954, a0, a1, a1, a0, au 0 8130, a0, a0, a1, a0, au 0 8210, a0, a0, a1, au 7 8130, au 8 8130, a0, a0, a1, a0, au 0 8370, a0, a0, a1, au 3 8370, au 4 8370, a0, a0, a1, a0, au 0 8530, a0, a0, a1, a0, a0, a0, a0, a0, a0, a0, a0, a0, a0, a0, a0, a0, a0, a0, a0, a0, a0, a0, a0, a0, a0, a0, a0, a0, a0, a0, a0, a0, a0, a0, a0, a0, a0, a0, a0, a0, a0, a0, a0, a0, a0, a0, a0, a0, a0, a0, a0, a0, a0, a0, a0, a0, a0, a0, a0, a0, a0, a0, a0, a0, a0, a0, a0, a0, a0, a0, a0, a0, a0, a0, a0, a0, a0, a0, a0, a0, a0, a0, a0, a0, a0, a0, a2, a2, a2, a1, a2, a2, a2, a1, a1, a1, a0, a0, a0, a0, a0, a0, a0, a0, a0, a0, a0, a0, a0, a0, a0, au 1 10290, au 2 10274, a1, a0, au 0 10386, a0, a1, a1, a0, au 0 10466, a0, a0, a1, a0, au 0 10546, a0, a0, a1, a0, au 0 10626, a0, a0, a1, a0, au 0 10706, a0, a0, a1, a0, au 0 10786, a0, a0, a1, a0, au 0 10866, a0, a0, a1, a0, a0, a0, a0, a0, a0, au 0 10978, a0, a0, a0, a0, a1, au 2 11090, au 2 11090, au 3 11090, a0, a1, a1, a0, au 0 11234, a0, a0, a1, a0, au 0 11314, a0, a0, a1, au 7 11234, au 8 11234, a0, a0, a1, a0, au 0 11474, a0, a0, a1, au 3 11474, au 4 11474, a0, a0, a1, a0, au 0 11634, a0, a0, a1, a0, a0, a0, a0, a0, a0, a0, a0, a0, a0, a0, a0, a0, a0, a0, a0, a0, a0, a0, a0, a0, au 1 12018, a0, a0, a0, au 1 12082, a0, a0, a0, au 4 12082, au 5 12082, a0, a1, a1, a0, au 0 12258, a0, a0, a1, a0, au 0 12338, a0, a0, a1, au 7 12258, au 8 12258, a0, a0, a1, a0, au 0 12498, a0, a0, a1, au 3 12498, au 4 12498, a0, a0, a1, a0, au 0 12658, a0, a0, a1, a0, a0, a0, a0, a0, a0, a0, a0, a0, a0, a0, a0, a0, a0, a0, a0, a0, a0, a0, a0, a0, a0, a0, a0, a0, a0, a0, a0, a0, a0, a0, a0, a0, a0, a0, a0, a0, a0, a0, a0, a0, a0, a0, a0, a0, a0, a0, a0, a0, a0, a0, a0, a0, a0, a0, a0, a0, a0, a0, a0, a0, a0, a0, a0, a0, a0, a0, a0, a0, a0, a0, a0, a0, a0, a0, a0]
  hints := [⟨[447, 439, 436, 435], (dd [3249, 0, 1]), []⟩, ⟨[411, 403, 400, 399], (dd [4017, 0, 1]), []⟩, ⟨[398, 397, 396, 395, 394, 393, 392], (dd [4225, 1, 1]), [(19, (dd [1448, 1, 1, 1464, 1, 18446744073709551616, 1544, 1, 340282366920938463463374607431768211456, 1560, 1, 1, 1640, 1, 18446744073709551616, 1656, 1, 340282366920938463463374607431768211456])), (18, (dd [1448, 1, 18446744073709551616, 1464, 1, 340282366920938463463374607431768211456, 1544, 1, 6277101735386680763835789423207666416102355444464034512896, 1560, 1, 18446744073709551616, 1640, 1, 340282366920938463463374607431768211456, 1656, 1, 6277101735386680763835789423207666416102355444464034512896])), (17, (dd [1448, 1, 340282366920938463463374607431768211456, 1464, 1, 6277101735386680763835789423207666416102355444464034512896, 1544, 1, 115792089237316195423570985008687907853269984665640564039457584007913129639936, 1560, 1, 340282366920938463463374607431768211456, 1640, 1, 6277101735386680763835789423207666416102355444464034512896, 1656, 1, 115792089237316195423570985008687907853269984665640564039457584007913129639936])), (16, (dd [2232, 1, 1, 2248, 1, 18446744073709551616, 2257, 1, 6277101735386680763835789423207666416102355444464034512896, 2264, 1, 340282366920938463463374607431768211456])), (15, (dd [2232, 1, 18446744073709551616, 2248, 1, 340282366920938463463374607431768211456, 2257, 1, 115792089237316195423570985008687907853269984665640564039457584007913129639936, 2264, 1, 6277101735386680763835789423207666416102355444464034512896])), (14, (dd [2232, 1, 340282366920938463463374607431768211456, 2248, 1, 6277101735386680763835789423207666416102355444464034512896, 2257, 1, 2135987035920910082395021706169552114602704522356652769947041607822219725780640550022962086936576, 2264, 1, 115792089237316195423570985008687907853269984665640564039457584007913129639936])), (1, (dd [0, 0, 39402006196394479212279040100143613805079739270465446667948293404245721771497210611414266254884915640806627990306816])), (0, (dd [0, 1, 39402006196394479212279040100143613805079739270465446667948293404245721771497210611414266254884915640806627990306816]))]⟩, ⟨[391, 390, 388, 386, 385, 384, 383], (dd [4449, 0, 1]), [(20, (dd [1448, 1, 1, 1464, 1, 18446744073709551616, 1544, 1, 340282366920938463463374607431768211456, 1560, 1, 1, 1640, 1, 18446744073709551616, 1656, 1, 340282366920938463463374607431768211456])), (19, (dd [1448, 1, 18446744073709551616, 1464, 1, 340282366920938463463374607431768211456, 1544, 1, 6277101735386680763835789423207666416102355444464034512896, 1560, 1, 18446744073709551616, 1640, 1, 340282366920938463463374607431768211456, 1656, 1, 6277101735386680763835789423207666416102355444464034512896])), (18, (dd [1448, 1, 340282366920938463463374607431768211456, 1464, 1, 6277101735386680763835789423207666416102355444464034512896, 1544, 1, 115792089237316195423570985008687907853269984665640564039457584007913129639936, 1560, 1, 340282366920938463463374607431768211456, 1640, 1, 6277101735386680763835789423207666416102355444464034512896, 1656, 1, 115792089237316195423570985008687907853269984665640564039457584007913129639936])), (17, (dd [2232, 1, 1, 2248, 1, 18446744073709551616, 2257, 1, 6277101735386680763835789423207666416102355444464034512896, 2264, 1, 340282366920938463463374607431768211456])), (16, (dd [2232, 1, 18446744073709551616, 2248, 1, 340282366920938463463374607431768211456, 2257, 1, 115792089237316195423570985008687907853269984665640564039457584007913129639936, 2264, 1, 6277101735386680763835789423207666416102355444464034512896])), (15, (dd [2232, 1, 340282366920938463463374607431768211456, 2248, 1, 6277101735386680763835789423207666416102355444464034512896, 2257, 1, 2135987035920910082395021706169552114602704522356652769947041607822219725780640550022962086936576, 2264, 1, 115792089237316195423570985008687907853269984665640564039457584007913129639936])), (2, (dd [0, 0, 39402006196394479212279040100143613805079739270465446667948293404245721771497210611414266254884915640806627990306816])), (1, (dd [0, 1, 39402006196394479212279040100143613805079739270465446667942016302510335090733374821991058588468813285362163955793920])), (0, (dd [0, 0, 726838724295606890549323807888004534353641360687318060281490199180639288113397923326191050713763565560762521606266177933534601628614656]))]⟩, ⟨[365, 357, 354, 353], (dd [5041, 0, 1]), []⟩, ⟨[352, 351, 350, 349, 348, 347, 346], (dd [5153, 1, 1]), [(22, (dd [1448, 1, 1, 1464, 1, 18446744073709551616, 1544, 1, 340282366920938463463374607431768211456, 1560, 1, 1, 1640, 1, 18446744073709551616, 1656, 1, 340282366920938463463374607431768211456])), (21, (dd [1448, 1, 18446744073709551616, 1464, 1, 340282366920938463463374607431768211456, 1544, 1, 6277101735386680763835789423207666416102355444464034512896, 1560, 1, 18446744073709551616, 1640, 1, 340282366920938463463374607431768211456, 1656, 1, 6277101735386680763835789423207666416102355444464034512896])), (20, (dd [1448, 1, 340282366920938463463374607431768211456, 1464, 1, 6277101735386680763835789423207666416102355444464034512896, 1544, 1, 115792089237316195423570985008687907853269984665640564039457584007913129639936, 1560, 1, 340282366920938463463374607431768211456, 1640, 1, 6277101735386680763835789423207666416102355444464034512896, 1656, 1, 115792089237316195423570985008687907853269984665640564039457584007913129639936])), (19, (dd [2232, 1, 1, 2248, 1, 18446744073709551616, 2257, 1, 6277101735386680763835789423207666416102355444464034512896, 2264, 1, 340282366920938463463374607431768211456])), (18, (dd [2232, 1, 18446744073709551616, 2248, 1, 340282366920938463463374607431768211456, 2257, 1, 115792089237316195423570985008687907853269984665640564039457584007913129639936, 2264, 1, 6277101735386680763835789423207666416102355444464034512896])), (17, (dd [2232, 1, 340282366920938463463374607431768211456, 2248, 1, 6277101735386680763835789423207666416102355444464034512896, 2257, 1, 2135987035920910082395021706169552114602704522356652769947041607822219725780640550022962086936576, 2264, 1, 115792089237316195423570985008687907853269984665640564039457584007913129639936])), (4, (dd [0, 0, 39402006196394479212279040100143613805079739270465446667948293404245721771497210611414266254884915640806627990306816])), (3, (dd [0, 1, 39402006196394479212279040100143613805079739270465446667942016302510335090733374821991058588468813285362163955793920])), (2, (dd [0, 0, 726838724295606890549323807888004534353641360687318060281490199180639288113397923326191050713763565560762521606266177933534601628614656])), (1, (dd [0, 0, 726838724295606890549323807888004534353641360687318060281490199180639288113397923326191050713763565560762521606266177933534601628614656])), (0, (dd [0, 1, 39402006196394479212279040100143613805079739270465446667948293404245721771497210611414266254884915640806627990306816]))]⟩, ⟨[352, 351, 350, 345, 344, 343, 342, 341, 340], (dd [5249, 0, 1]), [(23, (dd [1448, 1, 1, 1464, 1, 18446744073709551616, 1544, 1, 340282366920938463463374607431768211456, 1560, 1, 1, 1640, 1, 18446744073709551616, 1656, 1, 340282366920938463463374607431768211456])), (22, (dd [1448, 1, 18446744073709551616, 1464, 1, 340282366920938463463374607431768211456, 1544, 1, 6277101735386680763835789423207666416102355444464034512896, 1560, 1, 18446744073709551616, 1640, 1, 340282366920938463463374607431768211456, 1656, 1, 6277101735386680763835789423207666416102355444464034512896])), (21, (dd [1448, 1, 340282366920938463463374607431768211456, 1464, 1, 6277101735386680763835789423207666416102355444464034512896, 1544, 1, 115792089237316195423570985008687907853269984665640564039457584007913129639936, 1560, 1, 340282366920938463463374607431768211456, 1640, 1, 6277101735386680763835789423207666416102355444464034512896, 1656, 1, 115792089237316195423570985008687907853269984665640564039457584007913129639936])), (20, (dd [2232, 1, 1, 2248, 1, 18446744073709551616, 2257, 1, 6277101735386680763835789423207666416102355444464034512896, 2264, 1, 340282366920938463463374607431768211456])), (19, (dd [2232, 1, 18446744073709551616, 2248, 1, 340282366920938463463374607431768211456, 2257, 1, 115792089237316195423570985008687907853269984665640564039457584007913129639936, 2264, 1, 6277101735386680763835789423207666416102355444464034512896])), (18, (dd [2232, 1, 340282366920938463463374607431768211456, 2248, 1, 6277101735386680763835789423207666416102355444464034512896, 2257, 1, 2135987035920910082395021706169552114602704522356652769947041607822219725780640550022962086936576, 2264, 1, 115792089237316195423570985008687907853269984665640564039457584007913129639936])), (5, (dd [0, 0, 39402006196394479212279040100143613805079739270465446667948293404245721771497210611414266254884915640806627990306816])), (4, (dd [0, 1, 39402006196394479212279040100143613805079739270465446667942016302510335090733374821991058588468813285362163955793920])), (3, (dd [0, 0, 726838724295606890549323807888004534353641360687318060281490199180639288113397923326191050713763565560762521606266177933534601628614656])), (2, (dd [0, 0, 726838724295606890549323807888004534353641360687318060281490199180639288113397923326191050713763565560762521606266177933534601628614656])), (1, (dd [0, 0, 247330401473104534060502521019647190035131349101211839914023654086700830627319588130216257447437965250327205979348191045947119312535253999356131888847008252275800144158392320])), (0, (dd [0, 0, 726838724295606890549323807888004534353641360687318060281490199180639288113397923326191050713763565560762521606266177933534601628614656]))]⟩, ⟨[299, 291, 288, 287], (dd [6833, 0, 1]), []⟩, ⟨[263, 255, 252, 251], (dd [7601, 0, 1]), []⟩, ⟨[250, 249, 248, 247, 246, 245, 244], (dd [7809, 1, 1]), [(20, (dd [200, 1, 1, 208, 1, 18446744073709551616, 216, 1, 340282366920938463463374607431768211456, 224, 1, 1, 232, 1, 18446744073709551616, 240, 1, 340282366920938463463374607431768211456])), (19, (dd [200, 1, 18446744073709551616, 208, 1, 340282366920938463463374607431768211456, 216, 1, 6277101735386680763835789423207666416102355444464034512896, 224, 1, 18446744073709551616, 232, 1, 340282366920938463463374607431768211456, 240, 1, 6277101735386680763835789423207666416102355444464034512896])), (18, (dd [200, 1, 340282366920938463463374607431768211456, 208, 1, 6277101735386680763835789423207666416102355444464034512896, 216, 1, 115792089237316195423570985008687907853269984665640564039457584007913129639936, 224, 1, 340282366920938463463374607431768211456, 232, 1, 6277101735386680763835789423207666416102355444464034512896, 240, 1, 115792089237316195423570985008687907853269984665640564039457584007913129639936])), (17, (dd [5816, 1, 1, 5832, 1, 18446744073709551616, 5841, 1, 6277101735386680763835789423207666416102355444464034512896, 5848, 1, 340282366920938463463374607431768211456])), (16, (dd [5816, 1, 18446744073709551616, 5832, 1, 340282366920938463463374607431768211456, 5841, 1, 115792089237316195423570985008687907853269984665640564039457584007913129639936, 5848, 1, 6277101735386680763835789423207666416102355444464034512896])), (15, (dd [5816, 1, 340282366920938463463374607431768211456, 5832, 1, 6277101735386680763835789423207666416102355444464034512896, 5841, 1, 2135987035920910082395021706169552114602704522356652769947041607822219725780640550022962086936576, 5848, 1, 115792089237316195423570985008687907853269984665640564039457584007913129639936])), (1, (dd [0, 0, 39402006196394479212279040100143613805079739270465446667948293404245721771497210611414266254884915640806627990306816])), (0, (dd [0, 1, 39402006196394479212279040100143613805079739270465446667948293404245721771497210611414266254884915640806627990306816]))]⟩, ⟨[243, 242, 240, 238, 237, 236, 235], (dd [8033, 0, 1]), [(21, (dd [200, 1, 1, 208, 1, 18446744073709551616, 216, 1, 340282366920938463463374607431768211456, 224, 1, 1, 232, 1, 18446744073709551616, 240, 1, 340282366920938463463374607431768211456])), (20, (dd [200, 1, 18446744073709551616, 208, 1, 340282366920938463463374607431768211456, 216, 1, 6277101735386680763835789423207666416102355444464034512896, 224, 1, 18446744073709551616, 232, 1, 340282366920938463463374607431768211456, 240, 1, 6277101735386680763835789423207666416102355444464034512896])), (19, (dd [200, 1, 340282366920938463463374607431768211456, 208, 1, 6277101735386680763835789423207666416102355444464034512896, 216, 1, 115792089237316195423570985008687907853269984665640564039457584007913129639936, 224, 1, 340282366920938463463374607431768211456, 232, 1, 6277101735386680763835789423207666416102355444464034512896, 240, 1, 115792089237316195423570985008687907853269984665640564039457584007913129639936])), (18, (dd [5816, 1, 1, 5832, 1, 18446744073709551616, 5841, 1, 6277101735386680763835789423207666416102355444464034512896, 5848, 1, 340282366920938463463374607431768211456])), (17, (dd [5816, 1, 18446744073709551616, 5832, 1, 340282366920938463463374607431768211456, 5841, 1, 115792089237316195423570985008687907853269984665640564039457584007913129639936, 5848, 1, 6277101735386680763835789423207666416102355444464034512896])), (16, (dd [5816, 1, 340282366920938463463374607431768211456, 5832, 1, 6277101735386680763835789423207666416102355444464034512896, 5841, 1, 2135987035920910082395021706169552114602704522356652769947041607822219725780640550022962086936576, 5848, 1, 115792089237316195423570985008687907853269984665640564039457584007913129639936])), (2, (dd [0, 0, 39402006196394479212279040100143613805079739270465446667948293404245721771497210611414266254884915640806627990306816])), (1, (dd [0, 1, 39402006196394479212279040100143613805079739270465446667942016302510335090733374821991058588468813285362163955793920])), (0, (dd [0, 0, 726838724295606890549323807888004534353641360687318060281490199180639288113397923326191050713763565560762521606266177933534601628614656]))]⟩, ⟨[217, 209, 206, 205], (dd [8625, 0, 1]), []⟩, ⟨[204, 203, 202, 201, 200, 199, 198], (dd [8737, 1, 1]), [(23, (dd [200, 1, 1, 208, 1, 18446744073709551616, 216, 1, 340282366920938463463374607431768211456, 224, 1, 1, 232, 1, 18446744073709551616, 240, 1, 340282366920938463463374607431768211456])), (22, (dd [200, 1, 18446744073709551616, 208, 1, 340282366920938463463374607431768211456, 216, 1, 6277101735386680763835789423207666416102355444464034512896, 224, 1, 18446744073709551616, 232, 1, 340282366920938463463374607431768211456, 240, 1, 6277101735386680763835789423207666416102355444464034512896])), (21, (dd [200, 1, 340282366920938463463374607431768211456, 208, 1, 6277101735386680763835789423207666416102355444464034512896, 216, 1, 115792089237316195423570985008687907853269984665640564039457584007913129639936, 224, 1, 340282366920938463463374607431768211456, 232, 1, 6277101735386680763835789423207666416102355444464034512896, 240, 1, 115792089237316195423570985008687907853269984665640564039457584007913129639936])), (20, (dd [5816, 1, 1, 5832, 1, 18446744073709551616, 5841, 1, 6277101735386680763835789423207666416102355444464034512896, 5848, 1, 340282366920938463463374607431768211456])), (19, (dd [5816, 1, 18446744073709551616, 5832, 1, 340282366920938463463374607431768211456, 5841, 1, 115792089237316195423570985008687907853269984665640564039457584007913129639936, 5848, 1, 6277101735386680763835789423207666416102355444464034512896])), (18, (dd [5816, 1, 340282366920938463463374607431768211456, 5832, 1, 6277101735386680763835789423207666416102355444464034512896, 5841, 1, 2135987035920910082395021706169552114602704522356652769947041607822219725780640550022962086936576, 5848, 1, 115792089237316195423570985008687907853269984665640564039457584007913129639936])), (4, (dd [0, 0, 39402006196394479212279040100143613805079739270465446667948293404245721771497210611414266254884915640806627990306816])), (3, (dd [0, 1, 39402006196394479212279040100143613805079739270465446667942016302510335090733374821991058588468813285362163955793920])), (2, (dd [0, 0, 726838724295606890549323807888004534353641360687318060281490199180639288113397923326191050713763565560762521606266177933534601628614656])), (1, (dd [0, 0, 726838724295606890549323807888004534353641360687318060281490199180639288113397923326191050713763565560762521606266177933534601628614656])), (0, (dd [0, 1, 39402006196394479212279040100143613805079739270465446667948293404245721771497210611414266254884915640806627990306816]))]⟩, ⟨[204, 203, 202, 197, 196, 195, 194, 193, 192], (dd [8833, 0, 1]), [(24, (dd [200, 1, 1, 208, 1, 18446744073709551616, 216, 1, 340282366920938463463374607431768211456, 224, 1, 1, 232, 1, 18446744073709551616, 240, 1, 340282366920938463463374607431768211456])), (23, (dd [200, 1, 18446744073709551616, 208, 1, 340282366920938463463374607431768211456, 216, 1, 6277101735386680763835789423207666416102355444464034512896, 224, 1, 18446744073709551616, 232, 1, 340282366920938463463374607431768211456, 240, 1, 6277101735386680763835789423207666416102355444464034512896])), (22, (dd [200, 1, 340282366920938463463374607431768211456, 208, 1, 6277101735386680763835789423207666416102355444464034512896, 216, 1, 115792089237316195423570985008687907853269984665640564039457584007913129639936, 224, 1, 340282366920938463463374607431768211456, 232, 1, 6277101735386680763835789423207666416102355444464034512896, 240, 1, 115792089237316195423570985008687907853269984665640564039457584007913129639936])), (21, (dd [5816, 1, 1, 5832, 1, 18446744073709551616, 5841, 1, 6277101735386680763835789423207666416102355444464034512896, 5848, 1, 340282366920938463463374607431768211456])), (20, (dd [5816, 1, 18446744073709551616, 5832, 1, 340282366920938463463374607431768211456, 5841, 1, 115792089237316195423570985008687907853269984665640564039457584007913129639936, 5848, 1, 6277101735386680763835789423207666416102355444464034512896])), (19, (dd [5816, 1, 340282366920938463463374607431768211456, 5832, 1, 6277101735386680763835789423207666416102355444464034512896, 5841, 1, 2135987035920910082395021706169552114602704522356652769947041607822219725780640550022962086936576, 5848, 1, 115792089237316195423570985008687907853269984665640564039457584007913129639936])), (5, (dd [0, 0, 39402006196394479212279040100143613805079739270465446667948293404245721771497210611414266254884915640806627990306816])), (4, (dd [0, 1, 39402006196394479212279040100143613805079739270465446667942016302510335090733374821991058588468813285362163955793920])), (3, (dd [0, 0, 726838724295606890549323807888004534353641360687318060281490199180639288113397923326191050713763565560762521606266177933534601628614656])), (2, (dd [0, 0, 726838724295606890549323807888004534353641360687318060281490199180639288113397923326191050713763565560762521606266177933534601628614656])), (1, (dd [0, 0, 247330401473104534060502521019647190035131349101211839914023654086700830627319588130216257447437965250327205979348191045947119312535253999356131888847008252275800144158392320])), (0, (dd [0, 0, 726838724295606890549323807888004534353641360687318060281490199180639288113397923326191050713763565560762521606266177933534601628614656]))]⟩, ⟨[191, 190, 189, 188, 187, 186, 185, 184, 183, 182, 181, 180, 179], (dd [9281, 1, 1]), [(43, (dd [200, 1, 1, 208, 1, 18446744073709551616, 216, 1, 340282366920938463463374607431768211456, 224, 1, 6277101735386680763835789423207666416102355444464034512896, 232, 1, 115792089237316195423570985008687907853269984665640564039457584007913129639936, 240, 1, 2135987035920910082395021706169552114602704522356652769947041607822219725780640550022962086936576, 248, 1, 1, 256, 1, 18446744073709551616, 264, 1, 340282366920938463463374607431768211456, 272, 1, 6277101735386680763835789423207666416102355444464034512896, 280, 1, 115792089237316195423570985008687907853269984665640564039457584007913129639936, 288, 1, 2135987035920910082395021706169552114602704522356652769947041607822219725780640550022962086936576])), (42, (dd [200, 1, 18446744073709551616, 208, 1, 340282366920938463463374607431768211456, 216, 1, 6277101735386680763835789423207666416102355444464034512896, 224, 1, 115792089237316195423570985008687907853269984665640564039457584007913129639936, 232, 1, 2135987035920910082395021706169552114602704522356652769947041607822219725780640550022962086936576, 240, 1, 39402006196394479212279040100143613805079739270465446667948293404245721771497210611414266254884915640806627990306816, 248, 1, 18446744073709551616, 256, 1, 340282366920938463463374607431768211456, 264, 1, 6277101735386680763835789423207666416102355444464034512896, 272, 1, 115792089237316195423570985008687907853269984665640564039457584007913129639936, 280, 1, 2135987035920910082395021706169552114602704522356652769947041607822219725780640550022962086936576, 288, 1, 39402006196394479212279040100143613805079739270465446667948293404245721771497210611414266254884915640806627990306816])), (41, (dd [200, 1, 340282366920938463463374607431768211456, 208, 1, 6277101735386680763835789423207666416102355444464034512896, 216, 1, 115792089237316195423570985008687907853269984665640564039457584007913129639936, 224, 1, 2135987035920910082395021706169552114602704522356652769947041607822219725780640550022962086936576, 232, 1, 39402006196394479212279040100143613805079739270465446667948293404245721771497210611414266254884915640806627990306816, 240, 1, 726838724295606890549323807888004534353641360687318060281490199180639288113397923326191050713763565560762521606266177933534601628614656, 248, 1, 340282366920938463463374607431768211456, 256, 1, 6277101735386680763835789423207666416102355444464034512896, 264, 1, 115792089237316195423570985008687907853269984665640564039457584007913129639936, 272, 1, 2135987035920910082395021706169552114602704522356652769947041607822219725780640550022962086936576, 280, 1, 39402006196394479212279040100143613805079739270465446667948293404245721771497210611414266254884915640806627990306816, 288, 1, 726838724295606890549323807888004534353641360687318060281490199180639288113397923326191050713763565560762521606266177933534601628614656])), (40, (dd [200, 1, 6277101735386680763835789423207666416102355444464034512896, 208, 1, 115792089237316195423570985008687907853269984665640564039457584007913129639936, 216, 1, 2135987035920910082395021706169552114602704522356652769947041607822219725780640550022962086936576, 224, 1, 39402006196394479212279040100143613805079739270465446667948293404245721771497210611414266254884915640806627990306816, 232, 1, 726838724295606890549323807888004534353641360687318060281490199180639288113397923326191050713763565560762521606266177933534601628614656, 240, 1, 13407807929942597099574024998205846127479365820592393377723561443721764030073546976801874298166903427690031858186486050853753882811946569946433649006084096, 248, 1, 6277101735386680763835789423207666416102355444464034512896, 256, 1, 115792089237316195423570985008687907853269984665640564039457584007913129639936, 264, 1, 2135987035920910082395021706169552114602704522356652769947041607822219725780640550022962086936576, 272, 1, 39402006196394479212279040100143613805079739270465446667948293404245721771497210611414266254884915640806627990306816, 280, 1, 726838724295606890549323807888004534353641360687318060281490199180639288113397923326191050713763565560762521606266177933534601628614656, 288, 1, 13407807929942597099574024998205846127479365820592393377723561443721764030073546976801874298166903427690031858186486050853753882811946569946433649006084096])), (39, (dd [200, 1, 115792089237316195423570985008687907853269984665640564039457584007913129639936, 208, 1, 2135987035920910082395021706169552114602704522356652769947041607822219725780640550022962086936576, 216, 1, 39402006196394479212279040100143613805079739270465446667948293404245721771497210611414266254884915640806627990306816, 224, 1, 726838724295606890549323807888004534353641360687318060281490199180639288113397923326191050713763565560762521606266177933534601628614656, 232, 1, 13407807929942597099574024998205846127479365820592393377723561443721764030073546976801874298166903427690031858186486050853753882811946569946433649006084096, 240, 1, 247330401473104534060502521019647190035131349101211839914063056092897225106531867170316401061243044989597671426016139339351365034306751209967546155101893167916606772148699136, 248, 1, 115792089237316195423570985008687907853269984665640564039457584007913129639936, 256, 1, 2135987035920910082395021706169552114602704522356652769947041607822219725780640550022962086936576, 264, 1, 39402006196394479212279040100143613805079739270465446667948293404245721771497210611414266254884915640806627990306816, 272, 1, 726838724295606890549323807888004534353641360687318060281490199180639288113397923326191050713763565560762521606266177933534601628614656, 280, 1, 13407807929942597099574024998205846127479365820592393377723561443721764030073546976801874298166903427690031858186486050853753882811946569946433649006084096, 288, 1, 247330401473104534060502521019647190035131349101211839914063056092897225106531867170316401061243044989597671426016139339351365034306751209967546155101893167916606772148699136])), (38, (dd [200, 1, 2135987035920910082395021706169552114602704522356652769947041607822219725780640550022962086936576, 208, 1, 39402006196394479212279040100143613805079739270465446667948293404245721771497210611414266254884915640806627990306816, 216, 1, 726838724295606890549323807888004534353641360687318060281490199180639288113397923326191050713763565560762521606266177933534601628614656, 224, 1, 13407807929942597099574024998205846127479365820592393377723561443721764030073546976801874298166903427690031858186486050853753882811946569946433649006084096, 232, 1, 247330401473104534060502521019647190035131349101211839914063056092897225106531867170316401061243044989597671426016139339351365034306751209967546155101893167916606772148699136, 240, 1, 4562440617622195218641171605700291324893228507248559930579192517899275167208677386505912811317371399778642309573594407310688704721375437998252661319722214188251994674360264950082874192246603776, 248, 1, 2135987035920910082395021706169552114602704522356652769947041607822219725780640550022962086936576, 256, 1, 39402006196394479212279040100143613805079739270465446667948293404245721771497210611414266254884915640806627990306816, 264, 1, 726838724295606890549323807888004534353641360687318060281490199180639288113397923326191050713763565560762521606266177933534601628614656, 272, 1, 13407807929942597099574024998205846127479365820592393377723561443721764030073546976801874298166903427690031858186486050853753882811946569946433649006084096, 280, 1, 247330401473104534060502521019647190035131349101211839914063056092897225106531867170316401061243044989597671426016139339351365034306751209967546155101893167916606772148699136, 288, 1, 4562440617622195218641171605700291324893228507248559930579192517899275167208677386505912811317371399778642309573594407310688704721375437998252661319722214188251994674360264950082874192246603776])), (37, (dd [1144, 1, 1, 1160, 1, 18446744073709551616, 1240, 1, 340282366920938463463374607431768211456, 1256, 1, 6277101735386680763835789423207666416102355444464034512896, 1336, 1, 115792089237316195423570985008687907853269984665640564039457584007913129639936, 1345, 1, 39402006196394479212279040100143613805079739270465446667948293404245721771497210611414266254884915640806627990306816, 1352, 1, 2135987035920910082395021706169552114602704522356652769947041607822219725780640550022962086936576])), (36, (dd [1144, 1, 18446744073709551616, 1160, 1, 340282366920938463463374607431768211456, 1240, 1, 6277101735386680763835789423207666416102355444464034512896, 1256, 1, 115792089237316195423570985008687907853269984665640564039457584007913129639936, 1336, 1, 2135987035920910082395021706169552114602704522356652769947041607822219725780640550022962086936576, 1345, 1, 726838724295606890549323807888004534353641360687318060281490199180639288113397923326191050713763565560762521606266177933534601628614656, 1352, 1, 39402006196394479212279040100143613805079739270465446667948293404245721771497210611414266254884915640806627990306816])), (35, (dd [1144, 1, 340282366920938463463374607431768211456, 1160, 1, 6277101735386680763835789423207666416102355444464034512896, 1240, 1, 115792089237316195423570985008687907853269984665640564039457584007913129639936, 1256, 1, 2135987035920910082395021706169552114602704522356652769947041607822219725780640550022962086936576, 1336, 1, 39402006196394479212279040100143613805079739270465446667948293404245721771497210611414266254884915640806627990306816, 1345, 1, 13407807929942597099574024998205846127479365820592393377723561443721764030073546976801874298166903427690031858186486050853753882811946569946433649006084096, 1352, 1, 726838724295606890549323807888004534353641360687318060281490199180639288113397923326191050713763565560762521606266177933534601628614656])), (34, (dd [1144, 1, 6277101735386680763835789423207666416102355444464034512896, 1160, 1, 115792089237316195423570985008687907853269984665640564039457584007913129639936, 1240, 1, 2135987035920910082395021706169552114602704522356652769947041607822219725780640550022962086936576, 1256, 1, 39402006196394479212279040100143613805079739270465446667948293404245721771497210611414266254884915640806627990306816, 1336, 1, 726838724295606890549323807888004534353641360687318060281490199180639288113397923326191050713763565560762521606266177933534601628614656, 1345, 1, 247330401473104534060502521019647190035131349101211839914063056092897225106531867170316401061243044989597671426016139339351365034306751209967546155101893167916606772148699136, 1352, 1, 13407807929942597099574024998205846127479365820592393377723561443721764030073546976801874298166903427690031858186486050853753882811946569946433649006084096])), (33, (dd [1144, 1, 115792089237316195423570985008687907853269984665640564039457584007913129639936, 1160, 1, 2135987035920910082395021706169552114602704522356652769947041607822219725780640550022962086936576, 1240, 1, 39402006196394479212279040100143613805079739270465446667948293404245721771497210611414266254884915640806627990306816, 1256, 1, 726838724295606890549323807888004534353641360687318060281490199180639288113397923326191050713763565560762521606266177933534601628614656, 1336, 1, 13407807929942597099574024998205846127479365820592393377723561443721764030073546976801874298166903427690031858186486050853753882811946569946433649006084096, 1345, 1, 4562440617622195218641171605700291324893228507248559930579192517899275167208677386505912811317371399778642309573594407310688704721375437998252661319722214188251994674360264950082874192246603776, 1352, 1, 247330401473104534060502521019647190035131349101211839914063056092897225106531867170316401061243044989597671426016139339351365034306751209967546155101893167916606772148699136])), (32, (dd [1144, 1, 2135987035920910082395021706169552114602704522356652769947041607822219725780640550022962086936576, 1160, 1, 39402006196394479212279040100143613805079739270465446667948293404245721771497210611414266254884915640806627990306816, 1240, 1, 726838724295606890549323807888004534353641360687318060281490199180639288113397923326191050713763565560762521606266177933534601628614656, 1256, 1, 13407807929942597099574024998205846127479365820592393377723561443721764030073546976801874298166903427690031858186486050853753882811946569946433649006084096, 1336, 1, 247330401473104534060502521019647190035131349101211839914063056092897225106531867170316401061243044989597671426016139339351365034306751209967546155101893167916606772148699136, 1345, 1, 84162174424773976115855838126082058648805436845170781751972494449099714468753293153818664580441415219631727501698851483408310916002940861810045036330430093599283578738055113571066620126149163476340692027772502016, 1352, 1, 4562440617622195218641171605700291324893228507248559930579192517899275167208677386505912811317371399778642309573594407310688704721375437998252661319722214188251994674360264950082874192246603776])), (31, (dd [1448, 1, 6277101735386680763835789423207666416102355444464034512896, 1464, 1, 115792089237316195423570985008687907853269984665640564039457584007913129639936, 1544, 1, 2135987035920910082395021706169552114602704522356652769947041607822219725780640550022962086936576, 1560, 1, 6277101735386680763835789423207666416102355444464034512896, 1640, 1, 115792089237316195423570985008687907853269984665640564039457584007913129639936, 1656, 1, 2135987035920910082395021706169552114602704522356652769947041607822219725780640550022962086936576])), (30, (dd [1448, 1, 115792089237316195423570985008687907853269984665640564039457584007913129639936, 1464, 1, 2135987035920910082395021706169552114602704522356652769947041607822219725780640550022962086936576, 1544, 1, 39402006196394479212279040100143613805079739270465446667948293404245721771497210611414266254884915640806627990306816, 1560, 1, 115792089237316195423570985008687907853269984665640564039457584007913129639936, 1640, 1, 2135987035920910082395021706169552114602704522356652769947041607822219725780640550022962086936576, 1656, 1, 39402006196394479212279040100143613805079739270465446667948293404245721771497210611414266254884915640806627990306816])), (29, (dd [1448, 1, 2135987035920910082395021706169552114602704522356652769947041607822219725780640550022962086936576, 1464, 1, 39402006196394479212279040100143613805079739270465446667948293404245721771497210611414266254884915640806627990306816, 1544, 1, 726838724295606890549323807888004534353641360687318060281490199180639288113397923326191050713763565560762521606266177933534601628614656, 1560, 1, 2135987035920910082395021706169552114602704522356652769947041607822219725780640550022962086936576, 1640, 1, 39402006196394479212279040100143613805079739270465446667948293404245721771497210611414266254884915640806627990306816, 1656, 1, 726838724295606890549323807888004534353641360687318060281490199180639288113397923326191050713763565560762521606266177933534601628614656])), (28, (dd [2232, 1, 6277101735386680763835789423207666416102355444464034512896, 2248, 1, 115792089237316195423570985008687907853269984665640564039457584007913129639936, 2257, 1, 39402006196394479212279040100143613805079739270465446667948293404245721771497210611414266254884915640806627990306816, 2264, 1, 2135987035920910082395021706169552114602704522356652769947041607822219725780640550022962086936576])), (27, (dd [2232, 1, 115792089237316195423570985008687907853269984665640564039457584007913129639936, 2248, 1, 2135987035920910082395021706169552114602704522356652769947041607822219725780640550022962086936576, 2257, 1, 726838724295606890549323807888004534353641360687318060281490199180639288113397923326191050713763565560762521606266177933534601628614656, 2264, 1, 39402006196394479212279040100143613805079739270465446667948293404245721771497210611414266254884915640806627990306816])), (26, (dd [2232, 1, 2135987035920910082395021706169552114602704522356652769947041607822219725780640550022962086936576, 2248, 1, 39402006196394479212279040100143613805079739270465446667948293404245721771497210611414266254884915640806627990306816, 2257, 1, 13407807929942597099574024998205846127479365820592393377723561443721764030073546976801874298166903427690031858186486050853753882811946569946433649006084096, 2264, 1, 726838724295606890549323807888004534353641360687318060281490199180639288113397923326191050713763565560762521606266177933534601628614656])), (25, (dd [200, 0, 6277101735386680763835789423207666416102355444464034512896, 208, 0, 115792089237316195423570985008687907853269984665640564039457584007913129639936, 216, 0, 2135987035920910082395021706169552114602704522356652769947041607822219725780640550022962086936576, 224, 0, 6277101735386680763835789423207666416102355444464034512896, 232, 0, 115792089237316195423570985008687907853269984665640564039457584007913129639936, 240, 0, 2135987035920910082395021706169552114602704522356652769947041607822219725780640550022962086936576])), (24, (dd [200, 0, 115792089237316195423570985008687907853269984665640564039457584007913129639936, 208, 0, 2135987035920910082395021706169552114602704522356652769947041607822219725780640550022962086936576, 216, 0, 39402006196394479212279040100143613805079739270465446667948293404245721771497210611414266254884915640806627990306816, 224, 0, 115792089237316195423570985008687907853269984665640564039457584007913129639936, 232, 0, 2135987035920910082395021706169552114602704522356652769947041607822219725780640550022962086936576, 240, 0, 39402006196394479212279040100143613805079739270465446667948293404245721771497210611414266254884915640806627990306816])), (23, (dd [200, 0, 2135987035920910082395021706169552114602704522356652769947041607822219725780640550022962086936576, 208, 0, 39402006196394479212279040100143613805079739270465446667948293404245721771497210611414266254884915640806627990306816, 216, 0, 726838724295606890549323807888004534353641360687318060281490199180639288113397923326191050713763565560762521606266177933534601628614656, 224, 0, 2135987035920910082395021706169552114602704522356652769947041607822219725780640550022962086936576, 232, 0, 39402006196394479212279040100143613805079739270465446667948293404245721771497210611414266254884915640806627990306816, 240, 0, 726838724295606890549323807888004534353641360687318060281490199180639288113397923326191050713763565560762521606266177933534601628614656])), (22, (dd [5816, 0, 6277101735386680763835789423207666416102355444464034512896, 5832, 0, 115792089237316195423570985008687907853269984665640564039457584007913129639936, 5841, 0, 39402006196394479212279040100143613805079739270465446667948293404245721771497210611414266254884915640806627990306816, 5848, 0, 2135987035920910082395021706169552114602704522356652769947041607822219725780640550022962086936576])), (21, (dd [5816, 0, 115792089237316195423570985008687907853269984665640564039457584007913129639936, 5832, 0, 2135987035920910082395021706169552114602704522356652769947041607822219725780640550022962086936576, 5841, 0, 726838724295606890549323807888004534353641360687318060281490199180639288113397923326191050713763565560762521606266177933534601628614656, 5848, 0, 39402006196394479212279040100143613805079739270465446667948293404245721771497210611414266254884915640806627990306816])), (20, (dd [5816, 0, 2135987035920910082395021706169552114602704522356652769947041607822219725780640550022962086936576, 5832, 0, 39402006196394479212279040100143613805079739270465446667948293404245721771497210611414266254884915640806627990306816, 5841, 0, 13407807929942597099574024998205846127479365820592393377723561443721764030073546976801874298166903427690031858186486050853753882811946569946433649006084096, 5848, 0, 726838724295606890549323807888004534353641360687318060281490199180639288113397923326191050713763565560762521606266177933534601628614656])), (13, (dd [0, 0, 247330401473104534060502521019647190035131349101211839914063056092897225106531867170316401061243044989597671426016139339351365034306751209967546155101893167916606772148699136])), (12, (dd [0, 1, 247330401473104534060502521019647190035131349101211839914023654086700830627319588130216257447437965250327205979348191045947119312535253999356131888847008252275800144158392320])), (11, (dd [0, 0, 4562440617622195218641171605700291324893228507248559930579192517899275167208677386505912811317371399778642309573594407310688704721375437998252661319722214188251994674360264950082874192246603776])), (10, (dd [0, 0, 4562440617622195218641171605700291324893228507248559930579192517899275167208677386505912811317371399778642309573594407310688704721375437998252661319722214188251994674360264950082874192246603776])), (9, (dd [0, 0, 1552518092300708935148979488462502555256886017116696611138804707624577848152316383809858761638611346601386518857217010150078682819008282524273970873979938094214857304594833766210913920597291693615295453038614575582976240081667358720])), (8, (dd [0, 0, 4562440617622195218641171605700291324893228507248559930579192517899275167208677386505912811317371399778642309573594407310688704721375437998252661319722214188251994674360264950082874192246603776])), (7, (dd [0, 0, 1552518092300708935148979488462502555256886017116696611139052038026050952686376886330878408828646477950487730697131073206171580044114814391444287275041181139204454976020849905550265285631598444825262999193716468750892846853816057856])), (6, (dd [0, 1, 247330401473104534060502521019647190035131349101211839914063056092897225106531867170316401061243044989597671426016139339351365034306751209967546155101893167916606772148699136])), (5, (dd [0, 0, 247330401473104534060502521019647190035131349101211839914023654086700830627319588130216257447437965250327205979348191045947119312535253999356131888847008252275800144158392320])), (4, (dd [0, 1, 4562440617622195218641171605700291324893228507248559930579192517899275167208677386505912811317371399778642309573594407310688704721375437998252661319722214188251994674360264950082874192246603776])), (3, (dd [0, 1, 4562440617622195218641171605700291324893228507248559930579192517899275167208677386505912811317371399778642309573594407310688704721375437998252661319722214188251994674360264950082874192246603776])), (2, (dd [0, 1, 1552518092300708935148979488462502555256886017116696611138804707624577848152316383809858761638611346601386518857217010150078682819008282524273970873979938094214857304594833766210913920597291693615295453038614575582976240081667358720])), (1, (dd [0, 1, 4562440617622195218641171605700291324893228507248559930579192517899275167208677386505912811317371399778642309573594407310688704721375437998252661319722214188251994674360264950082874192246603776])), (0, (dd [0, 1, 1552518092300708935148979488462502555256886017116696611139052038026050952686376886330878408828646477950487730697131073206171580044114814391444287275041181139204454976020849905550265285631598444825262999193716468750892846853816057856]))]⟩, ⟨[204, 203, 202, 178, 177, 176, 175, 174, 173, 172, 171, 170, 169, 168, 167, 166], (dd [9729, 0, 1]), [(44, (dd [200, 1, 6277101735386680763835789423207666416102355444464034512896, 208, 1, 115792089237316195423570985008687907853269984665640564039457584007913129639936, 216, 1, 2135987035920910082395021706169552114602704522356652769947041607822219725780640550022962086936576, 224, 1, 39402006196394479212279040100143613805079739270465446667948293404245721771497210611414266254884915640806627990306816, 232, 1, 726838724295606890549323807888004534353641360687318060281490199180639288113397923326191050713763565560762521606266177933534601628614656, 240, 1, 13407807929942597099574024998205846127479365820592393377723561443721764030073546976801874298166903427690031858186486050853753882811946569946433649006084096, 248, 1, 6277101735386680763835789423207666416102355444464034512896, 256, 1, 115792089237316195423570985008687907853269984665640564039457584007913129639936, 264, 1, 2135987035920910082395021706169552114602704522356652769947041607822219725780640550022962086936576, 272, 1, 39402006196394479212279040100143613805079739270465446667948293404245721771497210611414266254884915640806627990306816, 280, 1, 726838724295606890549323807888004534353641360687318060281490199180639288113397923326191050713763565560762521606266177933534601628614656, 288, 1, 13407807929942597099574024998205846127479365820592393377723561443721764030073546976801874298166903427690031858186486050853753882811946569946433649006084096])), (43, (dd [200, 1, 115792089237316195423570985008687907853269984665640564039457584007913129639936, 208, 1, 2135987035920910082395021706169552114602704522356652769947041607822219725780640550022962086936576, 216, 1, 39402006196394479212279040100143613805079739270465446667948293404245721771497210611414266254884915640806627990306816, 224, 1, 726838724295606890549323807888004534353641360687318060281490199180639288113397923326191050713763565560762521606266177933534601628614656, 232, 1, 13407807929942597099574024998205846127479365820592393377723561443721764030073546976801874298166903427690031858186486050853753882811946569946433649006084096, 240, 1, 247330401473104534060502521019647190035131349101211839914063056092897225106531867170316401061243044989597671426016139339351365034306751209967546155101893167916606772148699136, 248, 1, 115792089237316195423570985008687907853269984665640564039457584007913129639936, 256, 1, 2135987035920910082395021706169552114602704522356652769947041607822219725780640550022962086936576, 264, 1, 39402006196394479212279040100143613805079739270465446667948293404245721771497210611414266254884915640806627990306816, 272, 1, 726838724295606890549323807888004534353641360687318060281490199180639288113397923326191050713763565560762521606266177933534601628614656, 280, 1, 13407807929942597099574024998205846127479365820592393377723561443721764030073546976801874298166903427690031858186486050853753882811946569946433649006084096, 288, 1, 247330401473104534060502521019647190035131349101211839914063056092897225106531867170316401061243044989597671426016139339351365034306751209967546155101893167916606772148699136])), (42, (dd [200, 1, 2135987035920910082395021706169552114602704522356652769947041607822219725780640550022962086936576, 208, 1, 39402006196394479212279040100143613805079739270465446667948293404245721771497210611414266254884915640806627990306816, 216, 1, 726838724295606890549323807888004534353641360687318060281490199180639288113397923326191050713763565560762521606266177933534601628614656, 224, 1, 13407807929942597099574024998205846127479365820592393377723561443721764030073546976801874298166903427690031858186486050853753882811946569946433649006084096, 232, 1, 247330401473104534060502521019647190035131349101211839914063056092897225106531867170316401061243044989597671426016139339351365034306751209967546155101893167916606772148699136, 240, 1, 4562440617622195218641171605700291324893228507248559930579192517899275167208677386505912811317371399778642309573594407310688704721375437998252661319722214188251994674360264950082874192246603776, 248, 1, 2135987035920910082395021706169552114602704522356652769947041607822219725780640550022962086936576, 256, 1, 39402006196394479212279040100143613805079739270465446667948293404245721771497210611414266254884915640806627990306816, 264, 1, 726838724295606890549323807888004534353641360687318060281490199180639288113397923326191050713763565560762521606266177933534601628614656, 272, 1, 13407807929942597099574024998205846127479365820592393377723561443721764030073546976801874298166903427690031858186486050853753882811946569946433649006084096, 280, 1, 247330401473104534060502521019647190035131349101211839914063056092897225106531867170316401061243044989597671426016139339351365034306751209967546155101893167916606772148699136, 288, 1, 4562440617622195218641171605700291324893228507248559930579192517899275167208677386505912811317371399778642309573594407310688704721375437998252661319722214188251994674360264950082874192246603776])), (41, (dd [200, 1, 39402006196394479212279040100143613805079739270465446667948293404245721771497210611414266254884915640806627990306816, 208, 1, 726838724295606890549323807888004534353641360687318060281490199180639288113397923326191050713763565560762521606266177933534601628614656, 216, 1, 13407807929942597099574024998205846127479365820592393377723561443721764030073546976801874298166903427690031858186486050853753882811946569946433649006084096, 224, 1, 247330401473104534060502521019647190035131349101211839914063056092897225106531867170316401061243044989597671426016139339351365034306751209967546155101893167916606772148699136, 232, 1, 4562440617622195218641171605700291324893228507248559930579192517899275167208677386505912811317371399778642309573594407310688704721375437998252661319722214188251994674360264950082874192246603776, 240, 1, 84162174424773976115855838126082058648805436845170781751972494449099714468753293153818664580441415219631727501698851483408310916002940861810045036330430093599283578738055113571066620126149163476340692027772502016, 248, 1, 39402006196394479212279040100143613805079739270465446667948293404245721771497210611414266254884915640806627990306816, 256, 1, 726838724295606890549323807888004534353641360687318060281490199180639288113397923326191050713763565560762521606266177933534601628614656, 264, 1, 13407807929942597099574024998205846127479365820592393377723561443721764030073546976801874298166903427690031858186486050853753882811946569946433649006084096, 272, 1, 247330401473104534060502521019647190035131349101211839914063056092897225106531867170316401061243044989597671426016139339351365034306751209967546155101893167916606772148699136, 280, 1, 4562440617622195218641171605700291324893228507248559930579192517899275167208677386505912811317371399778642309573594407310688704721375437998252661319722214188251994674360264950082874192246603776, 288, 1, 84162174424773976115855838126082058648805436845170781751972494449099714468753293153818664580441415219631727501698851483408310916002940861810045036330430093599283578738055113571066620126149163476340692027772502016])), (40, (dd [200, 1, 726838724295606890549323807888004534353641360687318060281490199180639288113397923326191050713763565560762521606266177933534601628614656, 208, 1, 13407807929942597099574024998205846127479365820592393377723561443721764030073546976801874298166903427690031858186486050853753882811946569946433649006084096, 216, 1, 247330401473104534060502521019647190035131349101211839914063056092897225106531867170316401061243044989597671426016139339351365034306751209967546155101893167916606772148699136, 224, 1, 4562440617622195218641171605700291324893228507248559930579192517899275167208677386505912811317371399778642309573594407310688704721375437998252661319722214188251994674360264950082874192246603776, 232, 1, 84162174424773976115855838126082058648805436845170781751972494449099714468753293153818664580441415219631727501698851483408310916002940861810045036330430093599283578738055113571066620126149163476340692027772502016, 240, 1, 1552518092300708935148979488462502555256886017116696611139052038026050952686376886330878408828646477950487730697131073206171580044114814391444287275041181139204454976020849905550265285631598444825262999193716468750892846853816057856, 248, 1, 726838724295606890549323807888004534353641360687318060281490199180639288113397923326191050713763565560762521606266177933534601628614656, 256, 1, 13407807929942597099574024998205846127479365820592393377723561443721764030073546976801874298166903427690031858186486050853753882811946569946433649006084096, 264, 1, 247330401473104534060502521019647190035131349101211839914063056092897225106531867170316401061243044989597671426016139339351365034306751209967546155101893167916606772148699136, 272, 1, 4562440617622195218641171605700291324893228507248559930579192517899275167208677386505912811317371399778642309573594407310688704721375437998252661319722214188251994674360264950082874192246603776, 280, 1, 84162174424773976115855838126082058648805436845170781751972494449099714468753293153818664580441415219631727501698851483408310916002940861810045036330430093599283578738055113571066620126149163476340692027772502016, 288, 1, 1552518092300708935148979488462502555256886017116696611139052038026050952686376886330878408828646477950487730697131073206171580044114814391444287275041181139204454976020849905550265285631598444825262999193716468750892846853816057856])), (39, (dd [200, 1, 13407807929942597099574024998205846127479365820592393377723561443721764030073546976801874298166903427690031858186486050853753882811946569946433649006084096, 208, 1, 247330401473104534060502521019647190035131349101211839914063056092897225106531867170316401061243044989597671426016139339351365034306751209967546155101893167916606772148699136, 216, 1, 4562440617622195218641171605700291324893228507248559930579192517899275167208677386505912811317371399778642309573594407310688704721375437998252661319722214188251994674360264950082874192246603776, 224, 1, 84162174424773976115855838126082058648805436845170781751972494449099714468753293153818664580441415219631727501698851483408310916002940861810045036330430093599283578738055113571066620126149163476340692027772502016, 232, 1, 1552518092300708935148979488462502555256886017116696611139052038026050952686376886330878408828646477950487730697131073206171580044114814391444287275041181139204454976020849905550265285631598444825262999193716468750892846853816057856, 240, 1, 28638903918474961204418783933674838490721739172170652529441449702311064005352904159345284265824628375429359509218999720074396860757073376700445026041564579620512874307979212102266801261478978776245040008231745247475930553606737583615358787106474295296, 248, 1, 13407807929942597099574024998205846127479365820592393377723561443721764030073546976801874298166903427690031858186486050853753882811946569946433649006084096, 256, 1, 247330401473104534060502521019647190035131349101211839914063056092897225106531867170316401061243044989597671426016139339351365034306751209967546155101893167916606772148699136, 264, 1, 4562440617622195218641171605700291324893228507248559930579192517899275167208677386505912811317371399778642309573594407310688704721375437998252661319722214188251994674360264950082874192246603776, 272, 1, 84162174424773976115855838126082058648805436845170781751972494449099714468753293153818664580441415219631727501698851483408310916002940861810045036330430093599283578738055113571066620126149163476340692027772502016, 280, 1, 1552518092300708935148979488462502555256886017116696611139052038026050952686376886330878408828646477950487730697131073206171580044114814391444287275041181139204454976020849905550265285631598444825262999193716468750892846853816057856, 288, 1, 28638903918474961204418783933674838490721739172170652529441449702311064005352904159345284265824628375429359509218999720074396860757073376700445026041564579620512874307979212102266801261478978776245040008231745247475930553606737583615358787106474295296])), (38, (dd [1144, 1, 6277101735386680763835789423207666416102355444464034512896, 1160, 1, 115792089237316195423570985008687907853269984665640564039457584007913129639936, 1240, 1, 2135987035920910082395021706169552114602704522356652769947041607822219725780640550022962086936576, 1256, 1, 39402006196394479212279040100143613805079739270465446667948293404245721771497210611414266254884915640806627990306816, 1336, 1, 726838724295606890549323807888004534353641360687318060281490199180639288113397923326191050713763565560762521606266177933534601628614656, 1345, 1, 247330401473104534060502521019647190035131349101211839914063056092897225106531867170316401061243044989597671426016139339351365034306751209967546155101893167916606772148699136, 1352, 1, 13407807929942597099574024998205846127479365820592393377723561443721764030073546976801874298166903427690031858186486050853753882811946569946433649006084096])), (37, (dd [1144, 1, 115792089237316195423570985008687907853269984665640564039457584007913129639936, 1160, 1, 2135987035920910082395021706169552114602704522356652769947041607822219725780640550022962086936576, 1240, 1, 39402006196394479212279040100143613805079739270465446667948293404245721771497210611414266254884915640806627990306816, 1256, 1, 726838724295606890549323807888004534353641360687318060281490199180639288113397923326191050713763565560762521606266177933534601628614656, 1336, 1, 13407807929942597099574024998205846127479365820592393377723561443721764030073546976801874298166903427690031858186486050853753882811946569946433649006084096, 1345, 1, 4562440617622195218641171605700291324893228507248559930579192517899275167208677386505912811317371399778642309573594407310688704721375437998252661319722214188251994674360264950082874192246603776, 1352, 1, 247330401473104534060502521019647190035131349101211839914063056092897225106531867170316401061243044989597671426016139339351365034306751209967546155101893167916606772148699136])), (36, (dd [1144, 1, 2135987035920910082395021706169552114602704522356652769947041607822219725780640550022962086936576, 1160, 1, 39402006196394479212279040100143613805079739270465446667948293404245721771497210611414266254884915640806627990306816, 1240, 1, 726838724295606890549323807888004534353641360687318060281490199180639288113397923326191050713763565560762521606266177933534601628614656, 1256, 1, 13407807929942597099574024998205846127479365820592393377723561443721764030073546976801874298166903427690031858186486050853753882811946569946433649006084096, 1336, 1, 247330401473104534060502521019647190035131349101211839914063056092897225106531867170316401061243044989597671426016139339351365034306751209967546155101893167916606772148699136, 1345, 1, 84162174424773976115855838126082058648805436845170781751972494449099714468753293153818664580441415219631727501698851483408310916002940861810045036330430093599283578738055113571066620126149163476340692027772502016, 1352, 1, 4562440617622195218641171605700291324893228507248559930579192517899275167208677386505912811317371399778642309573594407310688704721375437998252661319722214188251994674360264950082874192246603776])), (35, (dd [1144, 1, 39402006196394479212279040100143613805079739270465446667948293404245721771497210611414266254884915640806627990306816, 1160, 1, 726838724295606890549323807888004534353641360687318060281490199180639288113397923326191050713763565560762521606266177933534601628614656, 1240, 1, 13407807929942597099574024998205846127479365820592393377723561443721764030073546976801874298166903427690031858186486050853753882811946569946433649006084096, 1256, 1, 247330401473104534060502521019647190035131349101211839914063056092897225106531867170316401061243044989597671426016139339351365034306751209967546155101893167916606772148699136, 1336, 1, 4562440617622195218641171605700291324893228507248559930579192517899275167208677386505912811317371399778642309573594407310688704721375437998252661319722214188251994674360264950082874192246603776, 1345, 1, 1552518092300708935148979488462502555256886017116696611139052038026050952686376886330878408828646477950487730697131073206171580044114814391444287275041181139204454976020849905550265285631598444825262999193716468750892846853816057856, 1352, 1, 84162174424773976115855838126082058648805436845170781751972494449099714468753293153818664580441415219631727501698851483408310916002940861810045036330430093599283578738055113571066620126149163476340692027772502016])), (34, (dd [1144, 1, 726838724295606890549323807888004534353641360687318060281490199180639288113397923326191050713763565560762521606266177933534601628614656, 1160, 1, 13407807929942597099574024998205846127479365820592393377723561443721764030073546976801874298166903427690031858186486050853753882811946569946433649006084096, 1240, 1, 247330401473104534060502521019647190035131349101211839914063056092897225106531867170316401061243044989597671426016139339351365034306751209967546155101893167916606772148699136, 1256, 1, 4562440617622195218641171605700291324893228507248559930579192517899275167208677386505912811317371399778642309573594407310688704721375437998252661319722214188251994674360264950082874192246603776, 1336, 1, 84162174424773976115855838126082058648805436845170781751972494449099714468753293153818664580441415219631727501698851483408310916002940861810045036330430093599283578738055113571066620126149163476340692027772502016, 1345, 1, 28638903918474961204418783933674838490721739172170652529441449702311064005352904159345284265824628375429359509218999720074396860757073376700445026041564579620512874307979212102266801261478978776245040008231745247475930553606737583615358787106474295296, 1352, 1, 1552518092300708935148979488462502555256886017116696611139052038026050952686376886330878408828646477950487730697131073206171580044114814391444287275041181139204454976020849905550265285631598444825262999193716468750892846853816057856])), (33, (dd [1144, 1, 13407807929942597099574024998205846127479365820592393377723561443721764030073546976801874298166903427690031858186486050853753882811946569946433649006084096, 1160, 1, 247330401473104534060502521019647190035131349101211839914063056092897225106531867170316401061243044989597671426016139339351365034306751209967546155101893167916606772148699136, 1240, 1, 4562440617622195218641171605700291324893228507248559930579192517899275167208677386505912811317371399778642309573594407310688704721375437998252661319722214188251994674360264950082874192246603776, 1256, 1, 84162174424773976115855838126082058648805436845170781751972494449099714468753293153818664580441415219631727501698851483408310916002940861810045036330430093599283578738055113571066620126149163476340692027772502016, 1336, 1, 1552518092300708935148979488462502555256886017116696611139052038026050952686376886330878408828646477950487730697131073206171580044114814391444287275041181139204454976020849905550265285631598444825262999193716468750892846853816057856, 1345, 1, 528294531135665246352339784916516606518847326036121522127960709026673902556724859474417255887657187894674394993257128678882347559502685537250538978462939576908386683999005084168731517676426441053024232908211188404148028292751561738838396898767036476489538580897737998336, 1352, 1, 28638903918474961204418783933674838490721739172170652529441449702311064005352904159345284265824628375429359509218999720074396860757073376700445026041564579620512874307979212102266801261478978776245040008231745247475930553606737583615358787106474295296])), (32, (dd [1448, 1, 39402006196394479212279040100143613805079739270465446667948293404245721771497210611414266254884915640806627990306816, 1464, 1, 726838724295606890549323807888004534353641360687318060281490199180639288113397923326191050713763565560762521606266177933534601628614656, 1544, 1, 13407807929942597099574024998205846127479365820592393377723561443721764030073546976801874298166903427690031858186486050853753882811946569946433649006084096, 1560, 1, 39402006196394479212279040100143613805079739270465446667948293404245721771497210611414266254884915640806627990306816, 1640, 1, 726838724295606890549323807888004534353641360687318060281490199180639288113397923326191050713763565560762521606266177933534601628614656, 1656, 1, 13407807929942597099574024998205846127479365820592393377723561443721764030073546976801874298166903427690031858186486050853753882811946569946433649006084096])), (31, (dd [1448, 1, 726838724295606890549323807888004534353641360687318060281490199180639288113397923326191050713763565560762521606266177933534601628614656, 1464, 1, 13407807929942597099574024998205846127479365820592393377723561443721764030073546976801874298166903427690031858186486050853753882811946569946433649006084096, 1544, 1, 247330401473104534060502521019647190035131349101211839914063056092897225106531867170316401061243044989597671426016139339351365034306751209967546155101893167916606772148699136, 1560, 1, 726838724295606890549323807888004534353641360687318060281490199180639288113397923326191050713763565560762521606266177933534601628614656, 1640, 1, 13407807929942597099574024998205846127479365820592393377723561443721764030073546976801874298166903427690031858186486050853753882811946569946433649006084096, 1656, 1, 247330401473104534060502521019647190035131349101211839914063056092897225106531867170316401061243044989597671426016139339351365034306751209967546155101893167916606772148699136])), (30, (dd [1448, 1, 13407807929942597099574024998205846127479365820592393377723561443721764030073546976801874298166903427690031858186486050853753882811946569946433649006084096, 1464, 1, 247330401473104534060502521019647190035131349101211839914063056092897225106531867170316401061243044989597671426016139339351365034306751209967546155101893167916606772148699136, 1544, 1, 4562440617622195218641171605700291324893228507248559930579192517899275167208677386505912811317371399778642309573594407310688704721375437998252661319722214188251994674360264950082874192246603776, 1560, 1, 13407807929942597099574024998205846127479365820592393377723561443721764030073546976801874298166903427690031858186486050853753882811946569946433649006084096, 1640, 1, 247330401473104534060502521019647190035131349101211839914063056092897225106531867170316401061243044989597671426016139339351365034306751209967546155101893167916606772148699136, 1656, 1, 4562440617622195218641171605700291324893228507248559930579192517899275167208677386505912811317371399778642309573594407310688704721375437998252661319722214188251994674360264950082874192246603776])), (29, (dd [2232, 1, 39402006196394479212279040100143613805079739270465446667948293404245721771497210611414266254884915640806627990306816, 2248, 1, 726838724295606890549323807888004534353641360687318060281490199180639288113397923326191050713763565560762521606266177933534601628614656, 2257, 1, 247330401473104534060502521019647190035131349101211839914063056092897225106531867170316401061243044989597671426016139339351365034306751209967546155101893167916606772148699136, 2264, 1, 13407807929942597099574024998205846127479365820592393377723561443721764030073546976801874298166903427690031858186486050853753882811946569946433649006084096])), (28, (dd [2232, 1, 726838724295606890549323807888004534353641360687318060281490199180639288113397923326191050713763565560762521606266177933534601628614656, 2248, 1, 13407807929942597099574024998205846127479365820592393377723561443721764030073546976801874298166903427690031858186486050853753882811946569946433649006084096, 2257, 1, 4562440617622195218641171605700291324893228507248559930579192517899275167208677386505912811317371399778642309573594407310688704721375437998252661319722214188251994674360264950082874192246603776, 2264, 1, 247330401473104534060502521019647190035131349101211839914063056092897225106531867170316401061243044989597671426016139339351365034306751209967546155101893167916606772148699136])), (27, (dd [2232, 1, 13407807929942597099574024998205846127479365820592393377723561443721764030073546976801874298166903427690031858186486050853753882811946569946433649006084096, 2248, 1, 247330401473104534060502521019647190035131349101211839914063056092897225106531867170316401061243044989597671426016139339351365034306751209967546155101893167916606772148699136, 2257, 1, 84162174424773976115855838126082058648805436845170781751972494449099714468753293153818664580441415219631727501698851483408310916002940861810045036330430093599283578738055113571066620126149163476340692027772502016, 2264, 1, 4562440617622195218641171605700291324893228507248559930579192517899275167208677386505912811317371399778642309573594407310688704721375437998252661319722214188251994674360264950082874192246603776])), (26, (dd [200, 0, 39402006196394479212279040100143613805079739270465446667948293404245721771497210611414266254884915640806627990306815, 208, 0, 726838724295606890549323807888004534353641360687318060281490199180639288113397923326191050713763565560762521606266159486790527919063040, 216, 0, 13407807929942597099574024998205846127479365820592393377723561443721764030073546976801874298166903427690031858186485710571386961873483106571826217237872640, 224, 0, 39402006196394479212279040100143613805079739270465446667948293404245721771497210611414266254884915640806627990306815, 232, 0, 726838724295606890549323807888004534353641360687318060281490199180639288113397923326191050713763565560762521606266159486790527919063040, 240, 0, 13407807929942597099574024998205846127479365820592393377723561443721764030073546976801874298166903427690031858186485710571386961873483106571826217237872640])), (25, (dd [200, 0, 726838724295606890549323807888004534353641360687318060281490199180639288113397923326191050713763565560762521606266159486790527919063040, 208, 0, 13407807929942597099574024998205846127479365820592393377723561443721764030073546976801874298166903427690031858186485710571386961873483106571826217237872640, 216, 0, 247330401473104534060502521019647190035131349101211839914063056092897225106531867170316401061243044989597671426016133062249629647625987374178122947435477065561162308114186240, 224, 0, 726838724295606890549323807888004534353641360687318060281490199180639288113397923326191050713763565560762521606266159486790527919063040, 232, 0, 13407807929942597099574024998205846127479365820592393377723561443721764030073546976801874298166903427690031858186485710571386961873483106571826217237872640, 240, 0, 247330401473104534060502521019647190035131349101211839914063056092897225106531867170316401061243044989597671426016133062249629647625987374178122947435477065561162308114186240])), (24, (dd [200, 0, 13407807929942597099574024998205846127479365820592393377723561443721764030073546976801874298166903427690031858186485710571386961873483106571826217237872640, 208, 0, 247330401473104534060502521019647190035131349101211839914063056092897225106531867170316401061243044989597671426016133062249629647625987374178122947435477065561162308114186240, 216, 0, 4562440617622195218641171605700291324893228507248559930579192517899275167208677386505912811317371399778642309573594291518599467405180014427267652631814360918267329033796225492498866279116963840, 224, 0, 13407807929942597099574024998205846127479365820592393377723561443721764030073546976801874298166903427690031858186485710571386961873483106571826217237872640, 232, 0, 247330401473104534060502521019647190035131349101211839914063056092897225106531867170316401061243044989597671426016133062249629647625987374178122947435477065561162308114186240, 240, 0, 4562440617622195218641171605700291324893228507248559930579192517899275167208677386505912811317371399778642309573594291518599467405180014427267652631814360918267329033796225492498866279116963840])), (23, (dd [5816, 0, 39402006196394479212279040100143613805079739270465446667948293404245721771497210611414266254884915640806627990306815, 5832, 0, 726838724295606890549323807888004534353641360687318060281490199180639288113397923326191050713763565560762521606266159486790527919063040, 5841, 0, 247330401473104534060502521019647190035131349101211839914063056092897225106531867170316401061243044989597671426016133062249629647625987374178122947435477065561162308114186240, 5848, 0, 13407807929942597099574024998205846127479365820592393377723561443721764030073546976801874298166903427690031858186485710571386961873483106571826217237872640])), (22, (dd [5816, 0, 726838724295606890549323807888004534353641360687318060281490199180639288113397923326191050713763565560762521606266159486790527919063040, 5832, 0, 13407807929942597099574024998205846127479365820592393377723561443721764030073546976801874298166903427690031858186485710571386961873483106571826217237872640, 5841, 0, 4562440617622195218641171605700291324893228507248559930579192517899275167208677386505912811317371399778642309573594291518599467405180014427267652631814360918267329033796225492498866279116963840, 5848, 0, 247330401473104534060502521019647190035131349101211839914063056092897225106531867170316401061243044989597671426016133062249629647625987374178122947435477065561162308114186240])), (21, (dd [5816, 0, 13407807929942597099574024998205846127479365820592393377723561443721764030073546976801874298166903427690031858186485710571386961873483106571826217237872640, 5832, 0, 247330401473104534060502521019647190035131349101211839914063056092897225106531867170316401061243044989597671426016133062249629647625987374178122947435477065561162308114186240, 5841, 0, 84162174424773976115855838126082058648805436845170781751972494449099714468753293153818664580441415219631727501698849347421274995092858466788338866778315490894761222085285166529458797906423382835790669065685565440, 5848, 0, 4562440617622195218641171605700291324893228507248559930579192517899275167208677386505912811317371399778642309573594291518599467405180014427267652631814360918267329033796225492498866279116963840])), (14, (dd [0, 0, 1552518092300708935148979488462502555256886017116696611139052038026050952686376886330878408828646477950487730697131073206171580044114814391444287275041181139204454976020849905550265285631598444825262999193716468750892846853816057856])), (13, (dd [0, 1, 1552518092300708935148979488462502555256886017116696611138804707624577848152316383809858761638611346601386518857217010150078682819008282524273970873979938094214857304594833766210913920597291693615295453038614575582976240081667358720])), (12, (dd [0, 0, 28638903918474961204418783933674838490721739172170652529441449702311064005352904159345284265824628375429359509218999720074396860757073376700445026041564579620512874307979212102266801261478978776245040008231745247475930553606737583615358787106474295296])), (11, (dd [0, 0, 28638903918474961204418783933674838490721739172170652529441449702311064005352904159345284265824628375429359509218999720074396860757073376700445026041564579620512874307979212102266801261478978776245040008231745247475930553606737583615358787106474295296])), (10, (dd [0, 0, 9745314011399999080353382387875188310876226857595007526866353939120647981831277122977152563326753373208188219620269616145433118912516717160247108887484006941580789969259341956664618075445938833961355306204177197734481142949374025040196098329837367168002475803910561078330935743138098053120])), (9, (dd [0, 0, 28638903918474961204418783933674838490721739172170652529441449702311064005352904159345284265824628375429359509218999720074396860757073376700445026041564579620512874307979212102266801261478978776245040008231745247475930553606737583615358787106474295296])), (8, (dd [0, 0, 9745314011399999080353382387875188310876226857595007526867906457212948690766426102465615065882010259225304916231408668183459169865203094046577987296312653419531277699956473029870789655490053648352799593479218378873685597925394874945746363615468965612827738803104277547081828589991914110976])), (7, (dd [0, 1, 1552518092300708935148979488462502555256886017116696611139052038026050952686376886330878408828646477950487730697131033804165383649635602112404187131427376059465184510574181957256861039909826947614651584927461583835252040225825751040])), (6, (dd [0, 0, 1552518092300708935148979488462502555256886017116696611138804707624577848152316383809858761638611346601386518857216970748072486424529070245233870730366133014475586839148165824194611410262200960240473461980026106769690877917711564800])), (5, (dd [0, 1, 28638903918474961204418783933674838490721739172170652529441449702311064005352904159345284265824628375429359509218998993235672565150182827376637138037030225979152186989918930612067620622190865378321713817181031483910369791085131317437425252504845680640])), (4, (dd [0, 1, 28638903918474961204418783933674838490721739172170652529441449702311064005352904159345284265824628375429359509218998993235672565150182827376637138037030225979152186989918930612067620622190865378321713817181031483910369791085131317437425252504845680640])), (3, (dd [0, 1, 9745314011399999080353382387875188310876226857595007526866353939120647981831277122977152563326753373208188219620269368815031645807982656657726089240293971810231688757419427933010531374615311514373225089946729759769230815743394676849150151210524831914003119672021714070078659942993939660800])), (2, (dd [0, 1, 28638903918474961204418783933674838490721739172170652529441449702311064005352904159345284265824628375429359509218998993235672565150182827376637138037030225979152186989918930612067620622190865378321713817181031483910369791085131317437425252504845680640])), (1, (dd [0, 1, 9745314011399999080353382387875188310876226857595007526867906457212948690766426102465615065882010259225304916231408420853057696760669033544056967649122618288182176488116558966814696758264947116485629277078157135828696000253968858806407012250434658861617771256949175653913911983219765411840])), (0, (dd [0, 0, 179769313486231590772930519078902473361797697894230657273430081157732675805500963132708477322407536021120113879871393357658789768814416622492847430639474124377767893424865485276302219601246094119453082952085005768838150682342462881473913110540827237163350510684586298239947245938479716304835356329624224137216]))]⟩, ⟨[132, 124, 121, 120], (dd [10961, 0, 1]), []⟩, ⟨[96, 88, 85, 84], (dd [11729, 0, 1]), []⟩, ⟨[83, 82, 81, 80, 79, 78, 77], (dd [11937, 1, 1]), [(23, (dd [248, 1, 1, 256, 1, 18446744073709551616, 264, 1, 340282366920938463463374607431768211456, 272, 1, 1, 280, 1, 18446744073709551616, 288, 1, 340282366920938463463374607431768211456])), (22, (dd [248, 1, 18446744073709551616, 256, 1, 340282366920938463463374607431768211456, 264, 1, 6277101735386680763835789423207666416102355444464034512896, 272, 1, 18446744073709551616, 280, 1, 340282366920938463463374607431768211456, 288, 1, 6277101735386680763835789423207666416102355444464034512896])), (21, (dd [248, 1, 340282366920938463463374607431768211456, 256, 1, 6277101735386680763835789423207666416102355444464034512896, 264, 1, 115792089237316195423570985008687907853269984665640564039457584007913129639936, 272, 1, 340282366920938463463374607431768211456, 280, 1, 6277101735386680763835789423207666416102355444464034512896, 288, 1, 115792089237316195423570985008687907853269984665640564039457584007913129639936])), (20, (dd [9944, 1, 1, 9960, 1, 18446744073709551616, 9969, 1, 6277101735386680763835789423207666416102355444464034512896, 9976, 1, 340282366920938463463374607431768211456])), (19, (dd [9944, 1, 18446744073709551616, 9960, 1, 340282366920938463463374607431768211456, 9969, 1, 115792089237316195423570985008687907853269984665640564039457584007913129639936, 9976, 1, 6277101735386680763835789423207666416102355444464034512896])), (18, (dd [9944, 1, 340282366920938463463374607431768211456, 9960, 1, 6277101735386680763835789423207666416102355444464034512896, 9969, 1, 2135987035920910082395021706169552114602704522356652769947041607822219725780640550022962086936576, 9976, 1, 115792089237316195423570985008687907853269984665640564039457584007913129639936])), (1, (dd [0, 0, 39402006196394479212279040100143613805079739270465446667948293404245721771497210611414266254884915640806627990306816])), (0, (dd [0, 1, 39402006196394479212279040100143613805079739270465446667948293404245721771497210611414266254884915640806627990306816]))]⟩, ⟨[76, 75, 73, 71, 70, 69, 68], (dd [12161, 0, 1]), [(24, (dd [248, 1, 1, 256, 1, 18446744073709551616, 264, 1, 340282366920938463463374607431768211456, 272, 1, 1, 280, 1, 18446744073709551616, 288, 1, 340282366920938463463374607431768211456])), (23, (dd [248, 1, 18446744073709551616, 256, 1, 340282366920938463463374607431768211456, 264, 1, 6277101735386680763835789423207666416102355444464034512896, 272, 1, 18446744073709551616, 280, 1, 340282366920938463463374607431768211456, 288, 1, 6277101735386680763835789423207666416102355444464034512896])), (22, (dd [248, 1, 340282366920938463463374607431768211456, 256, 1, 6277101735386680763835789423207666416102355444464034512896, 264, 1, 115792089237316195423570985008687907853269984665640564039457584007913129639936, 272, 1, 340282366920938463463374607431768211456, 280, 1, 6277101735386680763835789423207666416102355444464034512896, 288, 1, 115792089237316195423570985008687907853269984665640564039457584007913129639936])), (21, (dd [9944, 1, 1, 9960, 1, 18446744073709551616, 9969, 1, 6277101735386680763835789423207666416102355444464034512896, 9976, 1, 340282366920938463463374607431768211456])), (20, (dd [9944, 1, 18446744073709551616, 9960, 1, 340282366920938463463374607431768211456, 9969, 1, 115792089237316195423570985008687907853269984665640564039457584007913129639936, 9976, 1, 6277101735386680763835789423207666416102355444464034512896])), (19, (dd [9944, 1, 340282366920938463463374607431768211456, 9960, 1, 6277101735386680763835789423207666416102355444464034512896, 9969, 1, 2135987035920910082395021706169552114602704522356652769947041607822219725780640550022962086936576, 9976, 1, 115792089237316195423570985008687907853269984665640564039457584007913129639936])), (2, (dd [0, 0, 39402006196394479212279040100143613805079739270465446667948293404245721771497210611414266254884915640806627990306816])), (1, (dd [0, 1, 39402006196394479212279040100143613805079739270465446667942016302510335090733374821991058588468813285362163955793920])), (0, (dd [0, 0, 726838724295606890549323807888004534353641360687318060281490199180639288113397923326191050713763565560762521606266177933534601628614656]))]⟩, ⟨[50, 42, 39, 38], (dd [12753, 0, 1]), []⟩, ⟨[37, 36, 35, 34, 33, 32, 31], (dd [12865, 1, 1]), [(26, (dd [248, 1, 1, 256, 1, 18446744073709551616, 264, 1, 340282366920938463463374607431768211456, 272, 1, 1, 280, 1, 18446744073709551616, 288, 1, 340282366920938463463374607431768211456])), (25, (dd [248, 1, 18446744073709551616, 256, 1, 340282366920938463463374607431768211456, 264, 1, 6277101735386680763835789423207666416102355444464034512896, 272, 1, 18446744073709551616, 280, 1, 340282366920938463463374607431768211456, 288, 1, 6277101735386680763835789423207666416102355444464034512896])), (24, (dd [248, 1, 340282366920938463463374607431768211456, 256, 1, 6277101735386680763835789423207666416102355444464034512896, 264, 1, 115792089237316195423570985008687907853269984665640564039457584007913129639936, 272, 1, 340282366920938463463374607431768211456, 280, 1, 6277101735386680763835789423207666416102355444464034512896, 288, 1, 115792089237316195423570985008687907853269984665640564039457584007913129639936])), (23, (dd [9944, 1, 1, 9960, 1, 18446744073709551616, 9969, 1, 6277101735386680763835789423207666416102355444464034512896, 9976, 1, 340282366920938463463374607431768211456])), (22, (dd [9944, 1, 18446744073709551616, 9960, 1, 340282366920938463463374607431768211456, 9969, 1, 115792089237316195423570985008687907853269984665640564039457584007913129639936, 9976, 1, 6277101735386680763835789423207666416102355444464034512896])), (21, (dd [9944, 1, 340282366920938463463374607431768211456, 9960, 1, 6277101735386680763835789423207666416102355444464034512896, 9969, 1, 2135987035920910082395021706169552114602704522356652769947041607822219725780640550022962086936576, 9976, 1, 115792089237316195423570985008687907853269984665640564039457584007913129639936])), (4, (dd [0, 0, 39402006196394479212279040100143613805079739270465446667948293404245721771497210611414266254884915640806627990306816])), (3, (dd [0, 1, 39402006196394479212279040100143613805079739270465446667942016302510335090733374821991058588468813285362163955793920])), (2, (dd [0, 0, 726838724295606890549323807888004534353641360687318060281490199180639288113397923326191050713763565560762521606266177933534601628614656])), (1, (dd [0, 0, 726838724295606890549323807888004534353641360687318060281490199180639288113397923326191050713763565560762521606266177933534601628614656])), (0, (dd [0, 1, 39402006196394479212279040100143613805079739270465446667948293404245721771497210611414266254884915640806627990306816]))]⟩, ⟨[37, 36, 35, 30, 29, 28, 27, 26, 25], (dd [12961, 0, 1]), [(27, (dd [248, 1, 1, 256, 1, 18446744073709551616, 264, 1, 340282366920938463463374607431768211456, 272, 1, 1, 280, 1, 18446744073709551616, 288, 1, 340282366920938463463374607431768211456])), (26, (dd [248, 1, 18446744073709551616, 256, 1, 340282366920938463463374607431768211456, 264, 1, 6277101735386680763835789423207666416102355444464034512896, 272, 1, 18446744073709551616, 280, 1, 340282366920938463463374607431768211456, 288, 1, 6277101735386680763835789423207666416102355444464034512896])), (25, (dd [248, 1, 340282366920938463463374607431768211456, 256, 1, 6277101735386680763835789423207666416102355444464034512896, 264, 1, 115792089237316195423570985008687907853269984665640564039457584007913129639936, 272, 1, 340282366920938463463374607431768211456, 280, 1, 6277101735386680763835789423207666416102355444464034512896, 288, 1, 115792089237316195423570985008687907853269984665640564039457584007913129639936])), (24, (dd [9944, 1, 1, 9960, 1, 18446744073709551616, 9969, 1, 6277101735386680763835789423207666416102355444464034512896, 9976, 1, 340282366920938463463374607431768211456])), (23, (dd [9944, 1, 18446744073709551616, 9960, 1, 340282366920938463463374607431768211456, 9969, 1, 115792089237316195423570985008687907853269984665640564039457584007913129639936, 9976, 1, 6277101735386680763835789423207666416102355444464034512896])), (22, (dd [9944, 1, 340282366920938463463374607431768211456, 9960, 1, 6277101735386680763835789423207666416102355444464034512896, 9969, 1, 2135987035920910082395021706169552114602704522356652769947041607822219725780640550022962086936576, 9976, 1, 115792089237316195423570985008687907853269984665640564039457584007913129639936])), (5, (dd [0, 0, 39402006196394479212279040100143613805079739270465446667948293404245721771497210611414266254884915640806627990306816])), (4, (dd [0, 1, 39402006196394479212279040100143613805079739270465446667942016302510335090733374821991058588468813285362163955793920])), (3, (dd [0, 0, 726838724295606890549323807888004534353641360687318060281490199180639288113397923326191050713763565560762521606266177933534601628614656])), (2, (dd [0, 0, 726838724295606890549323807888004534353641360687318060281490199180639288113397923326191050713763565560762521606266177933534601628614656])), (1, (dd [0, 0, 247330401473104534060502521019647190035131349101211839914023654086700830627319588130216257447437965250327205979348191045947119312535253999356131888847008252275800144158392320])), (0, (dd [0, 0, 726838724295606890549323807888004534353641360687318060281490199180639288113397923326191050713763565560762521606266177933534601628614656]))]⟩, ⟨[204, 203, 202, 24, 23, 22, 21, 20, 19, 18, 17, 16, 15, 14, 13, 12], (dd [13473, 1, 1]), [(52, (dd [200, 1, 6277101735386680763835789423207666416102355444464034512896, 208, 1, 115792089237316195423570985008687907853269984665640564039457584007913129639936, 216, 1, 2135987035920910082395021706169552114602704522356652769947041607822219725780640550022962086936576, 224, 1, 39402006196394479212279040100143613805079739270465446667948293404245721771497210611414266254884915640806627990306816, 232, 1, 726838724295606890549323807888004534353641360687318060281490199180639288113397923326191050713763565560762521606266177933534601628614656, 240, 1, 13407807929942597099574024998205846127479365820592393377723561443721764030073546976801874298166903427690031858186486050853753882811946569946433649006084096, 248, 1, 6277101735386680763835789423207666416102355444464034512896, 256, 1, 115792089237316195423570985008687907853269984665640564039457584007913129639936, 264, 1, 2135987035920910082395021706169552114602704522356652769947041607822219725780640550022962086936576, 272, 1, 39402006196394479212279040100143613805079739270465446667948293404245721771497210611414266254884915640806627990306816, 280, 1, 726838724295606890549323807888004534353641360687318060281490199180639288113397923326191050713763565560762521606266177933534601628614656, 288, 1, 13407807929942597099574024998205846127479365820592393377723561443721764030073546976801874298166903427690031858186486050853753882811946569946433649006084096])), (51, (dd [200, 1, 115792089237316195423570985008687907853269984665640564039457584007913129639936, 208, 1, 2135987035920910082395021706169552114602704522356652769947041607822219725780640550022962086936576, 216, 1, 39402006196394479212279040100143613805079739270465446667948293404245721771497210611414266254884915640806627990306816, 224, 1, 726838724295606890549323807888004534353641360687318060281490199180639288113397923326191050713763565560762521606266177933534601628614656, 232, 1, 13407807929942597099574024998205846127479365820592393377723561443721764030073546976801874298166903427690031858186486050853753882811946569946433649006084096, 240, 1, 247330401473104534060502521019647190035131349101211839914063056092897225106531867170316401061243044989597671426016139339351365034306751209967546155101893167916606772148699136, 248, 1, 115792089237316195423570985008687907853269984665640564039457584007913129639936, 256, 1, 2135987035920910082395021706169552114602704522356652769947041607822219725780640550022962086936576, 264, 1, 39402006196394479212279040100143613805079739270465446667948293404245721771497210611414266254884915640806627990306816, 272, 1, 726838724295606890549323807888004534353641360687318060281490199180639288113397923326191050713763565560762521606266177933534601628614656, 280, 1, 13407807929942597099574024998205846127479365820592393377723561443721764030073546976801874298166903427690031858186486050853753882811946569946433649006084096, 288, 1, 247330401473104534060502521019647190035131349101211839914063056092897225106531867170316401061243044989597671426016139339351365034306751209967546155101893167916606772148699136])), (50, (dd [200, 1, 2135987035920910082395021706169552114602704522356652769947041607822219725780640550022962086936576, 208, 1, 39402006196394479212279040100143613805079739270465446667948293404245721771497210611414266254884915640806627990306816, 216, 1, 726838724295606890549323807888004534353641360687318060281490199180639288113397923326191050713763565560762521606266177933534601628614656, 224, 1, 13407807929942597099574024998205846127479365820592393377723561443721764030073546976801874298166903427690031858186486050853753882811946569946433649006084096, 232, 1, 247330401473104534060502521019647190035131349101211839914063056092897225106531867170316401061243044989597671426016139339351365034306751209967546155101893167916606772148699136, 240, 1, 4562440617622195218641171605700291324893228507248559930579192517899275167208677386505912811317371399778642309573594407310688704721375437998252661319722214188251994674360264950082874192246603776, 248, 1, 2135987035920910082395021706169552114602704522356652769947041607822219725780640550022962086936576, 256, 1, 39402006196394479212279040100143613805079739270465446667948293404245721771497210611414266254884915640806627990306816, 264, 1, 726838724295606890549323807888004534353641360687318060281490199180639288113397923326191050713763565560762521606266177933534601628614656, 272, 1, 13407807929942597099574024998205846127479365820592393377723561443721764030073546976801874298166903427690031858186486050853753882811946569946433649006084096, 280, 1, 247330401473104534060502521019647190035131349101211839914063056092897225106531867170316401061243044989597671426016139339351365034306751209967546155101893167916606772148699136, 288, 1, 4562440617622195218641171605700291324893228507248559930579192517899275167208677386505912811317371399778642309573594407310688704721375437998252661319722214188251994674360264950082874192246603776])), (49, (dd [200, 1, 39402006196394479212279040100143613805079739270465446667948293404245721771497210611414266254884915640806627990306816, 208, 1, 726838724295606890549323807888004534353641360687318060281490199180639288113397923326191050713763565560762521606266177933534601628614656, 216, 1, 13407807929942597099574024998205846127479365820592393377723561443721764030073546976801874298166903427690031858186486050853753882811946569946433649006084096, 224, 1, 247330401473104534060502521019647190035131349101211839914063056092897225106531867170316401061243044989597671426016139339351365034306751209967546155101893167916606772148699136, 232, 1, 4562440617622195218641171605700291324893228507248559930579192517899275167208677386505912811317371399778642309573594407310688704721375437998252661319722214188251994674360264950082874192246603776, 240, 1, 84162174424773976115855838126082058648805436845170781751972494449099714468753293153818664580441415219631727501698851483408310916002940861810045036330430093599283578738055113571066620126149163476340692027772502016, 248, 1, 39402006196394479212279040100143613805079739270465446667948293404245721771497210611414266254884915640806627990306816, 256, 1, 726838724295606890549323807888004534353641360687318060281490199180639288113397923326191050713763565560762521606266177933534601628614656, 264, 1, 13407807929942597099574024998205846127479365820592393377723561443721764030073546976801874298166903427690031858186486050853753882811946569946433649006084096, 272, 1, 247330401473104534060502521019647190035131349101211839914063056092897225106531867170316401061243044989597671426016139339351365034306751209967546155101893167916606772148699136, 280, 1, 4562440617622195218641171605700291324893228507248559930579192517899275167208677386505912811317371399778642309573594407310688704721375437998252661319722214188251994674360264950082874192246603776, 288, 1, 84162174424773976115855838126082058648805436845170781751972494449099714468753293153818664580441415219631727501698851483408310916002940861810045036330430093599283578738055113571066620126149163476340692027772502016])), (48, (dd [200, 1, 726838724295606890549323807888004534353641360687318060281490199180639288113397923326191050713763565560762521606266177933534601628614656, 208, 1, 13407807929942597099574024998205846127479365820592393377723561443721764030073546976801874298166903427690031858186486050853753882811946569946433649006084096, 216, 1, 247330401473104534060502521019647190035131349101211839914063056092897225106531867170316401061243044989597671426016139339351365034306751209967546155101893167916606772148699136, 224, 1, 4562440617622195218641171605700291324893228507248559930579192517899275167208677386505912811317371399778642309573594407310688704721375437998252661319722214188251994674360264950082874192246603776, 232, 1, 84162174424773976115855838126082058648805436845170781751972494449099714468753293153818664580441415219631727501698851483408310916002940861810045036330430093599283578738055113571066620126149163476340692027772502016, 240, 1, 1552518092300708935148979488462502555256886017116696611139052038026050952686376886330878408828646477950487730697131073206171580044114814391444287275041181139204454976020849905550265285631598444825262999193716468750892846853816057856, 248, 1, 726838724295606890549323807888004534353641360687318060281490199180639288113397923326191050713763565560762521606266177933534601628614656, 256, 1, 13407807929942597099574024998205846127479365820592393377723561443721764030073546976801874298166903427690031858186486050853753882811946569946433649006084096, 264, 1, 247330401473104534060502521019647190035131349101211839914063056092897225106531867170316401061243044989597671426016139339351365034306751209967546155101893167916606772148699136, 272, 1, 4562440617622195218641171605700291324893228507248559930579192517899275167208677386505912811317371399778642309573594407310688704721375437998252661319722214188251994674360264950082874192246603776, 280, 1, 84162174424773976115855838126082058648805436845170781751972494449099714468753293153818664580441415219631727501698851483408310916002940861810045036330430093599283578738055113571066620126149163476340692027772502016, 288, 1, 1552518092300708935148979488462502555256886017116696611139052038026050952686376886330878408828646477950487730697131073206171580044114814391444287275041181139204454976020849905550265285631598444825262999193716468750892846853816057856])), (47, (dd [200, 1, 13407807929942597099574024998205846127479365820592393377723561443721764030073546976801874298166903427690031858186486050853753882811946569946433649006084096, 208, 1, 247330401473104534060502521019647190035131349101211839914063056092897225106531867170316401061243044989597671426016139339351365034306751209967546155101893167916606772148699136, 216, 1, 4562440617622195218641171605700291324893228507248559930579192517899275167208677386505912811317371399778642309573594407310688704721375437998252661319722214188251994674360264950082874192246603776, 224, 1, 84162174424773976115855838126082058648805436845170781751972494449099714468753293153818664580441415219631727501698851483408310916002940861810045036330430093599283578738055113571066620126149163476340692027772502016, 232, 1, 1552518092300708935148979488462502555256886017116696611139052038026050952686376886330878408828646477950487730697131073206171580044114814391444287275041181139204454976020849905550265285631598444825262999193716468750892846853816057856, 240, 1, 28638903918474961204418783933674838490721739172170652529441449702311064005352904159345284265824628375429359509218999720074396860757073376700445026041564579620512874307979212102266801261478978776245040008231745247475930553606737583615358787106474295296, 248, 1, 13407807929942597099574024998205846127479365820592393377723561443721764030073546976801874298166903427690031858186486050853753882811946569946433649006084096, 256, 1, 247330401473104534060502521019647190035131349101211839914063056092897225106531867170316401061243044989597671426016139339351365034306751209967546155101893167916606772148699136, 264, 1, 4562440617622195218641171605700291324893228507248559930579192517899275167208677386505912811317371399778642309573594407310688704721375437998252661319722214188251994674360264950082874192246603776, 272, 1, 84162174424773976115855838126082058648805436845170781751972494449099714468753293153818664580441415219631727501698851483408310916002940861810045036330430093599283578738055113571066620126149163476340692027772502016, 280, 1, 1552518092300708935148979488462502555256886017116696611139052038026050952686376886330878408828646477950487730697131073206171580044114814391444287275041181139204454976020849905550265285631598444825262999193716468750892846853816057856, 288, 1, 28638903918474961204418783933674838490721739172170652529441449702311064005352904159345284265824628375429359509218999720074396860757073376700445026041564579620512874307979212102266801261478978776245040008231745247475930553606737583615358787106474295296])), (46, (dd [1144, 1, 6277101735386680763835789423207666416102355444464034512896, 1160, 1, 115792089237316195423570985008687907853269984665640564039457584007913129639936, 1240, 1, 2135987035920910082395021706169552114602704522356652769947041607822219725780640550022962086936576, 1256, 1, 39402006196394479212279040100143613805079739270465446667948293404245721771497210611414266254884915640806627990306816, 1336, 1, 726838724295606890549323807888004534353641360687318060281490199180639288113397923326191050713763565560762521606266177933534601628614656, 1345, 1, 247330401473104534060502521019647190035131349101211839914063056092897225106531867170316401061243044989597671426016139339351365034306751209967546155101893167916606772148699136, 1352, 1, 13407807929942597099574024998205846127479365820592393377723561443721764030073546976801874298166903427690031858186486050853753882811946569946433649006084096])), (45, (dd [1144, 1, 115792089237316195423570985008687907853269984665640564039457584007913129639936, 1160, 1, 2135987035920910082395021706169552114602704522356652769947041607822219725780640550022962086936576, 1240, 1, 39402006196394479212279040100143613805079739270465446667948293404245721771497210611414266254884915640806627990306816, 1256, 1, 726838724295606890549323807888004534353641360687318060281490199180639288113397923326191050713763565560762521606266177933534601628614656, 1336, 1, 13407807929942597099574024998205846127479365820592393377723561443721764030073546976801874298166903427690031858186486050853753882811946569946433649006084096, 1345, 1, 4562440617622195218641171605700291324893228507248559930579192517899275167208677386505912811317371399778642309573594407310688704721375437998252661319722214188251994674360264950082874192246603776, 1352, 1, 247330401473104534060502521019647190035131349101211839914063056092897225106531867170316401061243044989597671426016139339351365034306751209967546155101893167916606772148699136])), (44, (dd [1144, 1, 2135987035920910082395021706169552114602704522356652769947041607822219725780640550022962086936576, 1160, 1, 39402006196394479212279040100143613805079739270465446667948293404245721771497210611414266254884915640806627990306816, 1240, 1, 726838724295606890549323807888004534353641360687318060281490199180639288113397923326191050713763565560762521606266177933534601628614656, 1256, 1, 13407807929942597099574024998205846127479365820592393377723561443721764030073546976801874298166903427690031858186486050853753882811946569946433649006084096, 1336, 1, 247330401473104534060502521019647190035131349101211839914063056092897225106531867170316401061243044989597671426016139339351365034306751209967546155101893167916606772148699136, 1345, 1, 84162174424773976115855838126082058648805436845170781751972494449099714468753293153818664580441415219631727501698851483408310916002940861810045036330430093599283578738055113571066620126149163476340692027772502016, 1352, 1, 4562440617622195218641171605700291324893228507248559930579192517899275167208677386505912811317371399778642309573594407310688704721375437998252661319722214188251994674360264950082874192246603776])), (43, (dd [1144, 1, 39402006196394479212279040100143613805079739270465446667948293404245721771497210611414266254884915640806627990306816, 1160, 1, 726838724295606890549323807888004534353641360687318060281490199180639288113397923326191050713763565560762521606266177933534601628614656, 1240, 1, 13407807929942597099574024998205846127479365820592393377723561443721764030073546976801874298166903427690031858186486050853753882811946569946433649006084096, 1256, 1, 247330401473104534060502521019647190035131349101211839914063056092897225106531867170316401061243044989597671426016139339351365034306751209967546155101893167916606772148699136, 1336, 1, 4562440617622195218641171605700291324893228507248559930579192517899275167208677386505912811317371399778642309573594407310688704721375437998252661319722214188251994674360264950082874192246603776, 1345, 1, 1552518092300708935148979488462502555256886017116696611139052038026050952686376886330878408828646477950487730697131073206171580044114814391444287275041181139204454976020849905550265285631598444825262999193716468750892846853816057856, 1352, 1, 84162174424773976115855838126082058648805436845170781751972494449099714468753293153818664580441415219631727501698851483408310916002940861810045036330430093599283578738055113571066620126149163476340692027772502016])), (42, (dd [1144, 1, 726838724295606890549323807888004534353641360687318060281490199180639288113397923326191050713763565560762521606266177933534601628614656, 1160, 1, 13407807929942597099574024998205846127479365820592393377723561443721764030073546976801874298166903427690031858186486050853753882811946569946433649006084096, 1240, 1, 247330401473104534060502521019647190035131349101211839914063056092897225106531867170316401061243044989597671426016139339351365034306751209967546155101893167916606772148699136, 1256, 1, 4562440617622195218641171605700291324893228507248559930579192517899275167208677386505912811317371399778642309573594407310688704721375437998252661319722214188251994674360264950082874192246603776, 1336, 1, 84162174424773976115855838126082058648805436845170781751972494449099714468753293153818664580441415219631727501698851483408310916002940861810045036330430093599283578738055113571066620126149163476340692027772502016, 1345, 1, 28638903918474961204418783933674838490721739172170652529441449702311064005352904159345284265824628375429359509218999720074396860757073376700445026041564579620512874307979212102266801261478978776245040008231745247475930553606737583615358787106474295296, 1352, 1, 1552518092300708935148979488462502555256886017116696611139052038026050952686376886330878408828646477950487730697131073206171580044114814391444287275041181139204454976020849905550265285631598444825262999193716468750892846853816057856])), (41, (dd [1144, 1, 13407807929942597099574024998205846127479365820592393377723561443721764030073546976801874298166903427690031858186486050853753882811946569946433649006084096, 1160, 1, 247330401473104534060502521019647190035131349101211839914063056092897225106531867170316401061243044989597671426016139339351365034306751209967546155101893167916606772148699136, 1240, 1, 4562440617622195218641171605700291324893228507248559930579192517899275167208677386505912811317371399778642309573594407310688704721375437998252661319722214188251994674360264950082874192246603776, 1256, 1, 84162174424773976115855838126082058648805436845170781751972494449099714468753293153818664580441415219631727501698851483408310916002940861810045036330430093599283578738055113571066620126149163476340692027772502016, 1336, 1, 1552518092300708935148979488462502555256886017116696611139052038026050952686376886330878408828646477950487730697131073206171580044114814391444287275041181139204454976020849905550265285631598444825262999193716468750892846853816057856, 1345, 1, 528294531135665246352339784916516606518847326036121522127960709026673902556724859474417255887657187894674394993257128678882347559502685537250538978462939576908386683999005084168731517676426441053024232908211188404148028292751561738838396898767036476489538580897737998336, 1352, 1, 28638903918474961204418783933674838490721739172170652529441449702311064005352904159345284265824628375429359509218999720074396860757073376700445026041564579620512874307979212102266801261478978776245040008231745247475930553606737583615358787106474295296])), (40, (dd [1448, 1, 39402006196394479212279040100143613805079739270465446667948293404245721771497210611414266254884915640806627990306816, 1464, 1, 726838724295606890549323807888004534353641360687318060281490199180639288113397923326191050713763565560762521606266177933534601628614656, 1544, 1, 13407807929942597099574024998205846127479365820592393377723561443721764030073546976801874298166903427690031858186486050853753882811946569946433649006084096, 1560, 1, 39402006196394479212279040100143613805079739270465446667948293404245721771497210611414266254884915640806627990306816, 1640, 1, 726838724295606890549323807888004534353641360687318060281490199180639288113397923326191050713763565560762521606266177933534601628614656, 1656, 1, 13407807929942597099574024998205846127479365820592393377723561443721764030073546976801874298166903427690031858186486050853753882811946569946433649006084096])), (39, (dd [1448, 1, 726838724295606890549323807888004534353641360687318060281490199180639288113397923326191050713763565560762521606266177933534601628614656, 1464, 1, 13407807929942597099574024998205846127479365820592393377723561443721764030073546976801874298166903427690031858186486050853753882811946569946433649006084096, 1544, 1, 247330401473104534060502521019647190035131349101211839914063056092897225106531867170316401061243044989597671426016139339351365034306751209967546155101893167916606772148699136, 1560, 1, 726838724295606890549323807888004534353641360687318060281490199180639288113397923326191050713763565560762521606266177933534601628614656, 1640, 1, 13407807929942597099574024998205846127479365820592393377723561443721764030073546976801874298166903427690031858186486050853753882811946569946433649006084096, 1656, 1, 247330401473104534060502521019647190035131349101211839914063056092897225106531867170316401061243044989597671426016139339351365034306751209967546155101893167916606772148699136])), (38, (dd [1448, 1, 13407807929942597099574024998205846127479365820592393377723561443721764030073546976801874298166903427690031858186486050853753882811946569946433649006084096, 1464, 1, 247330401473104534060502521019647190035131349101211839914063056092897225106531867170316401061243044989597671426016139339351365034306751209967546155101893167916606772148699136, 1544, 1, 4562440617622195218641171605700291324893228507248559930579192517899275167208677386505912811317371399778642309573594407310688704721375437998252661319722214188251994674360264950082874192246603776, 1560, 1, 13407807929942597099574024998205846127479365820592393377723561443721764030073546976801874298166903427690031858186486050853753882811946569946433649006084096, 1640, 1, 247330401473104534060502521019647190035131349101211839914063056092897225106531867170316401061243044989597671426016139339351365034306751209967546155101893167916606772148699136, 1656, 1, 4562440617622195218641171605700291324893228507248559930579192517899275167208677386505912811317371399778642309573594407310688704721375437998252661319722214188251994674360264950082874192246603776])), (37, (dd [2232, 1, 39402006196394479212279040100143613805079739270465446667948293404245721771497210611414266254884915640806627990306816, 2248, 1, 726838724295606890549323807888004534353641360687318060281490199180639288113397923326191050713763565560762521606266177933534601628614656, 2257, 1, 247330401473104534060502521019647190035131349101211839914063056092897225106531867170316401061243044989597671426016139339351365034306751209967546155101893167916606772148699136, 2264, 1, 13407807929942597099574024998205846127479365820592393377723561443721764030073546976801874298166903427690031858186486050853753882811946569946433649006084096])), (36, (dd [2232, 1, 726838724295606890549323807888004534353641360687318060281490199180639288113397923326191050713763565560762521606266177933534601628614656, 2248, 1, 13407807929942597099574024998205846127479365820592393377723561443721764030073546976801874298166903427690031858186486050853753882811946569946433649006084096, 2257, 1, 4562440617622195218641171605700291324893228507248559930579192517899275167208677386505912811317371399778642309573594407310688704721375437998252661319722214188251994674360264950082874192246603776, 2264, 1, 247330401473104534060502521019647190035131349101211839914063056092897225106531867170316401061243044989597671426016139339351365034306751209967546155101893167916606772148699136])), (35, (dd [2232, 1, 13407807929942597099574024998205846127479365820592393377723561443721764030073546976801874298166903427690031858186486050853753882811946569946433649006084096, 2248, 1, 247330401473104534060502521019647190035131349101211839914063056092897225106531867170316401061243044989597671426016139339351365034306751209967546155101893167916606772148699136, 2257, 1, 84162174424773976115855838126082058648805436845170781751972494449099714468753293153818664580441415219631727501698851483408310916002940861810045036330430093599283578738055113571066620126149163476340692027772502016, 2264, 1, 4562440617622195218641171605700291324893228507248559930579192517899275167208677386505912811317371399778642309573594407310688704721375437998252661319722214188251994674360264950082874192246603776])), (34, (dd [200, 0, 39402006196394479212279040100143613805079739270465446667948293404245721771497210611414266254884915640806627990306815, 208, 0, 726838724295606890549323807888004534353641360687318060281490199180639288113397923326191050713763565560762521606266159486790527919063040, 216, 0, 13407807929942597099574024998205846127479365820592393377723561443721764030073546976801874298166903427690031858186485710571386961873483106571826217237872640, 224, 0, 39402006196394479212279040100143613805079739270465446667948293404245721771497210611414266254884915640806627990306815, 232, 0, 726838724295606890549323807888004534353641360687318060281490199180639288113397923326191050713763565560762521606266159486790527919063040, 240, 0, 13407807929942597099574024998205846127479365820592393377723561443721764030073546976801874298166903427690031858186485710571386961873483106571826217237872640])), (33, (dd [200, 0, 726838724295606890549323807888004534353641360687318060281490199180639288113397923326191050713763565560762521606266159486790527919063040, 208, 0, 13407807929942597099574024998205846127479365820592393377723561443721764030073546976801874298166903427690031858186485710571386961873483106571826217237872640, 216, 0, 247330401473104534060502521019647190035131349101211839914063056092897225106531867170316401061243044989597671426016133062249629647625987374178122947435477065561162308114186240, 224, 0, 726838724295606890549323807888004534353641360687318060281490199180639288113397923326191050713763565560762521606266159486790527919063040, 232, 0, 13407807929942597099574024998205846127479365820592393377723561443721764030073546976801874298166903427690031858186485710571386961873483106571826217237872640, 240, 0, 247330401473104534060502521019647190035131349101211839914063056092897225106531867170316401061243044989597671426016133062249629647625987374178122947435477065561162308114186240])), (32, (dd [200, 0, 13407807929942597099574024998205846127479365820592393377723561443721764030073546976801874298166903427690031858186485710571386961873483106571826217237872640, 208, 0, 247330401473104534060502521019647190035131349101211839914063056092897225106531867170316401061243044989597671426016133062249629647625987374178122947435477065561162308114186240, 216, 0, 4562440617622195218641171605700291324893228507248559930579192517899275167208677386505912811317371399778642309573594291518599467405180014427267652631814360918267329033796225492498866279116963840, 224, 0, 13407807929942597099574024998205846127479365820592393377723561443721764030073546976801874298166903427690031858186485710571386961873483106571826217237872640, 232, 0, 247330401473104534060502521019647190035131349101211839914063056092897225106531867170316401061243044989597671426016133062249629647625987374178122947435477065561162308114186240, 240, 0, 4562440617622195218641171605700291324893228507248559930579192517899275167208677386505912811317371399778642309573594291518599467405180014427267652631814360918267329033796225492498866279116963840])), (31, (dd [5816, 0, 39402006196394479212279040100143613805079739270465446667948293404245721771497210611414266254884915640806627990306815, 5832, 0, 726838724295606890549323807888004534353641360687318060281490199180639288113397923326191050713763565560762521606266159486790527919063040, 5841, 0, 247330401473104534060502521019647190035131349101211839914063056092897225106531867170316401061243044989597671426016133062249629647625987374178122947435477065561162308114186240, 5848, 0, 13407807929942597099574024998205846127479365820592393377723561443721764030073546976801874298166903427690031858186485710571386961873483106571826217237872640])), (30, (dd [5816, 0, 726838724295606890549323807888004534353641360687318060281490199180639288113397923326191050713763565560762521606266159486790527919063040, 5832, 0, 13407807929942597099574024998205846127479365820592393377723561443721764030073546976801874298166903427690031858186485710571386961873483106571826217237872640, 5841, 0, 4562440617622195218641171605700291324893228507248559930579192517899275167208677386505912811317371399778642309573594291518599467405180014427267652631814360918267329033796225492498866279116963840, 5848, 0, 247330401473104534060502521019647190035131349101211839914063056092897225106531867170316401061243044989597671426016133062249629647625987374178122947435477065561162308114186240])), (29, (dd [5816, 0, 13407807929942597099574024998205846127479365820592393377723561443721764030073546976801874298166903427690031858186485710571386961873483106571826217237872640, 5832, 0, 247330401473104534060502521019647190035131349101211839914063056092897225106531867170316401061243044989597671426016133062249629647625987374178122947435477065561162308114186240, 5841, 0, 84162174424773976115855838126082058648805436845170781751972494449099714468753293153818664580441415219631727501698849347421274995092858466788338866778315490894761222085285166529458797906423382835790669065685565440, 5848, 0, 4562440617622195218641171605700291324893228507248559930579192517899275167208677386505912811317371399778642309573594291518599467405180014427267652631814360918267329033796225492498866279116963840])), (28, (dd [248, 0, 39402006196394479212279040100143613805079739270465446667948293404245721771497210611414266254884915640806627990306816, 256, 0, 726838724295606890549323807888004534353641360687318060281490199180639288113397923326191050713763565560762521606266177933534601628614656, 264, 0, 13407807929942597099574024998205846127479365820592393377723561443721764030073546976801874298166903427690031858186486050853753882811946569946433649006084096, 272, 0, 39402006196394479212279040100143613805079739270465446667948293404245721771497210611414266254884915640806627990306816, 280, 0, 726838724295606890549323807888004534353641360687318060281490199180639288113397923326191050713763565560762521606266177933534601628614656, 288, 0, 13407807929942597099574024998205846127479365820592393377723561443721764030073546976801874298166903427690031858186486050853753882811946569946433649006084096])), (27, (dd [248, 0, 726838724295606890549323807888004534353641360687318060281490199180639288113397923326191050713763565560762521606266177933534601628614656, 256, 0, 13407807929942597099574024998205846127479365820592393377723561443721764030073546976801874298166903427690031858186486050853753882811946569946433649006084096, 264, 0, 247330401473104534060502521019647190035131349101211839914063056092897225106531867170316401061243044989597671426016139339351365034306751209967546155101893167916606772148699136, 272, 0, 726838724295606890549323807888004534353641360687318060281490199180639288113397923326191050713763565560762521606266177933534601628614656, 280, 0, 13407807929942597099574024998205846127479365820592393377723561443721764030073546976801874298166903427690031858186486050853753882811946569946433649006084096, 288, 0, 247330401473104534060502521019647190035131349101211839914063056092897225106531867170316401061243044989597671426016139339351365034306751209967546155101893167916606772148699136])), (26, (dd [248, 0, 13407807929942597099574024998205846127479365820592393377723561443721764030073546976801874298166903427690031858186486050853753882811946569946433649006084096, 256, 0, 247330401473104534060502521019647190035131349101211839914063056092897225106531867170316401061243044989597671426016139339351365034306751209967546155101893167916606772148699136, 264, 0, 4562440617622195218641171605700291324893228507248559930579192517899275167208677386505912811317371399778642309573594407310688704721375437998252661319722214188251994674360264950082874192246603776, 272, 0, 13407807929942597099574024998205846127479365820592393377723561443721764030073546976801874298166903427690031858186486050853753882811946569946433649006084096, 280, 0, 247330401473104534060502521019647190035131349101211839914063056092897225106531867170316401061243044989597671426016139339351365034306751209967546155101893167916606772148699136, 288, 0, 4562440617622195218641171605700291324893228507248559930579192517899275167208677386505912811317371399778642309573594407310688704721375437998252661319722214188251994674360264950082874192246603776])), (25, (dd [9944, 0, 39402006196394479212279040100143613805079739270465446667948293404245721771497210611414266254884915640806627990306816, 9960, 0, 726838724295606890549323807888004534353641360687318060281490199180639288113397923326191050713763565560762521606266177933534601628614656, 9969, 0, 247330401473104534060502521019647190035131349101211839914063056092897225106531867170316401061243044989597671426016139339351365034306751209967546155101893167916606772148699136, 9976, 0, 13407807929942597099574024998205846127479365820592393377723561443721764030073546976801874298166903427690031858186486050853753882811946569946433649006084096])), (24, (dd [9944, 0, 726838724295606890549323807888004534353641360687318060281490199180639288113397923326191050713763565560762521606266177933534601628614656, 9960, 0, 13407807929942597099574024998205846127479365820592393377723561443721764030073546976801874298166903427690031858186486050853753882811946569946433649006084096, 9969, 0, 4562440617622195218641171605700291324893228507248559930579192517899275167208677386505912811317371399778642309573594407310688704721375437998252661319722214188251994674360264950082874192246603776, 9976, 0, 247330401473104534060502521019647190035131349101211839914063056092897225106531867170316401061243044989597671426016139339351365034306751209967546155101893167916606772148699136])), (23, (dd [9944, 0, 13407807929942597099574024998205846127479365820592393377723561443721764030073546976801874298166903427690031858186486050853753882811946569946433649006084096, 9960, 0, 247330401473104534060502521019647190035131349101211839914063056092897225106531867170316401061243044989597671426016139339351365034306751209967546155101893167916606772148699136, 9969, 0, 84162174424773976115855838126082058648805436845170781751972494449099714468753293153818664580441415219631727501698851483408310916002940861810045036330430093599283578738055113571066620126149163476340692027772502016, 9976, 0, 4562440617622195218641171605700291324893228507248559930579192517899275167208677386505912811317371399778642309573594407310688704721375437998252661319722214188251994674360264950082874192246603776])), (22, (dd [0, 0, 1552518092300708935148979488462502555256886017116696611139052038026050952686376886330878408828646477950487730697131073206171580044114814391444287275041181139204454976020849905550265285631598444825262999193716468750892846853816057856])), (21, (dd [0, 1, 1552518092300708935148979488462502555256886017116696611138804707624577848152316383809858761638611346601386518857217010150078682819008282524273970873979938094214857304594833766210913920597291693615295453038614575582976240081667358720])), (20, (dd [0, 0, 28638903918474961204418783933674838490721739172170652529441449702311064005352904159345284265824628375429359509218999720074396860757073376700445026041564579620512874307979212102266801261478978776245040008231745247475930553606737583615358787106474295296])), (19, (dd [0, 0, 28638903918474961204418783933674838490721739172170652529441449702311064005352904159345284265824628375429359509218999720074396860757073376700445026041564579620512874307979212102266801261478978776245040008231745247475930553606737583615358787106474295296])), (18, (dd [0, 0, 9745314011399999080353382387875188310876226857595007526866353939120647981831277122977152563326753373208188219620269616145433118912516717160247108887484006941580789969259341956664618075445938833961355306204177197734481142949374025040196098329837367168002475803910561078330935743138098053120])), (17, (dd [0, 0, 28638903918474961204418783933674838490721739172170652529441449702311064005352904159345284265824628375429359509218999720074396860757073376700445026041564579620512874307979212102266801261478978776245040008231745247475930553606737583615358787106474295296])), (16, (dd [0, 0, 9745314011399999080353382387875188310876226857595007526867906457212948690766426102465615065882010259225304916231408668183459169865203094046577987296312653419531277699956473029870789655490053648352799593479218378873685597925394874945746363615468965612827738803104277547081828589991914110976])), (15, (dd [0, 1, 1552518092300708935148979488462502555256886017116696611139052038026050952686376886330878408828646477950487730697131033804165383649635602112404187131427376059465184510574181957256861039909826947614651584927461583835252040225825751040])), (14, (dd [0, 0, 1552518092300708935148979488462502555256886017116696611138804707624577848152316383809858761638611346601386518857216970748072486424529070245233870730366133014475586839148165824194611410262200960240473461980026106769690877917711564800])), (13, (dd [0, 1, 28638903918474961204418783933674838490721739172170652529441449702311064005352904159345284265824628375429359509218998993235672565150182827376637138037030225979152186989918930612067620622190865378321713817181031483910369791085131317437425252504845680640])), (12, (dd [0, 1, 28638903918474961204418783933674838490721739172170652529441449702311064005352904159345284265824628375429359509218998993235672565150182827376637138037030225979152186989918930612067620622190865378321713817181031483910369791085131317437425252504845680640])), (11, (dd [0, 1, 9745314011399999080353382387875188310876226857595007526866353939120647981831277122977152563326753373208188219620269368815031645807982656657726089240293971810231688757419427933010531374615311514373225089946729759769230815743394676849150151210524831914003119672021714070078659942993939660800])), (10, (dd [0, 1, 28638903918474961204418783933674838490721739172170652529441449702311064005352904159345284265824628375429359509218998993235672565150182827376637138037030225979152186989918930612067620622190865378321713817181031483910369791085131317437425252504845680640])), (9, (dd [0, 1, 9745314011399999080353382387875188310876226857595007526867906457212948690766426102465615065882010259225304916231408420853057696760669033544056967649122618288182176488116558966814696758264947116485629277078157135828696000253968858806407012250434658861617771256949175653913911983219765411840])), (8, (dd [0, 0, 179769313486231590772930519078902473361797697894230657273430081157732675805500963132708477322407536021120113879871393357658789768814416622492847430639474124377767893424865485276302219601246094119453082952085005768838150682342462881473913110540827237163350510684586298239947245938479716304835356329624224137216])), (7, (dd [0, 0, 179769313486231590772930519078902473361797697894230657273430081157732675805500963132708477322407536021120113879871393357658789768814416622492847430639474124377767893424865485276302219601246094119453082952085005768838150682342462881473913110540827237163350510684586298239947245938479716304835356329624224137216])), (6, (dd [0, 1, 1552518092300708935148979488462502555256886017116696611139052038026050952686376886330878408828646477950487730697131073206171580044114814391444287275041181139204454976020849905550265285631598444825262999193716468750892846853816057856])), (5, (dd [0, 0, 1552518092300708935148979488462502555256886017116696611138804707624577848152316383809858761638611346601386518857217010150078682819008282524273970873979938094214857304594833766210913920597291693615295453038614575582976240081667358720])), (4, (dd [0, 1, 28638903918474961204418783933674838490721739172170652529441449702311064005352904159345284265824628375429359509218999720074396860757073376700445026041564579620512874307979212102266801261478978776245040008231745247475930553606737583615358787106474295296])), (3, (dd [0, 1, 28638903918474961204418783933674838490721739172170652529441449702311064005352904159345284265824628375429359509218999720074396860757073376700445026041564579620512874307979212102266801261478978776245040008231745247475930553606737583615358787106474295296])), (2, (dd [0, 1, 9745314011399999080353382387875188310876226857595007526866353939120647981831277122977152563326753373208188219620269616145433118912516717160247108887484006941580789969259341956664618075445938833961355306204177197734481142949374025040196098329837367168002475803910561078330935743138098053120])), (1, (dd [0, 1, 28638903918474961204418783933674838490721739172170652529441449702311064005352904159345284265824628375429359509218999720074396860757073376700445026041564579620512874307979212102266801261478978776245040008231745247475930553606737583615358787106474295296])), (0, (dd [0, 1, 9745314011399999080353382387875188310876226857595007526867906457212948690766426102465615065882010259225304916231408668183459169865203094046577987296312653419531277699956473029870789655490053648352799593479218378873685597925394874945746363615468965612827738803104277547081828589991914110976]))]⟩]
  zb := 0
  scratch := []
  keepBP := false

theorem mul_xy_ok : mulChk Model.Arm751.mul C.mul_xy 12 1 1 [(53, (dd [200, 1, 39402006196394479212279040100143613805079739270465446667948293404245721771497210611414266254884915640806627990306816, 208, 1, 726838724295606890549323807888004534353641360687318060281490199180639288113397923326191050713763565560762521606266177933534601628614656, 216, 1, 13407807929942597099574024998205846127479365820592393377723561443721764030073546976801874298166903427690031858186486050853753882811946569946433649006084096, 224, 1, 247330401473104534060502521019647190035131349101211839914063056092897225106531867170316401061243044989597671426016139339351365034306751209967546155101893167916606772148699136, 232, 1, 4562440617622195218641171605700291324893228507248559930579192517899275167208677386505912811317371399778642309573594407310688704721375437998252661319722214188251994674360264950082874192246603776, 240, 1, 84162174424773976115855838126082058648805436845170781751972494449099714468753293153818664580441415219631727501698851483408310916002940861810045036330430093599283578738055113571066620126149163476340692027772502016, 248, 1, 39402006196394479212279040100143613805079739270465446667948293404245721771497210611414266254884915640806627990306816, 256, 1, 726838724295606890549323807888004534353641360687318060281490199180639288113397923326191050713763565560762521606266177933534601628614656, 264, 1, 13407807929942597099574024998205846127479365820592393377723561443721764030073546976801874298166903427690031858186486050853753882811946569946433649006084096, 272, 1, 247330401473104534060502521019647190035131349101211839914063056092897225106531867170316401061243044989597671426016139339351365034306751209967546155101893167916606772148699136, 280, 1, 4562440617622195218641171605700291324893228507248559930579192517899275167208677386505912811317371399778642309573594407310688704721375437998252661319722214188251994674360264950082874192246603776, 288, 1, 84162174424773976115855838126082058648805436845170781751972494449099714468753293153818664580441415219631727501698851483408310916002940861810045036330430093599283578738055113571066620126149163476340692027772502016])), (52, (dd [200, 1, 726838724295606890549323807888004534353641360687318060281490199180639288113397923326191050713763565560762521606266177933534601628614656, 208, 1, 13407807929942597099574024998205846127479365820592393377723561443721764030073546976801874298166903427690031858186486050853753882811946569946433649006084096, 216, 1, 247330401473104534060502521019647190035131349101211839914063056092897225106531867170316401061243044989597671426016139339351365034306751209967546155101893167916606772148699136, 224, 1, 4562440617622195218641171605700291324893228507248559930579192517899275167208677386505912811317371399778642309573594407310688704721375437998252661319722214188251994674360264950082874192246603776, 232, 1, 84162174424773976115855838126082058648805436845170781751972494449099714468753293153818664580441415219631727501698851483408310916002940861810045036330430093599283578738055113571066620126149163476340692027772502016, 240, 1, 1552518092300708935148979488462502555256886017116696611139052038026050952686376886330878408828646477950487730697131073206171580044114814391444287275041181139204454976020849905550265285631598444825262999193716468750892846853816057856, 248, 1, 726838724295606890549323807888004534353641360687318060281490199180639288113397923326191050713763565560762521606266177933534601628614656, 256, 1, 13407807929942597099574024998205846127479365820592393377723561443721764030073546976801874298166903427690031858186486050853753882811946569946433649006084096, 264, 1, 247330401473104534060502521019647190035131349101211839914063056092897225106531867170316401061243044989597671426016139339351365034306751209967546155101893167916606772148699136, 272, 1, 4562440617622195218641171605700291324893228507248559930579192517899275167208677386505912811317371399778642309573594407310688704721375437998252661319722214188251994674360264950082874192246603776, 280, 1, 84162174424773976115855838126082058648805436845170781751972494449099714468753293153818664580441415219631727501698851483408310916002940861810045036330430093599283578738055113571066620126149163476340692027772502016, 288, 1, 1552518092300708935148979488462502555256886017116696611139052038026050952686376886330878408828646477950487730697131073206171580044114814391444287275041181139204454976020849905550265285631598444825262999193716468750892846853816057856])), (51, (dd [200, 1, 13407807929942597099574024998205846127479365820592393377723561443721764030073546976801874298166903427690031858186486050853753882811946569946433649006084096, 208, 1, 247330401473104534060502521019647190035131349101211839914063056092897225106531867170316401061243044989597671426016139339351365034306751209967546155101893167916606772148699136, 216, 1, 4562440617622195218641171605700291324893228507248559930579192517899275167208677386505912811317371399778642309573594407310688704721375437998252661319722214188251994674360264950082874192246603776, 224, 1, 84162174424773976115855838126082058648805436845170781751972494449099714468753293153818664580441415219631727501698851483408310916002940861810045036330430093599283578738055113571066620126149163476340692027772502016, 232, 1, 1552518092300708935148979488462502555256886017116696611139052038026050952686376886330878408828646477950487730697131073206171580044114814391444287275041181139204454976020849905550265285631598444825262999193716468750892846853816057856, 240, 1, 28638903918474961204418783933674838490721739172170652529441449702311064005352904159345284265824628375429359509218999720074396860757073376700445026041564579620512874307979212102266801261478978776245040008231745247475930553606737583615358787106474295296, 248, 1, 13407807929942597099574024998205846127479365820592393377723561443721764030073546976801874298166903427690031858186486050853753882811946569946433649006084096, 256, 1, 247330401473104534060502521019647190035131349101211839914063056092897225106531867170316401061243044989597671426016139339351365034306751209967546155101893167916606772148699136, 264, 1, 4562440617622195218641171605700291324893228507248559930579192517899275167208677386505912811317371399778642309573594407310688704721375437998252661319722214188251994674360264950082874192246603776, 272, 1, 84162174424773976115855838126082058648805436845170781751972494449099714468753293153818664580441415219631727501698851483408310916002940861810045036330430093599283578738055113571066620126149163476340692027772502016, 280, 1, 1552518092300708935148979488462502555256886017116696611139052038026050952686376886330878408828646477950487730697131073206171580044114814391444287275041181139204454976020849905550265285631598444825262999193716468750892846853816057856, 288, 1, 28638903918474961204418783933674838490721739172170652529441449702311064005352904159345284265824628375429359509218999720074396860757073376700445026041564579620512874307979212102266801261478978776245040008231745247475930553606737583615358787106474295296])), (50, (dd [200, 1, 247330401473104534060502521019647190035131349101211839914063056092897225106531867170316401061243044989597671426016139339351365034306751209967546155101893167916606772148699136, 208, 1, 4562440617622195218641171605700291324893228507248559930579192517899275167208677386505912811317371399778642309573594407310688704721375437998252661319722214188251994674360264950082874192246603776, 216, 1, 84162174424773976115855838126082058648805436845170781751972494449099714468753293153818664580441415219631727501698851483408310916002940861810045036330430093599283578738055113571066620126149163476340692027772502016, 224, 1, 1552518092300708935148979488462502555256886017116696611139052038026050952686376886330878408828646477950487730697131073206171580044114814391444287275041181139204454976020849905550265285631598444825262999193716468750892846853816057856, 232, 1, 28638903918474961204418783933674838490721739172170652529441449702311064005352904159345284265824628375429359509218999720074396860757073376700445026041564579620512874307979212102266801261478978776245040008231745247475930553606737583615358787106474295296, 240, 1, 528294531135665246352339784916516606518847326036121522127960709026673902556724859474417255887657187894674394993257128678882347559502685537250538978462939576908386683999005084168731517676426441053024232908211188404148028292751561738838396898767036476489538580897737998336, 248, 1, 247330401473104534060502521019647190035131349101211839914063056092897225106531867170316401061243044989597671426016139339351365034306751209967546155101893167916606772148699136, 256, 1, 4562440617622195218641171605700291324893228507248559930579192517899275167208677386505912811317371399778642309573594407310688704721375437998252661319722214188251994674360264950082874192246603776, 264, 1, 84162174424773976115855838126082058648805436845170781751972494449099714468753293153818664580441415219631727501698851483408310916002940861810045036330430093599283578738055113571066620126149163476340692027772502016, 272, 1, 1552518092300708935148979488462502555256886017116696611139052038026050952686376886330878408828646477950487730697131073206171580044114814391444287275041181139204454976020849905550265285631598444825262999193716468750892846853816057856, 280, 1, 28638903918474961204418783933674838490721739172170652529441449702311064005352904159345284265824628375429359509218999720074396860757073376700445026041564579620512874307979212102266801261478978776245040008231745247475930553606737583615358787106474295296, 288, 1, 528294531135665246352339784916516606518847326036121522127960709026673902556724859474417255887657187894674394993257128678882347559502685537250538978462939576908386683999005084168731517676426441053024232908211188404148028292751561738838396898767036476489538580897737998336])), (49, (dd [200, 1, 4562440617622195218641171605700291324893228507248559930579192517899275167208677386505912811317371399778642309573594407310688704721375437998252661319722214188251994674360264950082874192246603776, 208, 1, 84162174424773976115855838126082058648805436845170781751972494449099714468753293153818664580441415219631727501698851483408310916002940861810045036330430093599283578738055113571066620126149163476340692027772502016, 216, 1, 1552518092300708935148979488462502555256886017116696611139052038026050952686376886330878408828646477950487730697131073206171580044114814391444287275041181139204454976020849905550265285631598444825262999193716468750892846853816057856, 224, 1, 28638903918474961204418783933674838490721739172170652529441449702311064005352904159345284265824628375429359509218999720074396860757073376700445026041564579620512874307979212102266801261478978776245040008231745247475930553606737583615358787106474295296, 232, 1, 528294531135665246352339784916516606518847326036121522127960709026673902556724859474417255887657187894674394993257128678882347559502685537250538978462939576908386683999005084168731517676426441053024232908211188404148028292751561738838396898767036476489538580897737998336, 240, 1, 9745314011399999080353382387875188310876226857595007526867906457212948690766426102465615065882010259225304916231408668183459169865203094046577987296312653419531277699956473029870789655490053648352799593479218378873685597925394874945746363615468965612827738803104277547081828589991914110976, 248, 1, 4562440617622195218641171605700291324893228507248559930579192517899275167208677386505912811317371399778642309573594407310688704721375437998252661319722214188251994674360264950082874192246603776, 256, 1, 84162174424773976115855838126082058648805436845170781751972494449099714468753293153818664580441415219631727501698851483408310916002940861810045036330430093599283578738055113571066620126149163476340692027772502016, 264, 1, 1552518092300708935148979488462502555256886017116696611139052038026050952686376886330878408828646477950487730697131073206171580044114814391444287275041181139204454976020849905550265285631598444825262999193716468750892846853816057856, 272, 1, 28638903918474961204418783933674838490721739172170652529441449702311064005352904159345284265824628375429359509218999720074396860757073376700445026041564579620512874307979212102266801261478978776245040008231745247475930553606737583615358787106474295296, 280, 1, 528294531135665246352339784916516606518847326036121522127960709026673902556724859474417255887657187894674394993257128678882347559502685537250538978462939576908386683999005084168731517676426441053024232908211188404148028292751561738838396898767036476489538580897737998336, 288, 1, 9745314011399999080353382387875188310876226857595007526867906457212948690766426102465615065882010259225304916231408668183459169865203094046577987296312653419531277699956473029870789655490053648352799593479218378873685597925394874945746363615468965612827738803104277547081828589991914110976])), (48, (dd [200, 1, 84162174424773976115855838126082058648805436845170781751972494449099714468753293153818664580441415219631727501698851483408310916002940861810045036330430093599283578738055113571066620126149163476340692027772502016, 208, 1, 1552518092300708935148979488462502555256886017116696611139052038026050952686376886330878408828646477950487730697131073206171580044114814391444287275041181139204454976020849905550265285631598444825262999193716468750892846853816057856, 216, 1, 28638903918474961204418783933674838490721739172170652529441449702311064005352904159345284265824628375429359509218999720074396860757073376700445026041564579620512874307979212102266801261478978776245040008231745247475930553606737583615358787106474295296, 224, 1, 528294531135665246352339784916516606518847326036121522127960709026673902556724859474417255887657187894674394993257128678882347559502685537250538978462939576908386683999005084168731517676426441053024232908211188404148028292751561738838396898767036476489538580897737998336, 232, 1, 9745314011399999080353382387875188310876226857595007526867906457212948690766426102465615065882010259225304916231408668183459169865203094046577987296312653419531277699956473029870789655490053648352799593479218378873685597925394874945746363615468965612827738803104277547081828589991914110976, 240, 1, 179769313486231590772930519078902473361797697894230657273430081157732675805500963132708477322407536021120113879871393357658789768814416622492847430639474124377767893424865485276302219601246094119453082952085005768838150682342462881473913110540827237163350510684586298239947245938479716304835356329624224137216, 248, 1, 84162174424773976115855838126082058648805436845170781751972494449099714468753293153818664580441415219631727501698851483408310916002940861810045036330430093599283578738055113571066620126149163476340692027772502016, 256, 1, 1552518092300708935148979488462502555256886017116696611139052038026050952686376886330878408828646477950487730697131073206171580044114814391444287275041181139204454976020849905550265285631598444825262999193716468750892846853816057856, 264, 1, 28638903918474961204418783933674838490721739172170652529441449702311064005352904159345284265824628375429359509218999720074396860757073376700445026041564579620512874307979212102266801261478978776245040008231745247475930553606737583615358787106474295296, 272, 1, 528294531135665246352339784916516606518847326036121522127960709026673902556724859474417255887657187894674394993257128678882347559502685537250538978462939576908386683999005084168731517676426441053024232908211188404148028292751561738838396898767036476489538580897737998336, 280, 1, 9745314011399999080353382387875188310876226857595007526867906457212948690766426102465615065882010259225304916231408668183459169865203094046577987296312653419531277699956473029870789655490053648352799593479218378873685597925394874945746363615468965612827738803104277547081828589991914110976, 288, 1, 179769313486231590772930519078902473361797697894230657273430081157732675805500963132708477322407536021120113879871393357658789768814416622492847430639474124377767893424865485276302219601246094119453082952085005768838150682342462881473913110540827237163350510684586298239947245938479716304835356329624224137216])), (47, (dd [1144, 1, 39402006196394479212279040100143613805079739270465446667948293404245721771497210611414266254884915640806627990306816, 1160, 1, 726838724295606890549323807888004534353641360687318060281490199180639288113397923326191050713763565560762521606266177933534601628614656, 1240, 1, 13407807929942597099574024998205846127479365820592393377723561443721764030073546976801874298166903427690031858186486050853753882811946569946433649006084096, 1256, 1, 247330401473104534060502521019647190035131349101211839914063056092897225106531867170316401061243044989597671426016139339351365034306751209967546155101893167916606772148699136, 1336, 1, 4562440617622195218641171605700291324893228507248559930579192517899275167208677386505912811317371399778642309573594407310688704721375437998252661319722214188251994674360264950082874192246603776, 1345, 1, 1552518092300708935148979488462502555256886017116696611139052038026050952686376886330878408828646477950487730697131073206171580044114814391444287275041181139204454976020849905550265285631598444825262999193716468750892846853816057856, 1352, 1, 84162174424773976115855838126082058648805436845170781751972494449099714468753293153818664580441415219631727501698851483408310916002940861810045036330430093599283578738055113571066620126149163476340692027772502016])), (46, (dd [1144, 1, 726838724295606890549323807888004534353641360687318060281490199180639288113397923326191050713763565560762521606266177933534601628614656, 1160, 1, 13407807929942597099574024998205846127479365820592393377723561443721764030073546976801874298166903427690031858186486050853753882811946569946433649006084096, 1240, 1, 247330401473104534060502521019647190035131349101211839914063056092897225106531867170316401061243044989597671426016139339351365034306751209967546155101893167916606772148699136, 1256, 1, 4562440617622195218641171605700291324893228507248559930579192517899275167208677386505912811317371399778642309573594407310688704721375437998252661319722214188251994674360264950082874192246603776, 1336, 1, 84162174424773976115855838126082058648805436845170781751972494449099714468753293153818664580441415219631727501698851483408310916002940861810045036330430093599283578738055113571066620126149163476340692027772502016, 1345, 1, 28638903918474961204418783933674838490721739172170652529441449702311064005352904159345284265824628375429359509218999720074396860757073376700445026041564579620512874307979212102266801261478978776245040008231745247475930553606737583615358787106474295296, 1352, 1, 1552518092300708935148979488462502555256886017116696611139052038026050952686376886330878408828646477950487730697131073206171580044114814391444287275041181139204454976020849905550265285631598444825262999193716468750892846853816057856])), (45, (dd [1144, 1, 13407807929942597099574024998205846127479365820592393377723561443721764030073546976801874298166903427690031858186486050853753882811946569946433649006084096, 1160, 1, 247330401473104534060502521019647190035131349101211839914063056092897225106531867170316401061243044989597671426016139339351365034306751209967546155101893167916606772148699136, 1240, 1, 4562440617622195218641171605700291324893228507248559930579192517899275167208677386505912811317371399778642309573594407310688704721375437998252661319722214188251994674360264950082874192246603776, 1256, 1, 84162174424773976115855838126082058648805436845170781751972494449099714468753293153818664580441415219631727501698851483408310916002940861810045036330430093599283578738055113571066620126149163476340692027772502016, 1336, 1, 1552518092300708935148979488462502555256886017116696611139052038026050952686376886330878408828646477950487730697131073206171580044114814391444287275041181139204454976020849905550265285631598444825262999193716468750892846853816057856, 1345, 1, 528294531135665246352339784916516606518847326036121522127960709026673902556724859474417255887657187894674394993257128678882347559502685537250538978462939576908386683999005084168731517676426441053024232908211188404148028292751561738838396898767036476489538580897737998336, 1352, 1, 28638903918474961204418783933674838490721739172170652529441449702311064005352904159345284265824628375429359509218999720074396860757073376700445026041564579620512874307979212102266801261478978776245040008231745247475930553606737583615358787106474295296])), (44, (dd [1144, 1, 247330401473104534060502521019647190035131349101211839914063056092897225106531867170316401061243044989597671426016139339351365034306751209967546155101893167916606772148699136, 1160, 1, 4562440617622195218641171605700291324893228507248559930579192517899275167208677386505912811317371399778642309573594407310688704721375437998252661319722214188251994674360264950082874192246603776, 1240, 1, 84162174424773976115855838126082058648805436845170781751972494449099714468753293153818664580441415219631727501698851483408310916002940861810045036330430093599283578738055113571066620126149163476340692027772502016, 1256, 1, 1552518092300708935148979488462502555256886017116696611139052038026050952686376886330878408828646477950487730697131073206171580044114814391444287275041181139204454976020849905550265285631598444825262999193716468750892846853816057856, 1336, 1, 28638903918474961204418783933674838490721739172170652529441449702311064005352904159345284265824628375429359509218999720074396860757073376700445026041564579620512874307979212102266801261478978776245040008231745247475930553606737583615358787106474295296, 1345, 1, 9745314011399999080353382387875188310876226857595007526867906457212948690766426102465615065882010259225304916231408668183459169865203094046577987296312653419531277699956473029870789655490053648352799593479218378873685597925394874945746363615468965612827738803104277547081828589991914110976, 1352, 1, 528294531135665246352339784916516606518847326036121522127960709026673902556724859474417255887657187894674394993257128678882347559502685537250538978462939576908386683999005084168731517676426441053024232908211188404148028292751561738838396898767036476489538580897737998336])), (43, (dd [1144, 1, 4562440617622195218641171605700291324893228507248559930579192517899275167208677386505912811317371399778642309573594407310688704721375437998252661319722214188251994674360264950082874192246603776, 1160, 1, 84162174424773976115855838126082058648805436845170781751972494449099714468753293153818664580441415219631727501698851483408310916002940861810045036330430093599283578738055113571066620126149163476340692027772502016, 1240, 1, 1552518092300708935148979488462502555256886017116696611139052038026050952686376886330878408828646477950487730697131073206171580044114814391444287275041181139204454976020849905550265285631598444825262999193716468750892846853816057856, 1256, 1, 28638903918474961204418783933674838490721739172170652529441449702311064005352904159345284265824628375429359509218999720074396860757073376700445026041564579620512874307979212102266801261478978776245040008231745247475930553606737583615358787106474295296, 1336, 1, 528294531135665246352339784916516606518847326036121522127960709026673902556724859474417255887657187894674394993257128678882347559502685537250538978462939576908386683999005084168731517676426441053024232908211188404148028292751561738838396898767036476489538580897737998336, 1345, 1, 179769313486231590772930519078902473361797697894230657273430081157732675805500963132708477322407536021120113879871393357658789768814416622492847430639474124377767893424865485276302219601246094119453082952085005768838150682342462881473913110540827237163350510684586298239947245938479716304835356329624224137216, 1352, 1, 9745314011399999080353382387875188310876226857595007526867906457212948690766426102465615065882010259225304916231408668183459169865203094046577987296312653419531277699956473029870789655490053648352799593479218378873685597925394874945746363615468965612827738803104277547081828589991914110976])), (42, (dd [1144, 1, 84162174424773976115855838126082058648805436845170781751972494449099714468753293153818664580441415219631727501698851483408310916002940861810045036330430093599283578738055113571066620126149163476340692027772502016, 1160, 1, 1552518092300708935148979488462502555256886017116696611139052038026050952686376886330878408828646477950487730697131073206171580044114814391444287275041181139204454976020849905550265285631598444825262999193716468750892846853816057856, 1240, 1, 28638903918474961204418783933674838490721739172170652529441449702311064005352904159345284265824628375429359509218999720074396860757073376700445026041564579620512874307979212102266801261478978776245040008231745247475930553606737583615358787106474295296, 1256, 1, 528294531135665246352339784916516606518847326036121522127960709026673902556724859474417255887657187894674394993257128678882347559502685537250538978462939576908386683999005084168731517676426441053024232908211188404148028292751561738838396898767036476489538580897737998336, 1336, 1, 9745314011399999080353382387875188310876226857595007526867906457212948690766426102465615065882010259225304916231408668183459169865203094046577987296312653419531277699956473029870789655490053648352799593479218378873685597925394874945746363615468965612827738803104277547081828589991914110976, 1345, 1, 3316158518186977171087283760642741158699936149735704467159471849921418683482035763477878926564345847729145083728966646356210626353328840324989147544629059746554141479347263264595425816446455256534872353644097455203319930608430165174159005378955830171087831965898486080345430665055936553487340789901656166618033483630075818541056, 1352, 1, 179769313486231590772930519078902473361797697894230657273430081157732675805500963132708477322407536021120113879871393357658789768814416622492847430639474124377767893424865485276302219601246094119453082952085005768838150682342462881473913110540827237163350510684586298239947245938479716304835356329624224137216])), (41, (dd [1448, 1, 247330401473104534060502521019647190035131349101211839914063056092897225106531867170316401061243044989597671426016139339351365034306751209967546155101893167916606772148699136, 1464, 1, 4562440617622195218641171605700291324893228507248559930579192517899275167208677386505912811317371399778642309573594407310688704721375437998252661319722214188251994674360264950082874192246603776, 1544, 1, 84162174424773976115855838126082058648805436845170781751972494449099714468753293153818664580441415219631727501698851483408310916002940861810045036330430093599283578738055113571066620126149163476340692027772502016, 1560, 1, 247330401473104534060502521019647190035131349101211839914063056092897225106531867170316401061243044989597671426016139339351365034306751209967546155101893167916606772148699136, 1640, 1, 4562440617622195218641171605700291324893228507248559930579192517899275167208677386505912811317371399778642309573594407310688704721375437998252661319722214188251994674360264950082874192246603776, 1656, 1, 84162174424773976115855838126082058648805436845170781751972494449099714468753293153818664580441415219631727501698851483408310916002940861810045036330430093599283578738055113571066620126149163476340692027772502016])), (40, (dd [1448, 1, 4562440617622195218641171605700291324893228507248559930579192517899275167208677386505912811317371399778642309573594407310688704721375437998252661319722214188251994674360264950082874192246603776, 1464, 1, 84162174424773976115855838126082058648805436845170781751972494449099714468753293153818664580441415219631727501698851483408310916002940861810045036330430093599283578738055113571066620126149163476340692027772502016, 1544, 1, 1552518092300708935148979488462502555256886017116696611139052038026050952686376886330878408828646477950487730697131073206171580044114814391444287275041181139204454976020849905550265285631598444825262999193716468750892846853816057856, 1560, 1, 4562440617622195218641171605700291324893228507248559930579192517899275167208677386505912811317371399778642309573594407310688704721375437998252661319722214188251994674360264950082874192246603776, 1640, 1, 84162174424773976115855838126082058648805436845170781751972494449099714468753293153818664580441415219631727501698851483408310916002940861810045036330430093599283578738055113571066620126149163476340692027772502016, 1656, 1, 1552518092300708935148979488462502555256886017116696611139052038026050952686376886330878408828646477950487730697131073206171580044114814391444287275041181139204454976020849905550265285631598444825262999193716468750892846853816057856])), (39, (dd [1448, 1, 84162174424773976115855838126082058648805436845170781751972494449099714468753293153818664580441415219631727501698851483408310916002940861810045036330430093599283578738055113571066620126149163476340692027772502016, 1464, 1, 1552518092300708935148979488462502555256886017116696611139052038026050952686376886330878408828646477950487730697131073206171580044114814391444287275041181139204454976020849905550265285631598444825262999193716468750892846853816057856, 1544, 1, 28638903918474961204418783933674838490721739172170652529441449702311064005352904159345284265824628375429359509218999720074396860757073376700445026041564579620512874307979212102266801261478978776245040008231745247475930553606737583615358787106474295296, 1560, 1, 84162174424773976115855838126082058648805436845170781751972494449099714468753293153818664580441415219631727501698851483408310916002940861810045036330430093599283578738055113571066620126149163476340692027772502016, 1640, 1, 1552518092300708935148979488462502555256886017116696611139052038026050952686376886330878408828646477950487730697131073206171580044114814391444287275041181139204454976020849905550265285631598444825262999193716468750892846853816057856, 1656, 1, 28638903918474961204418783933674838490721739172170652529441449702311064005352904159345284265824628375429359509218999720074396860757073376700445026041564579620512874307979212102266801261478978776245040008231745247475930553606737583615358787106474295296])), (38, (dd [2232, 1, 247330401473104534060502521019647190035131349101211839914063056092897225106531867170316401061243044989597671426016139339351365034306751209967546155101893167916606772148699136, 2248, 1, 4562440617622195218641171605700291324893228507248559930579192517899275167208677386505912811317371399778642309573594407310688704721375437998252661319722214188251994674360264950082874192246603776, 2257, 1, 1552518092300708935148979488462502555256886017116696611139052038026050952686376886330878408828646477950487730697131073206171580044114814391444287275041181139204454976020849905550265285631598444825262999193716468750892846853816057856, 2264, 1, 84162174424773976115855838126082058648805436845170781751972494449099714468753293153818664580441415219631727501698851483408310916002940861810045036330430093599283578738055113571066620126149163476340692027772502016])), (37, (dd [2232, 1, 4562440617622195218641171605700291324893228507248559930579192517899275167208677386505912811317371399778642309573594407310688704721375437998252661319722214188251994674360264950082874192246603776, 2248, 1, 84162174424773976115855838126082058648805436845170781751972494449099714468753293153818664580441415219631727501698851483408310916002940861810045036330430093599283578738055113571066620126149163476340692027772502016, 2257, 1, 28638903918474961204418783933674838490721739172170652529441449702311064005352904159345284265824628375429359509218999720074396860757073376700445026041564579620512874307979212102266801261478978776245040008231745247475930553606737583615358787106474295296, 2264, 1, 1552518092300708935148979488462502555256886017116696611139052038026050952686376886330878408828646477950487730697131073206171580044114814391444287275041181139204454976020849905550265285631598444825262999193716468750892846853816057856])), (36, (dd [2232, 1, 84162174424773976115855838126082058648805436845170781751972494449099714468753293153818664580441415219631727501698851483408310916002940861810045036330430093599283578738055113571066620126149163476340692027772502016, 2248, 1, 1552518092300708935148979488462502555256886017116696611139052038026050952686376886330878408828646477950487730697131073206171580044114814391444287275041181139204454976020849905550265285631598444825262999193716468750892846853816057856, 2257, 1, 528294531135665246352339784916516606518847326036121522127960709026673902556724859474417255887657187894674394993257128678882347559502685537250538978462939576908386683999005084168731517676426441053024232908211188404148028292751561738838396898767036476489538580897737998336, 2264, 1, 28638903918474961204418783933674838490721739172170652529441449702311064005352904159345284265824628375429359509218999720074396860757073376700445026041564579620512874307979212102266801261478978776245040008231745247475930553606737583615358787106474295296])), (35, (dd [200, 0, 247330401473104534060502521019647190035131349101211839914063056092897225106531867170316401061243044989597671426016133062249629647625987374178122947435477065561162308114186240, 208, 0, 4562440617622195218641171605700291324893228507248559930579192517899275167208677386505912811317371399778642309573594291518599467405180014427267652631814360918267329033796225492498866279116963840, 216, 0, 84162174424773976115855838126082058648805436845170781751972494449099714468753293153818664580441415219631727501698849347421274995092858466788338866778315490894761222085285166529458797906423382835790669065685565440, 224, 0, 247330401473104534060502521019647190035131349101211839914063056092897225106531867170316401061243044989597671426016133062249629647625987374178122947435477065561162308114186240, 232, 0, 4562440617622195218641171605700291324893228507248559930579192517899275167208677386505912811317371399778642309573594291518599467405180014427267652631814360918267329033796225492498866279116963840, 240, 0, 84162174424773976115855838126082058648805436845170781751972494449099714468753293153818664580441415219631727501698849347421274995092858466788338866778315490894761222085285166529458797906423382835790669065685565440])), (34, (dd [200, 0, 4562440617622195218641171605700291324893228507248559930579192517899275167208677386505912811317371399778642309573594291518599467405180014427267652631814360918267329033796225492498866279116963840, 208, 0, 84162174424773976115855838126082058648805436845170781751972494449099714468753293153818664580441415219631727501698849347421274995092858466788338866778315490894761222085285166529458797906423382835790669065685565440, 216, 0, 1552518092300708935148979488462502555256886017116696611139052038026050952686376886330878408828646477950487730697131033804165383649635602112404187131427376059465184510574181957256861039909826947614651584927461583835252040225825751040, 224, 0, 4562440617622195218641171605700291324893228507248559930579192517899275167208677386505912811317371399778642309573594291518599467405180014427267652631814360918267329033796225492498866279116963840, 232, 0, 84162174424773976115855838126082058648805436845170781751972494449099714468753293153818664580441415219631727501698849347421274995092858466788338866778315490894761222085285166529458797906423382835790669065685565440, 240, 0, 1552518092300708935148979488462502555256886017116696611139052038026050952686376886330878408828646477950487730697131033804165383649635602112404187131427376059465184510574181957256861039909826947614651584927461583835252040225825751040])), (33, (dd [200, 0, 84162174424773976115855838126082058648805436845170781751972494449099714468753293153818664580441415219631727501698849347421274995092858466788338866778315490894761222085285166529458797906423382835790669065685565440, 208, 0, 1552518092300708935148979488462502555256886017116696611139052038026050952686376886330878408828646477950487730697131033804165383649635602112404187131427376059465184510574181957256861039909826947614651584927461583835252040225825751040, 216, 0, 28638903918474961204418783933674838490721739172170652529441449702311064005352904159345284265824628375429359509218998993235672565150182827376637138037030225979152186989918930612067620622190865378321713817181031483910369791085131317437425252504845680640, 224, 0, 84162174424773976115855838126082058648805436845170781751972494449099714468753293153818664580441415219631727501698849347421274995092858466788338866778315490894761222085285166529458797906423382835790669065685565440, 232, 0, 1552518092300708935148979488462502555256886017116696611139052038026050952686376886330878408828646477950487730697131033804165383649635602112404187131427376059465184510574181957256861039909826947614651584927461583835252040225825751040, 240, 0, 28638903918474961204418783933674838490721739172170652529441449702311064005352904159345284265824628375429359509218998993235672565150182827376637138037030225979152186989918930612067620622190865378321713817181031483910369791085131317437425252504845680640])), (32, (dd [5816, 0, 247330401473104534060502521019647190035131349101211839914063056092897225106531867170316401061243044989597671426016133062249629647625987374178122947435477065561162308114186240, 5832, 0, 4562440617622195218641171605700291324893228507248559930579192517899275167208677386505912811317371399778642309573594291518599467405180014427267652631814360918267329033796225492498866279116963840, 5841, 0, 1552518092300708935148979488462502555256886017116696611139052038026050952686376886330878408828646477950487730697131033804165383649635602112404187131427376059465184510574181957256861039909826947614651584927461583835252040225825751040, 5848, 0, 84162174424773976115855838126082058648805436845170781751972494449099714468753293153818664580441415219631727501698849347421274995092858466788338866778315490894761222085285166529458797906423382835790669065685565440])), (31, (dd [5816, 0, 4562440617622195218641171605700291324893228507248559930579192517899275167208677386505912811317371399778642309573594291518599467405180014427267652631814360918267329033796225492498866279116963840, 5832, 0, 84162174424773976115855838126082058648805436845170781751972494449099714468753293153818664580441415219631727501698849347421274995092858466788338866778315490894761222085285166529458797906423382835790669065685565440, 5841, 0, 28638903918474961204418783933674838490721739172170652529441449702311064005352904159345284265824628375429359509218998993235672565150182827376637138037030225979152186989918930612067620622190865378321713817181031483910369791085131317437425252504845680640, 5848, 0, 1552518092300708935148979488462502555256886017116696611139052038026050952686376886330878408828646477950487730697131033804165383649635602112404187131427376059465184510574181957256861039909826947614651584927461583835252040225825751040])), (30, (dd [5816, 0, 84162174424773976115855838126082058648805436845170781751972494449099714468753293153818664580441415219631727501698849347421274995092858466788338866778315490894761222085285166529458797906423382835790669065685565440, 5832, 0, 1552518092300708935148979488462502555256886017116696611139052038026050952686376886330878408828646477950487730697131033804165383649635602112404187131427376059465184510574181957256861039909826947614651584927461583835252040225825751040, 5841, 0, 528294531135665246352339784916516606518847326036121522127960709026673902556724859474417255887657187894674394993257115271074417616905585963225540772616812097542566091605627360607287795912396367506047431033913021500720338260893375252787543144884224529919592147248731914240, 5848, 0, 28638903918474961204418783933674838490721739172170652529441449702311064005352904159345284265824628375429359509218998993235672565150182827376637138037030225979152186989918930612067620622190865378321713817181031483910369791085131317437425252504845680640])), (29, (dd [248, 1, 9745314011399999080353382387875188310876226857595007526867906457212948690766426102465615065882010259225304916231408420853057696760669033544056967649122618288182176488116558966814696758264947116485629277078157135828696000253968858806407012250434658861617771256949175653913911983219765411840, 256, 1, 179769313486231590772930519078902473361797697894230657273430081157732675805500963132708477322407536021120113879871388795218172146619197981321241730348149231149260644864934906083784320326078885442066577039273688397438372040032889287066602421836105861725352258023266576025758993943805356039885273455431977533440, 264, 1, 3316158518186977171087283760642741158699936149735704467159471849921418683482035763477878926564345847729145083728966562194036201579352724469151021462570410941117296308565511292100976716731986503241718534979517013788100298880928466322675597068039827230226021920862155650251831381477198498373769723281530017454557142938048046039040, 272, 1, 9745314011399999080353382387875188310876226857595007526867906457212948690766426102465615065882010259225304916231408420853057696760669033544056967649122618288182176488116558966814696758264947116485629277078157135828696000253968858806407012250434658861617771256949175653913911983219765411840, 280, 1, 179769313486231590772930519078902473361797697894230657273430081157732675805500963132708477322407536021120113879871388795218172146619197981321241730348149231149260644864934906083784320326078885442066577039273688397438372040032889287066602421836105861725352258023266576025758993943805356039885273455431977533440, 288, 1, 3316158518186977171087283760642741158699936149735704467159471849921418683482035763477878926564345847729145083728966562194036201579352724469151021462570410941117296308565511292100976716731986503241718534979517013788100298880928466322675597068039827230226021920862155650251831381477198498373769723281530017454557142938048046039040])), (28, (dd [248, 1, 179769313486231590772930519078902473361797697894230657273430081157732675805500963132708477322407536021120113879871388795218172146619197981321241730348149231149260644864934906083784320326078885442066577039273688397438372040032889287066602421836105861725352258023266576025758993943805356039885273455431977533440, 256, 1, 3316158518186977171087283760642741158699936149735704467159471849921418683482035763477878926564345847729145083728966562194036201579352724469151021462570410941117296308565511292100976716731986503241718534979517013788100298880928466322675597068039827230226021920862155650251831381477198498373769723281530017454557142938048046039040, 264, 1, 61172327492847069472032393719205726809135813743440799050195397570919697796091958321786863938157971792315844506873507494026366707646101001670845154387655368800047356274869483001071757146063268022725721933732999275610167290344136567515841960576255908030508397682599722690485598148539631148207495443284295639017720970169640826795927225562563231088640, 272, 1, 179769313486231590772930519078902473361797697894230657273430081157732675805500963132708477322407536021120113879871388795218172146619197981321241730348149231149260644864934906083784320326078885442066577039273688397438372040032889287066602421836105861725352258023266576025758993943805356039885273455431977533440, 280, 1, 3316158518186977171087283760642741158699936149735704467159471849921418683482035763477878926564345847729145083728966562194036201579352724469151021462570410941117296308565511292100976716731986503241718534979517013788100298880928466322675597068039827230226021920862155650251831381477198498373769723281530017454557142938048046039040, 288, 1, 61172327492847069472032393719205726809135813743440799050195397570919697796091958321786863938157971792315844506873507494026366707646101001670845154387655368800047356274869483001071757146063268022725721933732999275610167290344136567515841960576255908030508397682599722690485598148539631148207495443284295639017720970169640826795927225562563231088640])), (27, (dd [248, 1, 3316158518186977171087283760642741158699936149735704467159471849921418683482035763477878926564345847729145083728966562194036201579352724469151021462570410941117296308565511292100976716731986503241718534979517013788100298880928466322675597068039827230226021920862155650251831381477198498373769723281530017454557142938048046039040, 256, 1, 61172327492847069472032393719205726809135813743440799050195397570919697796091958321786863938157971792315844506873507494026366707646101001670845154387655368800047356274869483001071757146063268022725721933732999275610167290344136567515841960576255908030508397682599722690485598148539631148207495443284295639017720970169640826795927225562563231088640, 264, 1, 1128430269653696552505663664688505519051893948117725342710709407999638941941219040912833546632301522012495604549678605978408783319969756278149916470436018498160433048865917576919956070634332979696174880249501463874722041470230194944019445317470307104720504558900817980649418109454619138479825704463833652128124900166531408293257546571478173638888412507351845951242240, 272, 1, 3316158518186977171087283760642741158699936149735704467159471849921418683482035763477878926564345847729145083728966562194036201579352724469151021462570410941117296308565511292100976716731986503241718534979517013788100298880928466322675597068039827230226021920862155650251831381477198498373769723281530017454557142938048046039040, 280, 1, 61172327492847069472032393719205726809135813743440799050195397570919697796091958321786863938157971792315844506873507494026366707646101001670845154387655368800047356274869483001071757146063268022725721933732999275610167290344136567515841960576255908030508397682599722690485598148539631148207495443284295639017720970169640826795927225562563231088640, 288, 1, 1128430269653696552505663664688505519051893948117725342710709407999638941941219040912833546632301522012495604549678605978408783319969756278149916470436018498160433048865917576919956070634332979696174880249501463874722041470230194944019445317470307104720504558900817980649418109454619138479825704463833652128124900166531408293257546571478173638888412507351845951242240])), (26, (dd [9944, 1, 9745314011399999080353382387875188310876226857595007526867906457212948690766426102465615065882010259225304916231408420853057696760669033544056967649122618288182176488116558966814696758264947116485629277078157135828696000253968858806407012250434658861617771256949175653913911983219765411840, 9960, 1, 179769313486231590772930519078902473361797697894230657273430081157732675805500963132708477322407536021120113879871388795218172146619197981321241730348149231149260644864934906083784320326078885442066577039273688397438372040032889287066602421836105861725352258023266576025758993943805356039885273455431977533440, 9969, 1, 61172327492847069472032393719205726809135813743440799050195397570919697796091958321786863938157971792315844506873507494026366707646101001670845154387655368800047356274869483001071757146063268022725721933732999275610167290344136567515841960576255908030508397682599722690485598148539631148207495443284295639017720970169640826795927225562563231088640, 9976, 1, 3316158518186977171087283760642741158699936149735704467159471849921418683482035763477878926564345847729145083728966562194036201579352724469151021462570410941117296308565511292100976716731986503241718534979517013788100298880928466322675597068039827230226021920862155650251831381477198498373769723281530017454557142938048046039040])), (25, (dd [9944, 1, 179769313486231590772930519078902473361797697894230657273430081157732675805500963132708477322407536021120113879871388795218172146619197981321241730348149231149260644864934906083784320326078885442066577039273688397438372040032889287066602421836105861725352258023266576025758993943805356039885273455431977533440, 9960, 1, 3316158518186977171087283760642741158699936149735704467159471849921418683482035763477878926564345847729145083728966562194036201579352724469151021462570410941117296308565511292100976716731986503241718534979517013788100298880928466322675597068039827230226021920862155650251831381477198498373769723281530017454557142938048046039040, 9969, 1, 1128430269653696552505663664688505519051893948117725342710709407999638941941219040912833546632301522012495604549678605978408783319969756278149916470436018498160433048865917576919956070634332979696174880249501463874722041470230194944019445317470307104720504558900817980649418109454619138479825704463833652128124900166531408293257546571478173638888412507351845951242240, 9976, 1, 61172327492847069472032393719205726809135813743440799050195397570919697796091958321786863938157971792315844506873507494026366707646101001670845154387655368800047356274869483001071757146063268022725721933732999275610167290344136567515841960576255908030508397682599722690485598148539631148207495443284295639017720970169640826795927225562563231088640])), (24, (dd [9944, 1, 3316158518186977171087283760642741158699936149735704467159471849921418683482035763477878926564345847729145083728966562194036201579352724469151021462570410941117296308565511292100976716731986503241718534979517013788100298880928466322675597068039827230226021920862155650251831381477198498373769723281530017454557142938048046039040, 9960, 1, 61172327492847069472032393719205726809135813743440799050195397570919697796091958321786863938157971792315844506873507494026366707646101001670845154387655368800047356274869483001071757146063268022725721933732999275610167290344136567515841960576255908030508397682599722690485598148539631148207495443284295639017720970169640826795927225562563231088640, 9969, 1, 20815864389328798163850480654728171077230524494533409610638224700807216119346720596024478883464648369684843227908561487288235996831400577476494896694748122678522222897256312730837340025420610376086444423839491965235492679900103700605246120421317017897927447231643858717499924783372512204248280932264161177253083420173372830864992722949173164496017263342573606764952951882530508599459840, 9976, 1, 1128430269653696552505663664688505519051893948117725342710709407999638941941219040912833546632301522012495604549678605978408783319969756278149916470436018498160433048865917576919956070634332979696174880249501463874722041470230194944019445317470307104720504558900817980649418109454619138479825704463833652128124900166531408293257546571478173638888412507351845951242240])), (23, (dd [0, 0, 9745314011399999080353382387875188310876226857595007526867906457212948690766426102465615065882010259225304916231408668183459169865203094046577987296312653419531277699956473029870789655490053648352799593479218378873685597925394874945746363615468965612827738803104277547081828589991914110976])), (22, (dd [0, 1, 9745314011399999080353382387875188310876226857595007526866353939120647981831277122977152563326753373208188219620269616145433118912516717160247108887484006941580789969259341956664618075445938833961355306204177197734481142949374025040196098329837367168002475803910561078330935743138098053120])), (21, (dd [0, 0, 179769313486231590772930519078902473361797697894230657273430081157732675805500963132708477322407536021120113879871393357658789768814416622492847430639474124377767893424865485276302219601246094119453082952085005768838150682342462881473913110540827237163350510684586298239947245938479716304835356329624224137216])), (20, (dd [0, 0, 179769313486231590772930519078902473361797697894230657273430081157732675805500963132708477322407536021120113879871393357658789768814416622492847430639474124377767893424865485276302219601246094119453082952085005768838150682342462881473913110540827237163350510684586298239947245938479716304835356329624224137216])), (19, (dd [0, 0, 61172327492847069472032393719205726809135813743440799050185652256908297797011604939398988749847095565458249499346641140087246059664269724547868001824328615426839168055249213384926324027150751305565474824845515268668586500374877225559177342500809969196547042376395545492751117005590257123167299344954458271849718494365730265717596289819425133035520])), (18, (dd [0, 0, 179769313486231590772930519078902473361797697894230657273430081157732675805500963132708477322407536021120113879871393357658789768814416622492847430639474124377767893424865485276302219601246094119453082952085005768838150682342462881473913110540827237163350510684586298239947245938479716304835356329624224137216])), (17, (dd [0, 0, 61172327492847069472032393719205726809135813743440799050195397570919697796091958321786863938157971792315844506873509046544459008355036150650333616890210625686064472971480622053109783197015954399612052812141827922088117778074833698589048132156300022844899841969874763871624802603515651998113045708569927237462546233168834543264678118409417047146496])), (16, (dd [0, 1, 9745314011399999080353382387875188310876226857595007526867906457212948690766426102465615065882010259225304916231408420853057696760669033544056967649122618288182176488116558966814696758264947116485629277078157135828696000253968858806407012250434658861617771256949175653913911983219765411840])), (15, (dd [0, 0, 9745314011399999080353382387875188310876226857595007526866353939120647981831277122977152563326753373208188219620269368815031645807982656657726089240293971810231688757419427933010531374615311514373225089946729759769230815743394676849150151210524831914003119672021714070078659942993939660800])), (14, (dd [0, 1, 179769313486231590772930519078902473361797697894230657273430081157732675805500963132708477322407536021120113879871388795218172146619197981321241730348149231149260644864934906083784320326078885442066577039273688397438372040032889287066602421836105861725352258023266576025758993943805356039885273455431977533440])), (13, (dd [0, 1, 179769313486231590772930519078902473361797697894230657273430081157732675805500963132708477322407536021120113879871388795218172146619197981321241730348149231149260644864934906083784320326078885442066577039273688397438372040032889287066602421836105861725352258023266576025758993943805356039885273455431977533440])), (12, (dd [0, 1, 61172327492847069472032393719205726809135813743440799050185652256908297797011604939398988749847095565458249499346639587569153758955334575568379539321773358540822051358638074580218699449302598989181664966083876657321985113856020008549027263817990960914022768405521565554656902148285662289401088431033860980156103198912691651142013313579343465676800])), (11, (dd [0, 1, 179769313486231590772930519078902473361797697894230657273430081157732675805500963132708477322407536021120113879871388795218172146619197981321241730348149231149260644864934906083784320326078885442066577039273688397438372040032889287066602421836105861725352258023266576025758993943805356039885273455431977533440])), (10, (dd [0, 1, 61172327492847069472032393719205726809135813743440799050195397570919697796091958321786863938157971792315844506873507494026366707646101001670845154387655368800047356274869483001071757146063268022725721933732999275610167290344136567515841960576255908030508397682599722690485598148539631148207495443284295639017720970169640826795927225562563231088640])), (9, (dd [0, 0, 1128430269653696552505663664688505519051893948117725342710709407999638941941219040912833546632301522012495604549678634617312701794930960696933850145274509219899605219518447018369658381698338332600334225533767288503097470829739413943739519714331064178097205003926859545229038622328927117691927971265095131106901145206539640038505022502031780376472027866138952425537536])), (8, (dd [0, 0, 1128430269653696552505663664688505519051893948117725342710709407999638941941219040912833546632301522012495604549678634617312701794930960696933850145274509219899605219518447018369658381698338332600334225533767288503097470829739413943739519714331064178097205003926859545229038622328927117691927971265095131106901145206539640038505022502031780376472027866138952425537536])), (7, (dd [0, 0, 383984923062992702193107238768305990575971314802788874095145673202075995393018055488645297669674812185833211621938090724659508320715616692194400691710372378213418288788259466578068565105380321435293594783163552709668447090733983822804479683920206525585304147102121952077858745165100457564757557672186919467520041104262121681944859667561541416814386589402282723926249233541944750920981099067576946199101440])), (6, (dd [0, 1, 383984923062992702193107238768305990575971314802788874095084500874583148323546023094926091942865676372089770822887895327088588622919524733872613827772214406421102444281385959084042198397734220433622749628775897340868399734459114339803407926774143257562578425168388952802248577874756320997241715711610663559489532706579521959254374069413001785666179093958998428287231512571775110094185171842014382968012800])), (5, (dd [0, 0, 7083271603906078757501937199839970337237042072752024044272935252133021449487672037753077279976540494138725768234495639460865213383891750514006138423978523497385900672697721806778792081483055605376660789950197995749542384583557634760437214694792759342541383886741186148643243190031453502483908707138782883330117061211004372852736744112420227693376322850938821026815951518811414139423517682368550485918569681625682604499927040])), (4, (dd [0, 0, 7083271603906078757501937199839970337237042072752024044272935252133021449487672037753077279976540494138725768234495639460865213383891750514006138423978523497385900672697721806778792081483055605376660789950197995749542384583557634760437214694792759342541383886741186148643243190031453502483908707138782883330117061211004372852736744112420227693376322850938821026815951518811414139423517682368550485918569681625682604499927040])), (3, (dd [0, 0, 2410312426921032588580116606028314112912093247945688951359291054142194398889610093430316718116770078348645977406792797942332848136332468237087248484494290703455636686960636938648551649899169791026329355581739289707591611724609466133836774097985772607411871712942246914294118843717911963966936574500668647890384052909307328163054285148619583158817232982046557774224527342530414634735698579334708318113448006611881985247542259232750729738936987209671018397093068800])), (2, (dd [0, 0, 7083271603906078757501937199839970337237042072752024044272935252133021449487672037753077279976540494138725768234495639460865213383891750514006138423978523497385900672697721806778792081483055605376660789950197995749542384583557634760437214694792759342541383886741186148643243190031453502483908707138782883330117061211004372852736744112420227693376322850938821026815951518811414139423517682368550485918569681625682604499927040])), (1, (dd [0, 0, 2410312426921032588580116606028314112912093247945688951359675039065257391591803200669085024107346049663448766280887943615534924131725486292575893782163965515641469898582575029373211158219885407718523756273449662085805030013397725600414842663091152928847165307725410467003787290808645947789741054184588854415969357056409450115132143893784683616381990539718744693692047383634676756417643439002269859530262393201284267971468508466292674489857968308738595343292170240])), (0, (dd [0, 0, 1128430269653696552505663664688505519051893948117725342710709407999638941941219040912833546632301522012495604549678634617312701794930960696933850145274509219899605219518447018369658381698338332600334225533767288503097470829739413943739519714331064178097205003926859545229038622328927117691927971265095131106901145206539640038505022502031780376472027866138952425537536]))] = true := by decide +kernel

def C.rdc : Cert where
  S := ⟨[], [12, 24], [.arr 0, .arr 1], 0⟩
  anns := [a0, a0, a0, a0, a0, a0, a0, a0, a0, au 0 1122, a2, a1, a0, a0, au 0 1218, a0, a1, a0, a0, a0, au 0 1298, a0, a0, a1, a2, a0, a1, a0, a0, au 0 1458, a0, a0, a1, a0, a0, a0, au 0 1554, a0, a0, a1, a0, a0, a0, au 0 1666, a0, a0, a1, a2, a0, a1, a0, a0, au 0 1826, a0, a0, a1, a0, a0, au 0 1922, a0, a0, a1, a0, au 0 2018, a0, a0, a1, a0, au 0 2098, a0, a0, a1, a2, a0, a1, a0, a0, au 0 2226, a0, a0, a1, a0, au 0 2322, a0, a0, a1, a0, au 0 2402, a0, a0, a1, a0, au 0 2482, a0, a0, a1, a0, au 0 2562, a0, a0, a1, a2, a0, a1, a0, a0, au 0 2690, a0, a0, a1, a0, au 0 2786, a0, a0, a1, a0, au 0 2866, a0, a0, a1, a0, au 0 2946, a0, a0, a1, a0, au 0 3026, a0, a0, a1, a0, au 0 3106, a0, a0, a1, a2, a0, a1, a0, a0, au 0 3234, a0, a0, a1, a0, au 0 3330, a0, a0, a1, a0, au 0 3410, a0, a0, a1, a0, au 0 3490, a0, a0, a1, a0, au 0 3570, a0, a0, a1, a0, au 0 3650, a0, a0, a1, a0, au 0 3730, a0, a0, a1, a2, a0, a1, a0, a0, au 0 3858, a0, a0, a1, a0, au 0 3954, a0, a0, a1, a0, au 0 4034, a0, a0, a1, a0, au 0 4114, a0, a0, a1, a0, au 0 4194, a0, a0, a1, a0, au 0 4274, a0, a0, a1, a0, au 0 4354, a0, a0, a1, a0, a0, a1, a0, a0, au 0 4482, a0, a0, a1, a0, au 0 4578, a0, a0, a1, a0, au 0 4658, a0, a0, a1, a0, au 0 4738, a0, a0, a1, a0, au 0 4818, a0, a0, a1, a0, au 0 4898, a0, a0, a1, a0, au 0 4978, a0, a0, a1, a0, a0, a0, a0, a1, a0, a0, au 0 5138, a0, a0, a1, a0, au 0 5234, a0, a0, a1, a0, au 0 5314, a0, a0, a1, a0, au 0 5394, a0, a0, a1, a0, au 0 5474, a0, a0, a1, a0, au 0 5554, a0, a0, a1, a0, au 0 5634, a0, a0, a1, a0, a0, a1, a0, a0, au 0 5762, a0, a0, a1, a0, au 0 5858, a0, a0, a1, a0, au 0 5938, a0, a0, a1, a0, au 0 6018, a0, a0, a1, a0, au 0 6098, a0, a0, a1, a0, au 0 6178, a0, a0, a1, a0, au 0 6258, a0, a0, a1, a0, a0, a0, a0, a1, a0, a0, au 0 6418, a0, a0, a1, a0, au 0 6514, a0, a0, a1, a0, au 0 6594, a0, a0, a1, a0, au 0 6674, a0, a0, a1, a0, au 0 6754, a0, a0, a1, a0, au 0 6834, a0, a0, a1, a0, au 0 6914, a0, a0, a1, a0, a0, a1, a0, a0, au 0 7042, a0, a0, a1, a0, au 0 7138, a0, a0, a1, a0, au 0 7218, a0, a0, a1, a0, au 0 7298, a0, a0, a1, a0, au 0 7378, a0, a0, a1, a0, au 0 7458, a0, a0, a1, a0, a0, a0, a0, a1, a0, a0, au 0 7618, a0, a0, a1, a0, au 0 7714, a0, a0, a1, a0, au 0 7794, a0, a0, a1, a0, au 0 7874, a0, a0, a1, a0, au 0 7954, a0, a0, a1, a0, a0, a1, a0, a0, au 0 8082, a0, a0, a1, a0, au 0 8178, a0, a0, a1, a0, au 0 8258, a0, a0, a1, a0, au 0 8338, a0, a0, a1, a0, a0, a0, a0, a1, a0, a0, au 0 8498, a0, a0, a1, a0, au 0 8594, a0, a0, a1, a0, au 0 8674, a0, a0, a1, a0, a0, a1, a0, a0, au 0 8802, a0, a0, a1, a0, au 0 8898, a0, a0, a1, a0, a0, a0, a0, a1, a0, a0, au 0 9058, a0, a0, a0, a0, a0, a0, a0]
  hints := []
  zb := 0
  scratch := []
  keepBP := false

theorem rdc_ok : rdcChk Model.Arm751.rdc C.rdc 12 10354717741769305252977768237866805321427389645549071170116189679054678940682478846502882896561066713624553211618840202385203911976522554393044160468771151816976706840078913334358399730952774926980235086850991501872665651576831 1 (dd [104, 0, 1, 112, 0, 18446744073709551616, 120, 0, 340282366920938463463374607431768211456, 128, 0, 6277101735386680763835789423207666416102355444464034512896, 136, 0, 115792089237316195423570985008687907853269984665640564039457584007913129639936, 1192, 0, 2135987035920910082395021706169552114602704522356652769947041607822219725780640550022962086936576, 1416, 0, 39402006196394479212279040100143613805079739270465446667948293404245721771497210611414266254884915640806627990306816, 1784, 0, 726838724295606890549323807888004534353641360687318060281490199180639288113397923326191050713763565560762521606266177933534601628614656, 2184, 0, 13407807929942597099574024998205846127479365820592393377723561443721764030073546976801874298166903427690031858186486050853753882811946569946433649006084096, 2648, 0, 247330401473104534060502521019647190035131349101211839914063056092897225106531867170316401061243044989597671426016139339351365034306751209967546155101893167916606772148699136, 3192, 0, 4562440617622195218641171605700291324893228507248559930579192517899275167208677386505912811317371399778642309573594407310688704721375437998252661319722214188251994674360264950082874192246603776, 3816, 0, 84162174424773976115855838126082058648805436845170781751972494449099714468753293153818664580441415219631727501698851483408310916002940861810045036330430093599283578738055113571066620126149163476340692027772502016]) [(6, (dd [0, 1, 2135987035920910082395021706169552114602704522356652769947041607822219725780640550022962086936576])), (5, (dd [0, 1, 39402006196394479212279040100143613805079739270465446667948293404245721771497210611414266254884915640806627990306816])), (4, (dd [0, 1, 726838724295606890549323807888004534353641360687318060281490199180639288113397923326191050713763565560762521606266177933534601628614656])), (3, (dd [0, 1, 13407807929942597099574024998205846127479365820592393377723561443721764030073546976801874298166903427690031858186486050853753882811946569946433649006084096])), (2, (dd [0, 1, 247330401473104534060502521019647190035131349101211839914063056092897225106531867170316401061243044989597671426016139339351365034306751209967546155101893167916606772148699136])), (1, (dd [0, 1, 4562440617622195218641171605700291324893228507248559930579192517899275167208677386505912811317371399778642309573594407310688704721375437998252661319722214188251994674360264950082874192246603776])), (0, (dd [0, 1, 84162174424773976115855838126082058648805436845170781751972494449099714468753293153818664580441415219631727501698851483408310916002940861810045036330430093599283578738055113571066620126149163476340692027772502016]))] = true := by decide +kernel

end Lemmas.AsmCertArm751
