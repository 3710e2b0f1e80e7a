import Verif.Lemmas.AsmFamArm
import Verif.Model.AsmArm503
/- Certificates for `mul` and `rdc` of p503/arith_arm64.s, printed by gen/asmgen_arm64.py. -/
set_option maxRecDepth 100000
namespace Lemmas.AsmCertArm503
open Model.Asm Lemmas.AsmSym Lemmas.AsmPoly Lemmas.AsmSound Lemmas.AsmCall Lemmas.AsmFam Lemmas.AsmFamArm

def C.mul : Cert where
  S := ⟨[], [24, 12, 12], [.arr 0, .arr 1, .arr 2], 0⟩
  anns := [a0, a0, a0, a0, a0, a0, a0, a2, a2, a0, a0, a0, a0, a2, a2, a1, a0, a0, a0, a0, a2, a2, a0, a0, a0, a0, a2, a2, a1, a1, a1, a0, a0, a0, a0, a0, a0, a0, a0, a0, a0, a0, a0, a0, a1, a0, a0, a2, a2, a1, a2, a2, a1, a1, a1, a0, a0, a0, a0, a0, a0, a0, a0, au 1 2002, a0, au 3 1986, a1, a0, au 0 2098, a0, a1, a0, au 0 2162, a0, a0, a1, a0, a0, a0, a0, a0, a0, a0, a0, au 2 2322, au 2 2338, a1, a0, au 0 2418, a0, a1, a0, au 0 2482, a0, a0, a1, a0, a0, a0, au 0 2594, a0, a0, a0, a0, au 0 2674, a0, a0, a0, au 0 2738, a0, a1, a0, au 0 2802, a0, a0, a1, a0, a0, a0, a0, a0, a0, a0, a0, a0, a0, a0, a0, a0, a0, a0, a0, a0, a0, a0, a1, a0, a0, a0, a0, a2, a2, a1, a2, a2, a1, a1, a1, a0, a0, a0, a0, a0, a0, a0, a0, au 1 3490, a0, au 3 3474, a1, a0, au 0 3586, a0, a1, a0, au 0 3650, a0, a0, a1, a0, a0, a0, a0, a0, a0, a0, a0, au 2 3810, au 2 3826, a1, a0, au 0 3906, a0, a1, a0, au 0 3970, a0, a0, a1, a0, a0, a0, au 0 4082, a0, a0, a0, a0, au 0 4162, a0, a0, a0, au 0 4226, a0, a1, a0, au 0 4290, a0, a0, a1, a0, a0, a0, a0, a0, a0, a0, a0, a0, a0, a0, a0, a0, a0, a0, a0, a0, a0, a0, a0, a0, a0, a0, a0, a0, a0, a0, a0, a0, a0, a0, a0, a0, a0, a0, a0, a0, a0, a0, a0, a1, a0, a2, a2, a1, a2, a2, a1, a1, a1, a0, a0, a0, a0, a0, a0, a0, a0, au 1 5266, a0, au 3 5250, a1, a0, au 0 5362, a0, a1, a0, au 0 5426, a0, a0, a1, a0, a0, a0, a0, a0, a0, a0, a0, au 2 5586, au 2 5602, a1, a0, au 0 5682, a0, a1, a0, au 0 5746, a0, a0, a1, a0, a0, a0, au 0 5858, a0, a0, a0, a0, au 0 5938, a0, a0, a0, au 0 6002, a0, a1, a0, au 0 6066, a0, a0, a1, a0, a0, a0, a0, a0, a0, a0, a0, a0, a0, a0, a0, a0, a1, a0, a0, a0, a0, a0, a0, a0, a0, a0, a0, a0, a0, a0, a0, a0, a0, a0, a0, a0, a0, a0, a0, a0, a0, a0, a0, a0, a0, a0, a0, a0, a0]
  hints := [⟨[8], (dd [4993, 1, 1, 6609, 0, 1]), []⟩, ⟨[212, 211], (dd [2257, 0, 1]), []⟩, ⟨[196, 195], (dd [2577, 0, 1]), []⟩, ⟨[193, 192, 191, 189, 188], (dd [2721, 1, 1]), [(14, (dd [1352, 1, 1, 1368, 1, 18446744073709551616, 1448, 1, 1, 1464, 1, 18446744073709551616])), (13, (dd [1352, 1, 18446744073709551616, 1368, 1, 340282366920938463463374607431768211456, 1448, 1, 18446744073709551616, 1464, 1, 340282366920938463463374607431768211456])), (12, (dd [1784, 1, 1, 1793, 1, 340282366920938463463374607431768211456, 1800, 1, 18446744073709551616])), (11, (dd [1784, 1, 18446744073709551616, 1793, 1, 6277101735386680763835789423207666416102355444464034512896, 1800, 1, 340282366920938463463374607431768211456])), (1, (dd [0, 0, 115792089237316195423570985008687907853269984665640564039457584007913129639936])), (0, (dd [0, 1, 115792089237316195423570985008687907853269984665640564039457584007913129639936]))]⟩, ⟨[180, 179], (dd [2897, 0, 1]), []⟩, ⟨[178, 177, 176, 175, 174], (dd [2977, 1, 1]), [(16, (dd [1352, 1, 1, 1368, 1, 18446744073709551616, 1448, 1, 1, 1464, 1, 18446744073709551616])), (15, (dd [1352, 1, 18446744073709551616, 1368, 1, 340282366920938463463374607431768211456, 1448, 1, 18446744073709551616, 1464, 1, 340282366920938463463374607431768211456])), (14, (dd [1784, 1, 1, 1793, 1, 340282366920938463463374607431768211456, 1800, 1, 18446744073709551616])), (13, (dd [1784, 1, 18446744073709551616, 1793, 1, 6277101735386680763835789423207666416102355444464034512896, 1800, 1, 340282366920938463463374607431768211456])), (3, (dd [0, 0, 115792089237316195423570985008687907853269984665640564039457584007913129639936])), (2, (dd [0, 1, 115792089237316195423570985008687907853269984665640564039457584007913129639936])), (1, (dd [0, 0, 2135987035920910082395021706169552114602704522356652769947041607822219725780640550022962086936576])), (0, (dd [0, 1, 115792089237316195423570985008687907853269984665640564039457584007913129639936]))]⟩, ⟨[173, 172, 171, 170, 169, 168], (dd [3073, 0, 1]), [(17, (dd [1352, 1, 1, 1368, 1, 18446744073709551616, 1448, 1, 1, 1464, 1, 18446744073709551616])), (16, (dd [1352, 1, 18446744073709551616, 1368, 1, 340282366920938463463374607431768211456, 1448, 1, 18446744073709551616, 1464, 1, 340282366920938463463374607431768211456])), (15, (dd [1784, 1, 1, 1793, 1, 340282366920938463463374607431768211456, 1800, 1, 18446744073709551616])), (14, (dd [1784, 1, 18446744073709551616, 1793, 1, 6277101735386680763835789423207666416102355444464034512896, 1800, 1, 340282366920938463463374607431768211456])), (4, (dd [0, 0, 115792089237316195423570985008687907853269984665640564039457584007913129639936])), (3, (dd [0, 1, 115792089237316195423570985008687907852929702298719625575994209400481361428480])), (2, (dd [0, 0, 2135987035920910082395021706169552114602704522356652769947041607822219725780640550022962086936576])), (1, (dd [0, 0, 39402006196394479212279040100143613804963947181228130472524722419237033863643940626748625690845458056798714860666880])), (0, (dd [0, 0, 2135987035920910082395021706169552114602704522356652769947041607822219725780640550022962086936576]))]⟩, ⟨[142, 141], (dd [3745, 0, 1]), []⟩, ⟨[126, 125], (dd [4065, 0, 1]), []⟩, ⟨[123, 122, 121, 119, 118], (dd [4209, 1, 1]), [(16, (dd [296, 1, 1, 304, 1, 18446744073709551616, 312, 1, 1, 320, 1, 18446744073709551616])), (15, (dd [296, 1, 18446744073709551616, 304, 1, 340282366920938463463374607431768211456, 312, 1, 18446744073709551616, 320, 1, 340282366920938463463374607431768211456])), (14, (dd [3272, 1, 1, 3281, 1, 340282366920938463463374607431768211456, 3288, 1, 18446744073709551616])), (13, (dd [3272, 1, 18446744073709551616, 3281, 1, 6277101735386680763835789423207666416102355444464034512896, 3288, 1, 340282366920938463463374607431768211456])), (1, (dd [0, 0, 115792089237316195423570985008687907853269984665640564039457584007913129639936])), (0, (dd [0, 1, 115792089237316195423570985008687907853269984665640564039457584007913129639936]))]⟩, ⟨[110, 109], (dd [4385, 0, 1]), []⟩, ⟨[108, 107, 106, 105, 104], (dd [4465, 1, 1]), [(18, (dd [296, 1, 1, 304, 1, 18446744073709551616, 312, 1, 1, 320, 1, 18446744073709551616])), (17, (dd [296, 1, 18446744073709551616, 304, 1, 340282366920938463463374607431768211456, 312, 1, 18446744073709551616, 320, 1, 340282366920938463463374607431768211456])), (16, (dd [3272, 1, 1, 3281, 1, 340282366920938463463374607431768211456, 3288, 1, 18446744073709551616])), (15, (dd [3272, 1, 18446744073709551616, 3281, 1, 6277101735386680763835789423207666416102355444464034512896, 3288, 1, 340282366920938463463374607431768211456])), (3, (dd [0, 0, 115792089237316195423570985008687907853269984665640564039457584007913129639936])), (2, (dd [0, 1, 115792089237316195423570985008687907853269984665640564039457584007913129639936])), (1, (dd [0, 0, 2135987035920910082395021706169552114602704522356652769947041607822219725780640550022962086936576])), (0, (dd [0, 1, 115792089237316195423570985008687907853269984665640564039457584007913129639936]))]⟩, ⟨[103, 102, 101, 100, 99, 98], (dd [4561, 0, 1]), [(19, (dd [296, 1, 1, 304, 1, 18446744073709551616, 312, 1, 1, 320, 1, 18446744073709551616])), (18, (dd [296, 1, 18446744073709551616, 304, 1, 340282366920938463463374607431768211456, 312, 1, 18446744073709551616, 320, 1, 340282366920938463463374607431768211456])), (17, (dd [3272, 1, 1, 3281, 1, 340282366920938463463374607431768211456, 3288, 1, 18446744073709551616])), (16, (dd [3272, 1, 18446744073709551616, 3281, 1, 6277101735386680763835789423207666416102355444464034512896, 3288, 1, 340282366920938463463374607431768211456])), (4, (dd [0, 0, 115792089237316195423570985008687907853269984665640564039457584007913129639936])), (3, (dd [0, 1, 115792089237316195423570985008687907852929702298719625575994209400481361428480])), (2, (dd [0, 0, 2135987035920910082395021706169552114602704522356652769947041607822219725780640550022962086936576])), (1, (dd [0, 0, 39402006196394479212279040100143613804963947181228130472524722419237033863643940626748625690845458056798714860666880])), (0, (dd [0, 0, 2135987035920910082395021706169552114602704522356652769947041607822219725780640550022962086936576]))]⟩, ⟨[97, 96, 95, 94, 93, 92, 91, 90, 89], (dd [4801, 1, 1]), [(32, (dd [296, 1, 1, 304, 1, 18446744073709551616, 312, 1, 340282366920938463463374607431768211456, 320, 1, 6277101735386680763835789423207666416102355444464034512896, 328, 1, 1, 336, 1, 18446744073709551616, 344, 1, 340282366920938463463374607431768211456, 352, 1, 6277101735386680763835789423207666416102355444464034512896])), (31, (dd [296, 1, 18446744073709551616, 304, 1, 340282366920938463463374607431768211456, 312, 1, 6277101735386680763835789423207666416102355444464034512896, 320, 1, 115792089237316195423570985008687907853269984665640564039457584007913129639936, 328, 1, 18446744073709551616, 336, 1, 340282366920938463463374607431768211456, 344, 1, 6277101735386680763835789423207666416102355444464034512896, 352, 1, 115792089237316195423570985008687907853269984665640564039457584007913129639936])), (30, (dd [296, 1, 340282366920938463463374607431768211456, 304, 1, 6277101735386680763835789423207666416102355444464034512896, 312, 1, 115792089237316195423570985008687907853269984665640564039457584007913129639936, 320, 1, 2135987035920910082395021706169552114602704522356652769947041607822219725780640550022962086936576, 328, 1, 340282366920938463463374607431768211456, 336, 1, 6277101735386680763835789423207666416102355444464034512896, 344, 1, 115792089237316195423570985008687907853269984665640564039457584007913129639936, 352, 1, 2135987035920910082395021706169552114602704522356652769947041607822219725780640550022962086936576])), (29, (dd [296, 1, 6277101735386680763835789423207666416102355444464034512896, 304, 1, 115792089237316195423570985008687907853269984665640564039457584007913129639936, 312, 1, 2135987035920910082395021706169552114602704522356652769947041607822219725780640550022962086936576, 320, 1, 39402006196394479212279040100143613805079739270465446667948293404245721771497210611414266254884915640806627990306816, 328, 1, 6277101735386680763835789423207666416102355444464034512896, 336, 1, 115792089237316195423570985008687907853269984665640564039457584007913129639936, 344, 1, 2135987035920910082395021706169552114602704522356652769947041607822219725780640550022962086936576, 352, 1, 39402006196394479212279040100143613805079739270465446667948293404245721771497210611414266254884915640806627990306816])), (28, (dd [1144, 1, 1, 1160, 1, 18446744073709551616, 1240, 1, 340282366920938463463374607431768211456, 1249, 1, 115792089237316195423570985008687907853269984665640564039457584007913129639936, 1256, 1, 6277101735386680763835789423207666416102355444464034512896])), (27, (dd [1144, 1, 18446744073709551616, 1160, 1, 340282366920938463463374607431768211456, 1240, 1, 6277101735386680763835789423207666416102355444464034512896, 1249, 1, 2135987035920910082395021706169552114602704522356652769947041607822219725780640550022962086936576, 1256, 1, 115792089237316195423570985008687907853269984665640564039457584007913129639936])), (26, (dd [1144, 1, 340282366920938463463374607431768211456, 1160, 1, 6277101735386680763835789423207666416102355444464034512896, 1240, 1, 115792089237316195423570985008687907853269984665640564039457584007913129639936, 1249, 1, 39402006196394479212279040100143613805079739270465446667948293404245721771497210611414266254884915640806627990306816, 1256, 1, 2135987035920910082395021706169552114602704522356652769947041607822219725780640550022962086936576])), (25, (dd [1144, 1, 6277101735386680763835789423207666416102355444464034512896, 1160, 1, 115792089237316195423570985008687907853269984665640564039457584007913129639936, 1240, 1, 2135987035920910082395021706169552114602704522356652769947041607822219725780640550022962086936576, 1249, 1, 726838724295606890549323807888004534353641360687318060281490199180639288113397923326191050713763565560762521606266177933534601628614656, 1256, 1, 39402006196394479212279040100143613805079739270465446667948293404245721771497210611414266254884915640806627990306816])), (24, (dd [1352, 1, 340282366920938463463374607431768211456, 1368, 1, 6277101735386680763835789423207666416102355444464034512896, 1448, 1, 340282366920938463463374607431768211456, 1464, 1, 6277101735386680763835789423207666416102355444464034512896])), (23, (dd [1352, 1, 6277101735386680763835789423207666416102355444464034512896, 1368, 1, 115792089237316195423570985008687907853269984665640564039457584007913129639936, 1448, 1, 6277101735386680763835789423207666416102355444464034512896, 1464, 1, 115792089237316195423570985008687907853269984665640564039457584007913129639936])), (22, (dd [1784, 1, 340282366920938463463374607431768211456, 1793, 1, 115792089237316195423570985008687907853269984665640564039457584007913129639936, 1800, 1, 6277101735386680763835789423207666416102355444464034512896])), (21, (dd [1784, 1, 6277101735386680763835789423207666416102355444464034512896, 1793, 1, 2135987035920910082395021706169552114602704522356652769947041607822219725780640550022962086936576, 1800, 1, 115792089237316195423570985008687907853269984665640564039457584007913129639936])), (20, (dd [296, 0, 340282366920938463463374607431768211456, 304, 0, 6277101735386680763835789423207666416102355444464034512896, 312, 0, 340282366920938463463374607431768211456, 320, 0, 6277101735386680763835789423207666416102355444464034512896])), (19, (dd [296, 0, 6277101735386680763835789423207666416102355444464034512896, 304, 0, 115792089237316195423570985008687907853269984665640564039457584007913129639936, 312, 0, 6277101735386680763835789423207666416102355444464034512896, 320, 0, 115792089237316195423570985008687907853269984665640564039457584007913129639936])), (18, (dd [3272, 0, 340282366920938463463374607431768211456, 3281, 0, 115792089237316195423570985008687907853269984665640564039457584007913129639936, 3288, 0, 6277101735386680763835789423207666416102355444464034512896])), (17, (dd [3272, 0, 6277101735386680763835789423207666416102355444464034512896, 3281, 0, 2135987035920910082395021706169552114602704522356652769947041607822219725780640550022962086936576, 3288, 0, 115792089237316195423570985008687907853269984665640564039457584007913129639936])), (11, (dd [0, 0, 39402006196394479212279040100143613805079739270465446667948293404245721771497210611414266254884915640806627990306816])), (10, (dd [0, 1, 39402006196394479212279040100143613804963947181228130472524722419237033863643940626748625690845458056798714860666880])), (9, (dd [0, 0, 726838724295606890549323807888004534353641360687318060281490199180639288113397923326191050713763565560762521606266177933534601628614656])), (8, (dd [0, 0, 13407807929942597099574024998205846127439963814395998898511282403621620416268467237531408851498955134285786136414988840242339616557061654305627021015777280])), (7, (dd [0, 0, 726838724295606890549323807888004534353641360687318060281490199180639288113397923326191050713763565560762521606266177933534601628614656])), (6, (dd [0, 0, 13407807929942597099574024998205846127479365820592393377723561443721764030073546976801874298166903427690031858186486050853753882811946569946433649006084096])), (5, (dd [0, 1, 39402006196394479212279040100143613805079739270465446667948293404245721771497210611414266254884915640806627990306816])), (4, (dd [0, 0, 39402006196394479212279040100143613804963947181228130472524722419237033863643940626748625690845458056798714860666880])), (3, (dd [0, 1, 726838724295606890549323807888004534353641360687318060281490199180639288113397923326191050713763565560762521606266177933534601628614656])), (2, (dd [0, 1, 13407807929942597099574024998205846127439963814395998898511282403621620416268467237531408851498955134285786136414988840242339616557061654305627021015777280])), (1, (dd [0, 1, 726838724295606890549323807888004534353641360687318060281490199180639288113397923326191050713763565560762521606266177933534601628614656])), (0, (dd [0, 1, 13407807929942597099574024998205846127479365820592393377723561443721764030073546976801874298166903427690031858186486050853753882811946569946433649006084096]))]⟩, ⟨[63, 62], (dd [5521, 0, 1]), []⟩, ⟨[47, 46], (dd [5841, 0, 1]), []⟩, ⟨[44, 43, 42, 40, 39], (dd [5985, 1, 1]), [(19, (dd [328, 1, 1, 336, 1, 18446744073709551616, 344, 1, 1, 352, 1, 18446744073709551616])), (18, (dd [328, 1, 18446744073709551616, 336, 1, 340282366920938463463374607431768211456, 344, 1, 18446744073709551616, 352, 1, 340282366920938463463374607431768211456])), (17, (dd [5048, 1, 1, 5057, 1, 340282366920938463463374607431768211456, 5064, 1, 18446744073709551616])), (16, (dd [5048, 1, 18446744073709551616, 5057, 1, 6277101735386680763835789423207666416102355444464034512896, 5064, 1, 340282366920938463463374607431768211456])), (1, (dd [0, 0, 115792089237316195423570985008687907853269984665640564039457584007913129639936])), (0, (dd [0, 1, 115792089237316195423570985008687907853269984665640564039457584007913129639936]))]⟩, ⟨[31, 30], (dd [6161, 0, 1]), []⟩, ⟨[29, 28, 27, 26, 25], (dd [6241, 1, 1]), [(21, (dd [328, 1, 1, 336, 1, 18446744073709551616, 344, 1, 1, 352, 1, 18446744073709551616])), (20, (dd [328, 1, 18446744073709551616, 336, 1, 340282366920938463463374607431768211456, 344, 1, 18446744073709551616, 352, 1, 340282366920938463463374607431768211456])), (19, (dd [5048, 1, 1, 5057, 1, 340282366920938463463374607431768211456, 5064, 1, 18446744073709551616])), (18, (dd [5048, 1, 18446744073709551616, 5057, 1, 6277101735386680763835789423207666416102355444464034512896, 5064, 1, 340282366920938463463374607431768211456])), (3, (dd [0, 0, 115792089237316195423570985008687907853269984665640564039457584007913129639936])), (2, (dd [0, 1, 115792089237316195423570985008687907853269984665640564039457584007913129639936])), (1, (dd [0, 0, 2135987035920910082395021706169552114602704522356652769947041607822219725780640550022962086936576])), (0, (dd [0, 1, 115792089237316195423570985008687907853269984665640564039457584007913129639936]))]⟩, ⟨[24, 23, 22, 21, 20, 19], (dd [6337, 0, 1]), [(22, (dd [328, 1, 1, 336, 1, 18446744073709551616, 344, 1, 1, 352, 1, 18446744073709551616])), (21, (dd [328, 1, 18446744073709551616, 336, 1, 340282366920938463463374607431768211456, 344, 1, 18446744073709551616, 352, 1, 340282366920938463463374607431768211456])), (20, (dd [5048, 1, 1, 5057, 1, 340282366920938463463374607431768211456, 5064, 1, 18446744073709551616])), (19, (dd [5048, 1, 18446744073709551616, 5057, 1, 6277101735386680763835789423207666416102355444464034512896, 5064, 1, 340282366920938463463374607431768211456])), (4, (dd [0, 0, 115792089237316195423570985008687907853269984665640564039457584007913129639936])), (3, (dd [0, 1, 115792089237316195423570985008687907852929702298719625575994209400481361428480])), (2, (dd [0, 0, 2135987035920910082395021706169552114602704522356652769947041607822219725780640550022962086936576])), (1, (dd [0, 0, 39402006196394479212279040100143613804963947181228130472524722419237033863643940626748625690845458056798714860666880])), (0, (dd [0, 0, 2135987035920910082395021706169552114602704522356652769947041607822219725780640550022962086936576]))]⟩]
  zb := 0
  scratch := []
  keepBP := false

theorem mul_ok : halfChk Model.Arm503.mul C.mul 1 2 [97, 96, 95, 94, 93, 92, 91, 90, 89] [136, 129, 103, 102, 101, 100, 99, 98] [88, 87, 86, 85] [17, 16, 15, 14, 13, 12, 11, 10, 9] (dd [4993, 0, 1]) (dd [6593, 0, 1]) [(39, (dd [296, 1, 1, 304, 1, 18446744073709551616, 312, 1, 340282366920938463463374607431768211456, 320, 1, 6277101735386680763835789423207666416102355444464034512896, 328, 1, 1, 336, 1, 18446744073709551616, 344, 1, 340282366920938463463374607431768211456, 352, 1, 6277101735386680763835789423207666416102355444464034512896])), (38, (dd [296, 1, 18446744073709551616, 304, 1, 340282366920938463463374607431768211456, 312, 1, 6277101735386680763835789423207666416102355444464034512896, 320, 1, 115792089237316195423570985008687907853269984665640564039457584007913129639936, 328, 1, 18446744073709551616, 336, 1, 340282366920938463463374607431768211456, 344, 1, 6277101735386680763835789423207666416102355444464034512896, 352, 1, 115792089237316195423570985008687907853269984665640564039457584007913129639936])), (37, (dd [296, 1, 340282366920938463463374607431768211456, 304, 1, 6277101735386680763835789423207666416102355444464034512896, 312, 1, 115792089237316195423570985008687907853269984665640564039457584007913129639936, 320, 1, 2135987035920910082395021706169552114602704522356652769947041607822219725780640550022962086936576, 328, 1, 340282366920938463463374607431768211456, 336, 1, 6277101735386680763835789423207666416102355444464034512896, 344, 1, 115792089237316195423570985008687907853269984665640564039457584007913129639936, 352, 1, 2135987035920910082395021706169552114602704522356652769947041607822219725780640550022962086936576])), (36, (dd [296, 1, 6277101735386680763835789423207666416102355444464034512896, 304, 1, 115792089237316195423570985008687907853269984665640564039457584007913129639936, 312, 1, 2135987035920910082395021706169552114602704522356652769947041607822219725780640550022962086936576, 320, 1, 39402006196394479212279040100143613805079739270465446667948293404245721771497210611414266254884915640806627990306816, 328, 1, 6277101735386680763835789423207666416102355444464034512896, 336, 1, 115792089237316195423570985008687907853269984665640564039457584007913129639936, 344, 1, 2135987035920910082395021706169552114602704522356652769947041607822219725780640550022962086936576, 352, 1, 39402006196394479212279040100143613805079739270465446667948293404245721771497210611414266254884915640806627990306816])), (35, (dd [1144, 1, 1, 1160, 1, 18446744073709551616, 1240, 1, 340282366920938463463374607431768211456, 1249, 1, 115792089237316195423570985008687907853269984665640564039457584007913129639936, 1256, 1, 6277101735386680763835789423207666416102355444464034512896])), (34, (dd [1144, 1, 18446744073709551616, 1160, 1, 340282366920938463463374607431768211456, 1240, 1, 6277101735386680763835789423207666416102355444464034512896, 1249, 1, 2135987035920910082395021706169552114602704522356652769947041607822219725780640550022962086936576, 1256, 1, 115792089237316195423570985008687907853269984665640564039457584007913129639936])), (33, (dd [1144, 1, 340282366920938463463374607431768211456, 1160, 1, 6277101735386680763835789423207666416102355444464034512896, 1240, 1, 115792089237316195423570985008687907853269984665640564039457584007913129639936, 1249, 1, 39402006196394479212279040100143613805079739270465446667948293404245721771497210611414266254884915640806627990306816, 1256, 1, 2135987035920910082395021706169552114602704522356652769947041607822219725780640550022962086936576])), (32, (dd [1144, 1, 6277101735386680763835789423207666416102355444464034512896, 1160, 1, 115792089237316195423570985008687907853269984665640564039457584007913129639936, 1240, 1, 2135987035920910082395021706169552114602704522356652769947041607822219725780640550022962086936576, 1249, 1, 726838724295606890549323807888004534353641360687318060281490199180639288113397923326191050713763565560762521606266177933534601628614656, 1256, 1, 39402006196394479212279040100143613805079739270465446667948293404245721771497210611414266254884915640806627990306816])), (31, (dd [1352, 1, 340282366920938463463374607431768211456, 1368, 1, 6277101735386680763835789423207666416102355444464034512896, 1448, 1, 340282366920938463463374607431768211456, 1464, 1, 6277101735386680763835789423207666416102355444464034512896])), (30, (dd [1352, 1, 6277101735386680763835789423207666416102355444464034512896, 1368, 1, 115792089237316195423570985008687907853269984665640564039457584007913129639936, 1448, 1, 6277101735386680763835789423207666416102355444464034512896, 1464, 1, 115792089237316195423570985008687907853269984665640564039457584007913129639936])), (29, (dd [1784, 1, 340282366920938463463374607431768211456, 1793, 1, 115792089237316195423570985008687907853269984665640564039457584007913129639936, 1800, 1, 6277101735386680763835789423207666416102355444464034512896])), (28, (dd [1784, 1, 6277101735386680763835789423207666416102355444464034512896, 1793, 1, 2135987035920910082395021706169552114602704522356652769947041607822219725780640550022962086936576, 1800, 1, 115792089237316195423570985008687907853269984665640564039457584007913129639936])), (27, (dd [296, 0, 340282366920938463463374607431768211456, 304, 0, 6277101735386680763835789423207666416102355444464034512896, 312, 0, 340282366920938463463374607431768211456, 320, 0, 6277101735386680763835789423207666416102355444464034512896])), (26, (dd [296, 0, 6277101735386680763835789423207666416102355444464034512896, 304, 0, 115792089237316195423570985008687907853269984665640564039457584007913129639936, 312, 0, 6277101735386680763835789423207666416102355444464034512896, 320, 0, 115792089237316195423570985008687907853269984665640564039457584007913129639936])), (25, (dd [3272, 0, 340282366920938463463374607431768211456, 3281, 0, 115792089237316195423570985008687907853269984665640564039457584007913129639936, 3288, 0, 6277101735386680763835789423207666416102355444464034512896])), (24, (dd [3272, 0, 6277101735386680763835789423207666416102355444464034512896, 3281, 0, 2135987035920910082395021706169552114602704522356652769947041607822219725780640550022962086936576, 3288, 0, 115792089237316195423570985008687907853269984665640564039457584007913129639936])), (18, (dd [0, 0, 39402006196394479212279040100143613805079739270465446667948293404245721771497210611414266254884915640806627990306816])), (17, (dd [0, 1, 39402006196394479212279040100143613804963947181228130472524722419237033863643940626748625690845458056798714860666880])), (16, (dd [0, 0, 726838724295606890549323807888004534353641360687318060281490199180639288113397923326191050713763565560762521606266177933534601628614656])), (15, (dd [0, 0, 13407807929942597099574024998205846127439963814395998898511282403621620416268467237531408851498955134285786136414988840242339616557061654305627021015777280])), (14, (dd [0, 0, 726838724295606890549323807888004534353641360687318060281490199180639288113397923326191050713763565560762521606266177933534601628614656])), (13, (dd [0, 0, 13407807929942597099574024998205846127479365820592393377723561443721764030073546976801874298166903427690031858186486050853753882811946569946433649006084096])), (12, (dd [0, 1, 39402006196394479212279040100143613805079739270465446667948293404245721771497210611414266254884915640806627990306816])), (11, (dd [0, 0, 39402006196394479212279040100143613804963947181228130472524722419237033863643940626748625690845458056798714860666880])), (10, (dd [0, 1, 726838724295606890549323807888004534353641360687318060281490199180639288113397923326191050713763565560762521606266177933534601628614656])), (9, (dd [0, 1, 13407807929942597099574024998205846127439963814395998898511282403621620416268467237531408851498955134285786136414988840242339616557061654305627021015777280])), (8, (dd [0, 1, 726838724295606890549323807888004534353641360687318060281490199180639288113397923326191050713763565560762521606266177933534601628614656])), (7, (dd [0, 1, 13407807929942597099574024998205846127479365820592393377723561443721764030073546976801874298166903427690031858186486050853753882811946569946433649006084096])), (6, (dd [0, 0, 247330401473104534060502521019647190035131349101211839914063056092897225106531867170316401061243044989597671426016139339351365034306751209967546155101893167916606772148699136]))] [(27, (dd [296, 1, 340282366920938463463374607431768211456, 304, 1, 6277101735386680763835789423207666416102355444464034512896, 312, 1, 340282366920938463463374607431768211456, 320, 1, 6277101735386680763835789423207666416102355444464034512896])), (26, (dd [296, 1, 6277101735386680763835789423207666416102355444464034512896, 304, 1, 115792089237316195423570985008687907853269984665640564039457584007913129639936, 312, 1, 6277101735386680763835789423207666416102355444464034512896, 320, 1, 115792089237316195423570985008687907853269984665640564039457584007913129639936])), (25, (dd [3272, 1, 340282366920938463463374607431768211456, 3281, 1, 115792089237316195423570985008687907853269984665640564039457584007913129639936, 3288, 1, 6277101735386680763835789423207666416102355444464034512896])), (24, (dd [3272, 1, 6277101735386680763835789423207666416102355444464034512896, 3281, 1, 2135987035920910082395021706169552114602704522356652769947041607822219725780640550022962086936576, 3288, 1, 115792089237316195423570985008687907853269984665640564039457584007913129639936])), (12, (dd [0, 0, 39402006196394479212279040100143613805079739270465446667948293404245721771497210611414266254884915640806627990306816])), (11, (dd [0, 1, 39402006196394479212279040100143613804963947181228130472524722419237033863643940626748625690845458056798714860666880])), (10, (dd [0, 0, 726838724295606890549323807888004534353641360687318060281490199180639288113397923326191050713763565560762521606266177933534601628614656])), (9, (dd [0, 0, 13407807929942597099574024998205846127439963814395998898511282403621620416268467237531408851498955134285786136414988840242339616557061654305627021015777280])), (8, (dd [0, 0, 726838724295606890549323807888004534353641360687318060281490199180639288113397923326191050713763565560762521606266177933534601628614656])), (7, (dd [0, 0, 13407807929942597099574024998205846127479365820592393377723561443721764030073546976801874298166903427690031858186486050853753882811946569946433649006084096]))] [] [(23, (dd [328, 1, 340282366920938463463374607431768211456, 336, 1, 6277101735386680763835789423207666416102355444464034512896, 344, 1, 340282366920938463463374607431768211456, 352, 1, 6277101735386680763835789423207666416102355444464034512896])), (22, (dd [328, 1, 6277101735386680763835789423207666416102355444464034512896, 336, 1, 115792089237316195423570985008687907853269984665640564039457584007913129639936, 344, 1, 6277101735386680763835789423207666416102355444464034512896, 352, 1, 115792089237316195423570985008687907853269984665640564039457584007913129639936])), (21, (dd [5048, 1, 340282366920938463463374607431768211456, 5057, 1, 115792089237316195423570985008687907853269984665640564039457584007913129639936, 5064, 1, 6277101735386680763835789423207666416102355444464034512896])), (20, (dd [5048, 1, 6277101735386680763835789423207666416102355444464034512896, 5057, 1, 2135987035920910082395021706169552114602704522356652769947041607822219725780640550022962086936576, 5064, 1, 115792089237316195423570985008687907853269984665640564039457584007913129639936])), (5, (dd [0, 0, 39402006196394479212279040100143613805079739270465446667948293404245721771497210611414266254884915640806627990306816])), (4, (dd [0, 1, 39402006196394479212279040100143613804963947181228130472524722419237033863643940626748625690845458056798714860666880])), (3, (dd [0, 0, 726838724295606890549323807888004534353641360687318060281490199180639288113397923326191050713763565560762521606266177933534601628614656])), (2, (dd [0, 0, 13407807929942597099574024998205846127439963814395998898511282403621620416268467237531408851498955134285786136414988840242339616557061654305627021015777280])), (1, (dd [0, 0, 726838724295606890549323807888004534353641360687318060281490199180639288113397923326191050713763565560762521606266177933534601628614656])), (0, (dd [0, 0, 13407807929942597099574024998205846127479365820592393377723561443721764030073546976801874298166903427690031858186486050853753882811946569946433649006084096]))] [(39, (dd [296, 1, 115792089237316195423570985008687907853269984665640564039457584007913129639936, 304, 1, 2135987035920910082395021706169552114602704522356652769947041607822219725780640550022962086936576, 312, 1, 39402006196394479212279040100143613805079739270465446667948293404245721771497210611414266254884915640806627990306816, 320, 1, 726838724295606890549323807888004534353641360687318060281490199180639288113397923326191050713763565560762521606266177933534601628614656, 328, 1, 115792089237316195423570985008687907853269984665640564039457584007913129639936, 336, 1, 2135987035920910082395021706169552114602704522356652769947041607822219725780640550022962086936576, 344, 1, 39402006196394479212279040100143613805079739270465446667948293404245721771497210611414266254884915640806627990306816, 352, 1, 726838724295606890549323807888004534353641360687318060281490199180639288113397923326191050713763565560762521606266177933534601628614656])), (38, (dd [296, 1, 2135987035920910082395021706169552114602704522356652769947041607822219725780640550022962086936576, 304, 1, 39402006196394479212279040100143613805079739270465446667948293404245721771497210611414266254884915640806627990306816, 312, 1, 726838724295606890549323807888004534353641360687318060281490199180639288113397923326191050713763565560762521606266177933534601628614656, 320, 1, 13407807929942597099574024998205846127479365820592393377723561443721764030073546976801874298166903427690031858186486050853753882811946569946433649006084096, 328, 1, 2135987035920910082395021706169552114602704522356652769947041607822219725780640550022962086936576, 336, 1, 39402006196394479212279040100143613805079739270465446667948293404245721771497210611414266254884915640806627990306816, 344, 1, 726838724295606890549323807888004534353641360687318060281490199180639288113397923326191050713763565560762521606266177933534601628614656, 352, 1, 13407807929942597099574024998205846127479365820592393377723561443721764030073546976801874298166903427690031858186486050853753882811946569946433649006084096])), (37, (dd [296, 1, 39402006196394479212279040100143613805079739270465446667948293404245721771497210611414266254884915640806627990306816, 304, 1, 726838724295606890549323807888004534353641360687318060281490199180639288113397923326191050713763565560762521606266177933534601628614656, 312, 1, 13407807929942597099574024998205846127479365820592393377723561443721764030073546976801874298166903427690031858186486050853753882811946569946433649006084096, 320, 1, 247330401473104534060502521019647190035131349101211839914063056092897225106531867170316401061243044989597671426016139339351365034306751209967546155101893167916606772148699136, 328, 1, 39402006196394479212279040100143613805079739270465446667948293404245721771497210611414266254884915640806627990306816, 336, 1, 726838724295606890549323807888004534353641360687318060281490199180639288113397923326191050713763565560762521606266177933534601628614656, 344, 1, 13407807929942597099574024998205846127479365820592393377723561443721764030073546976801874298166903427690031858186486050853753882811946569946433649006084096, 352, 1, 247330401473104534060502521019647190035131349101211839914063056092897225106531867170316401061243044989597671426016139339351365034306751209967546155101893167916606772148699136])), (36, (dd [296, 1, 726838724295606890549323807888004534353641360687318060281490199180639288113397923326191050713763565560762521606266177933534601628614656, 304, 1, 13407807929942597099574024998205846127479365820592393377723561443721764030073546976801874298166903427690031858186486050853753882811946569946433649006084096, 312, 1, 247330401473104534060502521019647190035131349101211839914063056092897225106531867170316401061243044989597671426016139339351365034306751209967546155101893167916606772148699136, 320, 1, 4562440617622195218641171605700291324893228507248559930579192517899275167208677386505912811317371399778642309573594407310688704721375437998252661319722214188251994674360264950082874192246603776, 328, 1, 726838724295606890549323807888004534353641360687318060281490199180639288113397923326191050713763565560762521606266177933534601628614656, 336, 1, 13407807929942597099574024998205846127479365820592393377723561443721764030073546976801874298166903427690031858186486050853753882811946569946433649006084096, 344, 1, 247330401473104534060502521019647190035131349101211839914063056092897225106531867170316401061243044989597671426016139339351365034306751209967546155101893167916606772148699136, 352, 1, 4562440617622195218641171605700291324893228507248559930579192517899275167208677386505912811317371399778642309573594407310688704721375437998252661319722214188251994674360264950082874192246603776])), (35, (dd [1144, 1, 115792089237316195423570985008687907853269984665640564039457584007913129639936, 1160, 1, 2135987035920910082395021706169552114602704522356652769947041607822219725780640550022962086936576, 1240, 1, 39402006196394479212279040100143613805079739270465446667948293404245721771497210611414266254884915640806627990306816, 1249, 1, 13407807929942597099574024998205846127479365820592393377723561443721764030073546976801874298166903427690031858186486050853753882811946569946433649006084096, 1256, 1, 726838724295606890549323807888004534353641360687318060281490199180639288113397923326191050713763565560762521606266177933534601628614656])), (34, (dd [1144, 1, 2135987035920910082395021706169552114602704522356652769947041607822219725780640550022962086936576, 1160, 1, 39402006196394479212279040100143613805079739270465446667948293404245721771497210611414266254884915640806627990306816, 1240, 1, 726838724295606890549323807888004534353641360687318060281490199180639288113397923326191050713763565560762521606266177933534601628614656, 1249, 1, 247330401473104534060502521019647190035131349101211839914063056092897225106531867170316401061243044989597671426016139339351365034306751209967546155101893167916606772148699136, 1256, 1, 13407807929942597099574024998205846127479365820592393377723561443721764030073546976801874298166903427690031858186486050853753882811946569946433649006084096])), (33, (dd [1144, 1, 39402006196394479212279040100143613805079739270465446667948293404245721771497210611414266254884915640806627990306816, 1160, 1, 726838724295606890549323807888004534353641360687318060281490199180639288113397923326191050713763565560762521606266177933534601628614656, 1240, 1, 13407807929942597099574024998205846127479365820592393377723561443721764030073546976801874298166903427690031858186486050853753882811946569946433649006084096, 1249, 1, 4562440617622195218641171605700291324893228507248559930579192517899275167208677386505912811317371399778642309573594407310688704721375437998252661319722214188251994674360264950082874192246603776, 1256, 1, 247330401473104534060502521019647190035131349101211839914063056092897225106531867170316401061243044989597671426016139339351365034306751209967546155101893167916606772148699136])), (32, (dd [1144, 1, 726838724295606890549323807888004534353641360687318060281490199180639288113397923326191050713763565560762521606266177933534601628614656, 1160, 1, 13407807929942597099574024998205846127479365820592393377723561443721764030073546976801874298166903427690031858186486050853753882811946569946433649006084096, 1240, 1, 247330401473104534060502521019647190035131349101211839914063056092897225106531867170316401061243044989597671426016139339351365034306751209967546155101893167916606772148699136, 1249, 1, 84162174424773976115855838126082058648805436845170781751972494449099714468753293153818664580441415219631727501698851483408310916002940861810045036330430093599283578738055113571066620126149163476340692027772502016, 1256, 1, 4562440617622195218641171605700291324893228507248559930579192517899275167208677386505912811317371399778642309573594407310688704721375437998252661319722214188251994674360264950082874192246603776])), (31, (dd [1352, 1, 39402006196394479212279040100143613805079739270465446667948293404245721771497210611414266254884915640806627990306816, 1368, 1, 726838724295606890549323807888004534353641360687318060281490199180639288113397923326191050713763565560762521606266177933534601628614656, 1448, 1, 39402006196394479212279040100143613805079739270465446667948293404245721771497210611414266254884915640806627990306816, 1464, 1, 726838724295606890549323807888004534353641360687318060281490199180639288113397923326191050713763565560762521606266177933534601628614656])), (30, (dd [1352, 1, 726838724295606890549323807888004534353641360687318060281490199180639288113397923326191050713763565560762521606266177933534601628614656, 1368, 1, 13407807929942597099574024998205846127479365820592393377723561443721764030073546976801874298166903427690031858186486050853753882811946569946433649006084096, 1448, 1, 726838724295606890549323807888004534353641360687318060281490199180639288113397923326191050713763565560762521606266177933534601628614656, 1464, 1, 13407807929942597099574024998205846127479365820592393377723561443721764030073546976801874298166903427690031858186486050853753882811946569946433649006084096])), (29, (dd [1784, 1, 39402006196394479212279040100143613805079739270465446667948293404245721771497210611414266254884915640806627990306816, 1793, 1, 13407807929942597099574024998205846127479365820592393377723561443721764030073546976801874298166903427690031858186486050853753882811946569946433649006084096, 1800, 1, 726838724295606890549323807888004534353641360687318060281490199180639288113397923326191050713763565560762521606266177933534601628614656])), (28, (dd [1784, 1, 726838724295606890549323807888004534353641360687318060281490199180639288113397923326191050713763565560762521606266177933534601628614656, 1793, 1, 247330401473104534060502521019647190035131349101211839914063056092897225106531867170316401061243044989597671426016139339351365034306751209967546155101893167916606772148699136, 1800, 1, 13407807929942597099574024998205846127479365820592393377723561443721764030073546976801874298166903427690031858186486050853753882811946569946433649006084096])), (27, (dd [296, 0, 39402006196394479212279040100143613805079739270465446667948293404245721771496870329047345316421452266199196222095360, 304, 0, 726838724295606890549323807888004534353641360687318060281490199180639288113391646224455664032999729771339313939850075578090137594101760, 312, 0, 39402006196394479212279040100143613805079739270465446667948293404245721771496870329047345316421452266199196222095360, 320, 0, 726838724295606890549323807888004534353641360687318060281490199180639288113391646224455664032999729771339313939850075578090137594101760])), (26, (dd [296, 0, 726838724295606890549323807888004534353641360687318060281490199180639288113391646224455664032999729771339313939850075578090137594101760, 304, 0, 13407807929942597099574024998205846127479365820592393377723561443721764030073431184712636981971479856705023170278632780869088242247907112362425735876444160, 312, 0, 726838724295606890549323807888004534353641360687318060281490199180639288113391646224455664032999729771339313939850075578090137594101760, 320, 0, 13407807929942597099574024998205846127479365820592393377723561443721764030073431184712636981971479856705023170278632780869088242247907112362425735876444160])), (25, (dd [3272, 0, 39402006196394479212279040100143613805079739270465446667948293404245721771496870329047345316421452266199196222095360, 3281, 0, 13407807929942597099574024998205846127479365820592393377723561443721764030073431184712636981971479856705023170278632780869088242247907112362425735876444160, 3288, 0, 726838724295606890549323807888004534353641360687318060281490199180639288113391646224455664032999729771339313939850075578090137594101760])), (24, (dd [3272, 0, 726838724295606890549323807888004534353641360687318060281490199180639288113391646224455664032999729771339313939850075578090137594101760, 3281, 0, 247330401473104534060502521019647190035131349101211839914063056092897225106529731183280480151160649967891501873901536634829008381536804168359723935376112527366583810061762560, 3288, 0, 13407807929942597099574024998205846127479365820592393377723561443721764030073431184712636981971479856705023170278632780869088242247907112362425735876444160])), (23, (dd [328, 1, 4562440617622195218641171605700291324893228507248559930579192517899275167208637984499716416838159120738542165959789327571418239274707489704848415597950716977640580408105380034442067564256296960, 336, 1, 84162174424773976115855838126082058648805436845170781751972494449099714468752566315094368973550865895823839497164497842047623597942659371610864397042316695675957387687341350005505857604542897298407157426143887360, 344, 1, 4562440617622195218641171605700291324893228507248559930579192517899275167208637984499716416838159120738542165959789327571418239274707489704848415597950716977640580408105380034442067564256296960, 352, 1, 84162174424773976115855838126082058648805436845170781751972494449099714468752566315094368973550865895823839497164497842047623597942659371610864397042316695675957387687341350005505857604542897298407157426143887360])), (22, (dd [328, 1, 84162174424773976115855838126082058648805436845170781751972494449099714468752566315094368973550865895823839497164497842047623597942659371610864397042316695675957387687341350005505857604542897298407157426143887360, 336, 1, 1552518092300708935148979488462502555256886017116696611139052038026050952686363478522948466231546903925489524851003593840350987650737090830000565511011107592227653101722683002122575253773411958774409245310904522180946413204809973760, 344, 1, 84162174424773976115855838126082058648805436845170781751972494449099714468752566315094368973550865895823839497164497842047623597942659371610864397042316695675957387687341350005505857604542897298407157426143887360, 352, 1, 1552518092300708935148979488462502555256886017116696611139052038026050952686363478522948466231546903925489524851003593840350987650737090830000565511011107592227653101722683002122575253773411958774409245310904522180946413204809973760])), (21, (dd [5048, 1, 4562440617622195218641171605700291324893228507248559930579192517899275167208637984499716416838159120738542165959789327571418239274707489704848415597950716977640580408105380034442067564256296960, 5057, 1, 1552518092300708935148979488462502555256886017116696611139052038026050952686363478522948466231546903925489524851003593840350987650737090830000565511011107592227653101722683002122575253773411958774409245310904522180946413204809973760, 5064, 1, 84162174424773976115855838126082058648805436845170781751972494449099714468752566315094368973550865895823839497164497842047623597942659371610864397042316695675957387687341350005505857604542897298407157426143887360])), (20, (dd [5048, 1, 84162174424773976115855838126082058648805436845170781751972494449099714468752566315094368973550865895823839497164497842047623597942659371610864397042316695675957387687341350005505857604542897298407157426143887360, 5057, 1, 28638903918474961204418783933674838490721739172170652529441449702311064005352656828943811161290567872908339862028964588725295648917159313644352128816458047753342557906917969057277203590052962636905688643197438496265963007451635690447442180334325596160, 5064, 1, 1552518092300708935148979488462502555256886017116696611139052038026050952686363478522948466231546903925489524851003593840350987650737090830000565511011107592227653101722683002122575253773411958774409245310904522180946413204809973760])), (19, (dd [0, 1, 13407807929942597099574024998205846127479365820592393377723561443721764030073546976801874298166903427690031858186486050853753882811946569946433649006084096])), (18, (dd [0, 0, 4562440617622195218641171605700291324893228507248559930579192517899275167208677386505912811317371399778642309573594407310688704721375437998252661319722214188251994674360264950082874192246603776])), (17, (dd [0, 1, 4562440617622195218641171605700291324879820699318617333479618492901069321081198020685320417939647838334920545543520860333886830423208534570562629461535728137398240791548318380136440543240519680])), (16, (dd [0, 0, 84162174424773976115855838126082058648805436845170781751972494449099714468753293153818664580441415219631727501698851483408310916002940861810045036330430093599283578738055113571066620126149163476340692027772502016])), (15, (dd [0, 0, 1552518092300708935148979488462502555252323576499074415920410866420350661361483657823629848898067285432588455529922395819665667232797442991665644965467586731893766271299474467552012624311876230637011004519356203800809972661569454080])), (14, (dd [0, 0, 84162174424773976115855838126082058648805436845170781751972494449099714468753293153818664580441415219631727501698851483408310916002940861810045036330430093599283578738055113571066620126149163476340692027772502016])), (13, (dd [0, 0, 1552518092300708935148979488462502555256886017116696611139052038026050952686376886330878408828646477950487730697131073206171580044114814391444287275041181139204454976020849905550265285631598444825262999193716468750892846853816057856])), (12, (dd [0, 1, 4562440617622195218641171605700291324893228507248559930579192517899275167208637984499716416838159120738542165959789327571418239274707489704848415597950716977640580408105380034442067564256296960])), (11, (dd [0, 0, 4562440617622195218641171605700291324879820699318617333479618492901069321081158618679124023460435559294820401929715896386705602292736009848143392427672084196771492165857472922079641828379852800])), (10, (dd [0, 1, 84162174424773976115855838126082058648805436845170781751972494449099714468752566315094368973550865895823839497164497842047623597942659371610864397042316695675957387687341350005505857604542897298407157426143887360])), (9, (dd [0, 1, 1552518092300708935148979488462502555252323576499074415920410866420350661361470250015699906300967711407590249683794955855851271233898931709262023345051318264656234862447975512417726838175461241796768664902799142146504345640553676800])), (8, (dd [0, 1, 84162174424773976115855838126082058648805436845170781751972494449099714468752566315094368973550865895823839497164497842047623597942659371610864397042316695675957387687341350005505857604542897298407157426143887360])), (7, (dd [0, 1, 1552518092300708935148979488462502555256886017116696611139052038026050952686363478522948466231546903925489524851003593840350987650737090830000565511011107592227653101722683002122575253773411958774409245310904522180946413204809973760])), (6, (dd [0, 0, 28638903918474961204418783933674838490721739172170652529441449702311064005352904159345284265824628375429359509218999720074396860757073376700445026041564579620512874307979212102266801261478978776245040008231745247475930553606737583615358787106474295296])), (5, (dd [0, 0, 528294531135665246352339784916516606518847326036121522127960709026673902556720297033799633692438546723068694701932235450375098999572106344732639703295730899521880771187687712768952875366852846645713544203489812966149775631431839524650144904092676211539455706705491394560])), (4, (dd [0, 1, 528294531135665246352339784916516606517294807943820813192811729538211400001463411016682937081299494685042643749245871971852150533340559440807150178444727305681529783536950621938952309855841739053485891101767129964027200377658427565875735658781771689358509293500681420800])), (3, (dd [0, 0, 9745314011399999080353382387875188310876226857595007526867906457212948690766341940291190291905894403387178834172759862746613999083451121552128887581843900126377459035376031614651157927988354796869391282563215438011875552889064444852147080036730910499256672182978128383605487897964141608960])), (2, (dd [0, 0, 179769313486231590772930519078902473361269403363094992027077741372816159198980563288580055091344426332604977474759416174607873438510839023731752684984855512041061916016464732453619092167253232146725030600853203241677753519700568853688995111361316574291650469767522860270471838035193323624545007776064916684800])), (1, (dd [0, 0, 9745314011399999080353382387875188310876226857595007526867906457212948690766341940291190291905894403387178834172759862746613999083451121552128887581843900126377459035376031614651157927988354796869391282563215438011875552889064444852147080036730910499256672182978128383605487897964141608960])), (0, (dd [0, 0, 179769313486231590772930519078902473361797697894230657273430081157732675805499410614616176613472387041631651377316136471641673072203277570454821379686787747491437015016036838798351731870548963046246911372040890954446706395067421700334708655564806387257800245398954699795121982939285999836084463482770408079360]))] = true := by decide +kernel

def C.mul_xy : Cert where
  S := ⟨[], [24, 12], [.arr 0, .arr 1, .arr 1], 0⟩
  anns := [a0, a0, a0, a0, a0, a0, a0, a2, a2, a0, a0, a0, a0, a2, a2, a1, a0, a0, a0, a0, a2, a2, a0, a0, a0, a0, a2, a2, a1, a1, a1, a0, a0, a0, a0, a0, a0, a0, a0, a0, a0, a0, a0, a0, a1, a0, a0, a2, a2, a1, a2, a2, a1, a1, a1, a0, a0, a0, a0, a0, a0, a0, a0, au 1 2002, a0, au 3 1986, a1, a0, au 0 2098, a0, a1, a0, au 0 2162, a0, a0, a1, a0, a0, a0, a0, a0, a0, a0, a0, au 2 2322, au 2 2338, a1, a0, au 0 2418, a0, a1, a0, au 0 2482, a0, a0, a1, a0, a0, a0, au 0 2594, a0, a0, a0, a0, au 0 2674, a0, a0, a0, au 0 2738, a0, a1, a0, au 0 2802, a0, a0, a1, a0, a0, a0, a0, a0, a0, a0, a0, a0, a0, a0, a0, a0, a0, a0, a0, a0, a0, a0, a1, a0, a0, a0, a0, a2, a2, a1, a2, a2, a1, a1, a1, a0, a0, a0, a0, a0, a0, a0, a0, au 1 3490, a0, au 3 3474, a1, a0, au 0 3586, a0, a1, a0, au 0 3650, a0, a0, a1, a0, a0, a0, a0, a0, a0, a0, a0, au 2 3810, au 2 3826, a1, au 4 3826, au 5 3826, a0, a1, a0, au 0 3970, a0, a0, a1, a0, a0, a0, au 0 4082, a0, a0, a0, a0, au 0 4162, a0, a0, au 2 4162, au 3 4162, a0, a1, a0, au 0 4290, a0, a0, a1, a0, a0, a0, a0, a0, a0, a0, a0, a0, a0, a0, a0, a0, a0, a0, a0, a0, a0, a0, a0, a0, a0, a0, a0, a0, a0, a0, a0, a0, a0, a0, a0, a0, a0, a0, a0, a0, a0, a0, a0, a1, a0, a2, a2, a1, a2, a2, a1, a1, a1, a0, a0, a0, a0, a0, a0, a0, a0, au 1 5266, a0, au 3 5250, a1, a0, au 0 5362, a0, a1, a0, au 0 5426, a0, a0, a1, a0, a0, a0, a0, a0, a0, a0, a0, au 2 5586, au 2 5602, a1, au 4 5602, au 5 5602, a0, a1, a0, au 0 5746, a0, a0, a1, a0, a0, a0, au 0 5858, a0, a0, a0, a0, au 0 5938, a0, a0, au 2 5938, au 3 5938, a0, a1, a0, au 0 6066, a0, a0, a1, a0, a0, a0, a0, a0, a0, a0, a0, a0, a0, a0, a0, a0, a1, a0, a0, a0, a0, a0, a0, a0, a0, a0, a0, a0, a0, a0, a0, a0, a0, a0, a0, a0, a0, a0, a0, a0, a0, a0, a0, a0, a0, a0, a0, a0, a0]
  hints := [⟨[8], (dd [4993, 1, 1, 6609, 0, 1]), []⟩, ⟨[212, 211], (dd [2257, 0, 1]), []⟩, ⟨[196, 195], (dd [2577, 0, 1]), []⟩, ⟨[193, 192, 191, 189, 188], (dd [2721, 1, 1]), [(14, (dd [1352, 1, 1, 1368, 1, 18446744073709551616, 1448, 1, 1, 1464, 1, 18446744073709551616])), (13, (dd [1352, 1, 18446744073709551616, 1368, 1, 340282366920938463463374607431768211456, 1448, 1, 18446744073709551616, 1464, 1, 340282366920938463463374607431768211456])), (12, (dd [1784, 1, 1, 1793, 1, 340282366920938463463374607431768211456, 1800, 1, 18446744073709551616])), (11, (dd [1784, 1, 18446744073709551616, 1793, 1, 6277101735386680763835789423207666416102355444464034512896, 1800, 1, 340282366920938463463374607431768211456])), (1, (dd [0, 0, 115792089237316195423570985008687907853269984665640564039457584007913129639936])), (0, (dd [0, 1, 115792089237316195423570985008687907853269984665640564039457584007913129639936]))]⟩, ⟨[180, 179], (dd [2897, 0, 1]), []⟩, ⟨[178, 177, 176, 175, 174], (dd [2977, 1, 1]), [(16, (dd [1352, 1, 1, 1368, 1, 18446744073709551616, 1448, 1, 1, 1464, 1, 18446744073709551616])), (15, (dd [1352, 1, 18446744073709551616, 1368, 1, 340282366920938463463374607431768211456, 1448, 1, 18446744073709551616, 1464, 1, 340282366920938463463374607431768211456])), (14, (dd [1784, 1, 1, 1793, 1, 340282366920938463463374607431768211456, 1800, 1, 18446744073709551616])), (13, (dd [1784, 1, 18446744073709551616, 1793, 1, 6277101735386680763835789423207666416102355444464034512896, 1800, 1, 340282366920938463463374607431768211456])), (3, (dd [0, 0, 115792089237316195423570985008687907853269984665640564039457584007913129639936])), (2, (dd [0, 1, 115792089237316195423570985008687907853269984665640564039457584007913129639936])), (1, (dd [0, 0, 2135987035920910082395021706169552114602704522356652769947041607822219725780640550022962086936576])), (0, (dd [0, 1, 115792089237316195423570985008687907853269984665640564039457584007913129639936]))]⟩, ⟨[173, 172, 171, 170, 169, 168], (dd [3073, 0, 1]), [(17, (dd [1352, 1, 1, 1368, 1, 18446744073709551616, 1448, 1, 1, 1464, 1, 18446744073709551616])), (16, (dd [1352, 1, 18446744073709551616, 1368, 1, 340282366920938463463374607431768211456, 1448, 1, 18446744073709551616, 1464, 1, 340282366920938463463374607431768211456])), (15, (dd [1784, 1, 1, 1793, 1, 340282366920938463463374607431768211456, 1800, 1, 18446744073709551616])), (14, (dd [1784, 1, 18446744073709551616, 1793, 1, 6277101735386680763835789423207666416102355444464034512896, 1800, 1, 340282366920938463463374607431768211456])), (4, (dd [0, 0, 115792089237316195423570985008687907853269984665640564039457584007913129639936])), (3, (dd [0, 1, 115792089237316195423570985008687907852929702298719625575994209400481361428480])), (2, (dd [0, 0, 2135987035920910082395021706169552114602704522356652769947041607822219725780640550022962086936576])), (1, (dd [0, 0, 39402006196394479212279040100143613804963947181228130472524722419237033863643940626748625690845458056798714860666880])), (0, (dd [0, 0, 2135987035920910082395021706169552114602704522356652769947041607822219725780640550022962086936576]))]⟩, ⟨[142, 141], (dd [3745, 0, 1]), []⟩, ⟨[126, 125], (dd [4065, 0, 1]), []⟩, ⟨[123, 122, 121, 119, 118], (dd [4209, 1, 1]), [(16, (dd [200, 1, 1, 208, 1, 18446744073709551616, 216, 1, 1, 224, 1, 18446744073709551616])), (15, (dd [200, 1, 18446744073709551616, 208, 1, 340282366920938463463374607431768211456, 216, 1, 18446744073709551616, 224, 1, 340282366920938463463374607431768211456])), (14, (dd [3272, 1, 1, 3281, 1, 340282366920938463463374607431768211456, 3288, 1, 18446744073709551616])), (13, (dd [3272, 1, 18446744073709551616, 3281, 1, 6277101735386680763835789423207666416102355444464034512896, 3288, 1, 340282366920938463463374607431768211456])), (1, (dd [0, 0, 115792089237316195423570985008687907853269984665640564039457584007913129639936])), (0, (dd [0, 1, 115792089237316195423570985008687907853269984665640564039457584007913129639936]))]⟩, ⟨[110, 109], (dd [4385, 0, 1]), []⟩, ⟨[108, 107, 106, 105, 104], (dd [4465, 1, 1]), [(18, (dd [200, 1, 1, 208, 1, 18446744073709551616, 216, 1, 1, 224, 1, 18446744073709551616])), (17, (dd [200, 1, 18446744073709551616, 208, 1, 340282366920938463463374607431768211456, 216, 1, 18446744073709551616, 224, 1, 340282366920938463463374607431768211456])), (16, (dd [3272, 1, 1, 3281, 1, 340282366920938463463374607431768211456, 3288, 1, 18446744073709551616])), (15, (dd [3272, 1, 18446744073709551616, 3281, 1, 6277101735386680763835789423207666416102355444464034512896, 3288, 1, 340282366920938463463374607431768211456])), (3, (dd [0, 0, 115792089237316195423570985008687907853269984665640564039457584007913129639936])), (2, (dd [0, 1, 115792089237316195423570985008687907853269984665640564039457584007913129639936])), (1, (dd [0, 0, 2135987035920910082395021706169552114602704522356652769947041607822219725780640550022962086936576])), (0, (dd [0, 1, 115792089237316195423570985008687907853269984665640564039457584007913129639936]))]⟩, ⟨[103, 102, 101, 100, 99, 98], (dd [4561, 0, 1]), [(19, (dd [200, 1, 1, 208, 1, 18446744073709551616, 216, 1, 1, 224, 1, 18446744073709551616])), (18, (dd [200, 1, 18446744073709551616, 208, 1, 340282366920938463463374607431768211456, 216, 1, 18446744073709551616, 224, 1, 340282366920938463463374607431768211456])), (17, (dd [3272, 1, 1, 3281, 1, 340282366920938463463374607431768211456, 3288, 1, 18446744073709551616])), (16, (dd [3272, 1, 18446744073709551616, 3281, 1, 6277101735386680763835789423207666416102355444464034512896, 3288, 1, 340282366920938463463374607431768211456])), (4, (dd [0, 0, 115792089237316195423570985008687907853269984665640564039457584007913129639936])), (3, (dd [0, 1, 115792089237316195423570985008687907852929702298719625575994209400481361428480])), (2, (dd [0, 0, 2135987035920910082395021706169552114602704522356652769947041607822219725780640550022962086936576])), (1, (dd [0, 0, 39402006196394479212279040100143613804963947181228130472524722419237033863643940626748625690845458056798714860666880])), (0, (dd [0, 0, 2135987035920910082395021706169552114602704522356652769947041607822219725780640550022962086936576]))]⟩, ⟨[97, 96, 95, 94, 93, 92, 91, 90, 89], (dd [4801, 1, 1]), [(32, (dd [200, 1, 1, 208, 1, 18446744073709551616, 216, 1, 340282366920938463463374607431768211456, 224, 1, 6277101735386680763835789423207666416102355444464034512896, 232, 1, 1, 240, 1, 18446744073709551616, 248, 1, 340282366920938463463374607431768211456, 256, 1, 6277101735386680763835789423207666416102355444464034512896])), (31, (dd [200, 1, 18446744073709551616, 208, 1, 340282366920938463463374607431768211456, 216, 1, 6277101735386680763835789423207666416102355444464034512896, 224, 1, 115792089237316195423570985008687907853269984665640564039457584007913129639936, 232, 1, 18446744073709551616, 240, 1, 340282366920938463463374607431768211456, 248, 1, 6277101735386680763835789423207666416102355444464034512896, 256, 1, 115792089237316195423570985008687907853269984665640564039457584007913129639936])), (30, (dd [200, 1, 340282366920938463463374607431768211456, 208, 1, 6277101735386680763835789423207666416102355444464034512896, 216, 1, 115792089237316195423570985008687907853269984665640564039457584007913129639936, 224, 1, 2135987035920910082395021706169552114602704522356652769947041607822219725780640550022962086936576, 232, 1, 340282366920938463463374607431768211456, 240, 1, 6277101735386680763835789423207666416102355444464034512896, 248, 1, 115792089237316195423570985008687907853269984665640564039457584007913129639936, 256, 1, 2135987035920910082395021706169552114602704522356652769947041607822219725780640550022962086936576])), (29, (dd [200, 1, 6277101735386680763835789423207666416102355444464034512896, 208, 1, 115792089237316195423570985008687907853269984665640564039457584007913129639936, 216, 1, 2135987035920910082395021706169552114602704522356652769947041607822219725780640550022962086936576, 224, 1, 39402006196394479212279040100143613805079739270465446667948293404245721771497210611414266254884915640806627990306816, 232, 1, 6277101735386680763835789423207666416102355444464034512896, 240, 1, 115792089237316195423570985008687907853269984665640564039457584007913129639936, 248, 1, 2135987035920910082395021706169552114602704522356652769947041607822219725780640550022962086936576, 256, 1, 39402006196394479212279040100143613805079739270465446667948293404245721771497210611414266254884915640806627990306816])), (28, (dd [1144, 1, 1, 1160, 1, 18446744073709551616, 1240, 1, 340282366920938463463374607431768211456, 1249, 1, 115792089237316195423570985008687907853269984665640564039457584007913129639936, 1256, 1, 6277101735386680763835789423207666416102355444464034512896])), (27, (dd [1144, 1, 18446744073709551616, 1160, 1, 340282366920938463463374607431768211456, 1240, 1, 6277101735386680763835789423207666416102355444464034512896, 1249, 1, 2135987035920910082395021706169552114602704522356652769947041607822219725780640550022962086936576, 1256, 1, 115792089237316195423570985008687907853269984665640564039457584007913129639936])), (26, (dd [1144, 1, 340282366920938463463374607431768211456, 1160, 1, 6277101735386680763835789423207666416102355444464034512896, 1240, 1, 115792089237316195423570985008687907853269984665640564039457584007913129639936, 1249, 1, 39402006196394479212279040100143613805079739270465446667948293404245721771497210611414266254884915640806627990306816, 1256, 1, 2135987035920910082395021706169552114602704522356652769947041607822219725780640550022962086936576])), (25, (dd [1144, 1, 6277101735386680763835789423207666416102355444464034512896, 1160, 1, 115792089237316195423570985008687907853269984665640564039457584007913129639936, 1240, 1, 2135987035920910082395021706169552114602704522356652769947041607822219725780640550022962086936576, 1249, 1, 726838724295606890549323807888004534353641360687318060281490199180639288113397923326191050713763565560762521606266177933534601628614656, 1256, 1, 39402006196394479212279040100143613805079739270465446667948293404245721771497210611414266254884915640806627990306816])), (24, (dd [1352, 1, 340282366920938463463374607431768211456, 1368, 1, 6277101735386680763835789423207666416102355444464034512896, 1448, 1, 340282366920938463463374607431768211456, 1464, 1, 6277101735386680763835789423207666416102355444464034512896])), (23, (dd [1352, 1, 6277101735386680763835789423207666416102355444464034512896, 1368, 1, 115792089237316195423570985008687907853269984665640564039457584007913129639936, 1448, 1, 6277101735386680763835789423207666416102355444464034512896, 1464, 1, 115792089237316195423570985008687907853269984665640564039457584007913129639936])), (22, (dd [1784, 1, 340282366920938463463374607431768211456, 1793, 1, 115792089237316195423570985008687907853269984665640564039457584007913129639936, 1800, 1, 6277101735386680763835789423207666416102355444464034512896])), (21, (dd [1784, 1, 6277101735386680763835789423207666416102355444464034512896, 1793, 1, 2135987035920910082395021706169552114602704522356652769947041607822219725780640550022962086936576, 1800, 1, 115792089237316195423570985008687907853269984665640564039457584007913129639936])), (20, (dd [200, 0, 340282366920938463463374607431768211456, 208, 0, 6277101735386680763835789423207666416102355444464034512896, 216, 0, 340282366920938463463374607431768211456, 224, 0, 6277101735386680763835789423207666416102355444464034512896])), (19, (dd [200, 0, 6277101735386680763835789423207666416102355444464034512896, 208, 0, 115792089237316195423570985008687907853269984665640564039457584007913129639936, 216, 0, 6277101735386680763835789423207666416102355444464034512896, 224, 0, 115792089237316195423570985008687907853269984665640564039457584007913129639936])), (18, (dd [3272, 0, 340282366920938463463374607431768211456, 3281, 0, 115792089237316195423570985008687907853269984665640564039457584007913129639936, 3288, 0, 6277101735386680763835789423207666416102355444464034512896])), (17, (dd [3272, 0, 6277101735386680763835789423207666416102355444464034512896, 3281, 0, 2135987035920910082395021706169552114602704522356652769947041607822219725780640550022962086936576, 3288, 0, 115792089237316195423570985008687907853269984665640564039457584007913129639936])), (11, (dd [0, 0, 39402006196394479212279040100143613805079739270465446667948293404245721771497210611414266254884915640806627990306816])), (10, (dd [0, 1, 39402006196394479212279040100143613804963947181228130472524722419237033863643940626748625690845458056798714860666880])), (9, (dd [0, 0, 726838724295606890549323807888004534353641360687318060281490199180639288113397923326191050713763565560762521606266177933534601628614656])), (8, (dd [0, 0, 13407807929942597099574024998205846127439963814395998898511282403621620416268467237531408851498955134285786136414988840242339616557061654305627021015777280])), (7, (dd [0, 0, 726838724295606890549323807888004534353641360687318060281490199180639288113397923326191050713763565560762521606266177933534601628614656])), (6, (dd [0, 0, 13407807929942597099574024998205846127479365820592393377723561443721764030073546976801874298166903427690031858186486050853753882811946569946433649006084096])), (5, (dd [0, 1, 39402006196394479212279040100143613805079739270465446667948293404245721771497210611414266254884915640806627990306816])), (4, (dd [0, 0, 39402006196394479212279040100143613804963947181228130472524722419237033863643940626748625690845458056798714860666880])), (3, (dd [0, 1, 726838724295606890549323807888004534353641360687318060281490199180639288113397923326191050713763565560762521606266177933534601628614656])), (2, (dd [0, 1, 13407807929942597099574024998205846127439963814395998898511282403621620416268467237531408851498955134285786136414988840242339616557061654305627021015777280])), (1, (dd [0, 1, 726838724295606890549323807888004534353641360687318060281490199180639288113397923326191050713763565560762521606266177933534601628614656])), (0, (dd [0, 1, 13407807929942597099574024998205846127479365820592393377723561443721764030073546976801874298166903427690031858186486050853753882811946569946433649006084096]))]⟩, ⟨[63, 62], (dd [5521, 0, 1]), []⟩, ⟨[47, 46], (dd [5841, 0, 1]), []⟩, ⟨[44, 43, 42, 40, 39], (dd [5985, 1, 1]), [(19, (dd [232, 1, 1, 240, 1, 18446744073709551616, 248, 1, 1, 256, 1, 18446744073709551616])), (18, (dd [232, 1, 18446744073709551616, 240, 1, 340282366920938463463374607431768211456, 248, 1, 18446744073709551616, 256, 1, 340282366920938463463374607431768211456])), (17, (dd [5048, 1, 1, 5057, 1, 340282366920938463463374607431768211456, 5064, 1, 18446744073709551616])), (16, (dd [5048, 1, 18446744073709551616, 5057, 1, 6277101735386680763835789423207666416102355444464034512896, 5064, 1, 340282366920938463463374607431768211456])), (1, (dd [0, 0, 115792089237316195423570985008687907853269984665640564039457584007913129639936])), (0, (dd [0, 1, 115792089237316195423570985008687907853269984665640564039457584007913129639936]))]⟩, ⟨[31, 30], (dd [6161, 0, 1]), []⟩, ⟨[29, 28, 27, 26, 25], (dd [6241, 1, 1]), [(21, (dd [232, 1, 1, 240, 1, 18446744073709551616, 248, 1, 1, 256, 1, 18446744073709551616])), (20, (dd [232, 1, 18446744073709551616, 240, 1, 340282366920938463463374607431768211456, 248, 1, 18446744073709551616, 256, 1, 340282366920938463463374607431768211456])), (19, (dd [5048, 1, 1, 5057, 1, 340282366920938463463374607431768211456, 5064, 1, 18446744073709551616])), (18, (dd [5048, 1, 18446744073709551616, 5057, 1, 6277101735386680763835789423207666416102355444464034512896, 5064, 1, 340282366920938463463374607431768211456])), (3, (dd [0, 0, 115792089237316195423570985008687907853269984665640564039457584007913129639936])), (2, (dd [0, 1, 115792089237316195423570985008687907853269984665640564039457584007913129639936])), (1, (dd [0, 0, 2135987035920910082395021706169552114602704522356652769947041607822219725780640550022962086936576])), (0, (dd [0, 1, 115792089237316195423570985008687907853269984665640564039457584007913129639936]))]⟩, ⟨[24, 23, 22, 21, 20, 19], (dd [6337, 0, 1]), [(22, (dd [232, 1, 1, 240, 1, 18446744073709551616, 248, 1, 1, 256, 1, 18446744073709551616])), (21, (dd [232, 1, 18446744073709551616, 240, 1, 340282366920938463463374607431768211456, 248, 1, 18446744073709551616, 256, 1, 340282366920938463463374607431768211456])), (20, (dd [5048, 1, 1, 5057, 1, 340282366920938463463374607431768211456, 5064, 1, 18446744073709551616])), (19, (dd [5048, 1, 18446744073709551616, 5057, 1, 6277101735386680763835789423207666416102355444464034512896, 5064, 1, 340282366920938463463374607431768211456])), (4, (dd [0, 0, 115792089237316195423570985008687907853269984665640564039457584007913129639936])), (3, (dd [0, 1, 115792089237316195423570985008687907852929702298719625575994209400481361428480])), (2, (dd [0, 0, 2135987035920910082395021706169552114602704522356652769947041607822219725780640550022962086936576])), (1, (dd [0, 0, 39402006196394479212279040100143613804963947181228130472524722419237033863643940626748625690845458056798714860666880])), (0, (dd [0, 0, 2135987035920910082395021706169552114602704522356652769947041607822219725780640550022962086936576]))]⟩]
  zb := 0
  scratch := []
  keepBP := false

theorem mul_xy_ok : halfChk Model.Arm503.mul C.mul_xy 1 1 [97, 96, 95, 94, 93, 92, 91, 90, 89] [136, 129, 103, 102, 101, 100, 99, 98] [88, 87, 86, 85] [17, 16, 15, 14, 13, 12, 11, 10, 9] (dd [4993, 0, 1]) (dd [6593, 0, 1]) [(39, (dd [200, 1, 1, 208, 1, 18446744073709551616, 216, 1, 340282366920938463463374607431768211456, 224, 1, 6277101735386680763835789423207666416102355444464034512896, 232, 1, 1, 240, 1, 18446744073709551616, 248, 1, 340282366920938463463374607431768211456, 256, 1, 6277101735386680763835789423207666416102355444464034512896])), (38, (dd [200, 1, 18446744073709551616, 208, 1, 340282366920938463463374607431768211456, 216, 1, 6277101735386680763835789423207666416102355444464034512896, 224, 1, 115792089237316195423570985008687907853269984665640564039457584007913129639936, 232, 1, 18446744073709551616, 240, 1, 340282366920938463463374607431768211456, 248, 1, 6277101735386680763835789423207666416102355444464034512896, 256, 1, 115792089237316195423570985008687907853269984665640564039457584007913129639936])), (37, (dd [200, 1, 340282366920938463463374607431768211456, 208, 1, 6277101735386680763835789423207666416102355444464034512896, 216, 1, 115792089237316195423570985008687907853269984665640564039457584007913129639936, 224, 1, 2135987035920910082395021706169552114602704522356652769947041607822219725780640550022962086936576, 232, 1, 340282366920938463463374607431768211456, 240, 1, 6277101735386680763835789423207666416102355444464034512896, 248, 1, 115792089237316195423570985008687907853269984665640564039457584007913129639936, 256, 1, 2135987035920910082395021706169552114602704522356652769947041607822219725780640550022962086936576])), (36, (dd [200, 1, 6277101735386680763835789423207666416102355444464034512896, 208, 1, 115792089237316195423570985008687907853269984665640564039457584007913129639936, 216, 1, 2135987035920910082395021706169552114602704522356652769947041607822219725780640550022962086936576, 224, 1, 39402006196394479212279040100143613805079739270465446667948293404245721771497210611414266254884915640806627990306816, 232, 1, 6277101735386680763835789423207666416102355444464034512896, 240, 1, 115792089237316195423570985008687907853269984665640564039457584007913129639936, 248, 1, 2135987035920910082395021706169552114602704522356652769947041607822219725780640550022962086936576, 256, 1, 39402006196394479212279040100143613805079739270465446667948293404245721771497210611414266254884915640806627990306816])), (35, (dd [1144, 1, 1, 1160, 1, 18446744073709551616, 1240, 1, 340282366920938463463374607431768211456, 1249, 1, 115792089237316195423570985008687907853269984665640564039457584007913129639936, 1256, 1, 6277101735386680763835789423207666416102355444464034512896])), (34, (dd [1144, 1, 18446744073709551616, 1160, 1, 340282366920938463463374607431768211456, 1240, 1, 6277101735386680763835789423207666416102355444464034512896, 1249, 1, 2135987035920910082395021706169552114602704522356652769947041607822219725780640550022962086936576, 1256, 1, 115792089237316195423570985008687907853269984665640564039457584007913129639936])), (33, (dd [1144, 1, 340282366920938463463374607431768211456, 1160, 1, 6277101735386680763835789423207666416102355444464034512896, 1240, 1, 115792089237316195423570985008687907853269984665640564039457584007913129639936, 1249, 1, 39402006196394479212279040100143613805079739270465446667948293404245721771497210611414266254884915640806627990306816, 1256, 1, 2135987035920910082395021706169552114602704522356652769947041607822219725780640550022962086936576])), (32, (dd [1144, 1, 6277101735386680763835789423207666416102355444464034512896, 1160, 1, 115792089237316195423570985008687907853269984665640564039457584007913129639936, 1240, 1, 2135987035920910082395021706169552114602704522356652769947041607822219725780640550022962086936576, 1249, 1, 726838724295606890549323807888004534353641360687318060281490199180639288113397923326191050713763565560762521606266177933534601628614656, 1256, 1, 39402006196394479212279040100143613805079739270465446667948293404245721771497210611414266254884915640806627990306816])), (31, (dd [1352, 1, 340282366920938463463374607431768211456, 1368, 1, 6277101735386680763835789423207666416102355444464034512896, 1448, 1, 340282366920938463463374607431768211456, 1464, 1, 6277101735386680763835789423207666416102355444464034512896])), (30, (dd [1352, 1, 6277101735386680763835789423207666416102355444464034512896, 1368, 1, 115792089237316195423570985008687907853269984665640564039457584007913129639936, 1448, 1, 6277101735386680763835789423207666416102355444464034512896, 1464, 1, 115792089237316195423570985008687907853269984665640564039457584007913129639936])), (29, (dd [1784, 1, 340282366920938463463374607431768211456, 1793, 1, 115792089237316195423570985008687907853269984665640564039457584007913129639936, 1800, 1, 6277101735386680763835789423207666416102355444464034512896])), (28, (dd [1784, 1, 6277101735386680763835789423207666416102355444464034512896, 1793, 1, 2135987035920910082395021706169552114602704522356652769947041607822219725780640550022962086936576, 1800, 1, 115792089237316195423570985008687907853269984665640564039457584007913129639936])), (27, (dd [200, 0, 340282366920938463463374607431768211456, 208, 0, 6277101735386680763835789423207666416102355444464034512896, 216, 0, 340282366920938463463374607431768211456, 224, 0, 6277101735386680763835789423207666416102355444464034512896])), (26, (dd [200, 0, 6277101735386680763835789423207666416102355444464034512896, 208, 0, 115792089237316195423570985008687907853269984665640564039457584007913129639936, 216, 0, 6277101735386680763835789423207666416102355444464034512896, 224, 0, 115792089237316195423570985008687907853269984665640564039457584007913129639936])), (25, (dd [3272, 0, 340282366920938463463374607431768211456, 3281, 0, 115792089237316195423570985008687907853269984665640564039457584007913129639936, 3288, 0, 6277101735386680763835789423207666416102355444464034512896])), (24, (dd [3272, 0, 6277101735386680763835789423207666416102355444464034512896, 3281, 0, 2135987035920910082395021706169552114602704522356652769947041607822219725780640550022962086936576, 3288, 0, 115792089237316195423570985008687907853269984665640564039457584007913129639936])), (18, (dd [0, 0, 39402006196394479212279040100143613805079739270465446667948293404245721771497210611414266254884915640806627990306816])), (17, (dd [0, 1, 39402006196394479212279040100143613804963947181228130472524722419237033863643940626748625690845458056798714860666880])), (16, (dd [0, 0, 726838724295606890549323807888004534353641360687318060281490199180639288113397923326191050713763565560762521606266177933534601628614656])), (15, (dd [0, 0, 13407807929942597099574024998205846127439963814395998898511282403621620416268467237531408851498955134285786136414988840242339616557061654305627021015777280])), (14, (dd [0, 0, 726838724295606890549323807888004534353641360687318060281490199180639288113397923326191050713763565560762521606266177933534601628614656])), (13, (dd [0, 0, 13407807929942597099574024998205846127479365820592393377723561443721764030073546976801874298166903427690031858186486050853753882811946569946433649006084096])), (12, (dd [0, 1, 39402006196394479212279040100143613805079739270465446667948293404245721771497210611414266254884915640806627990306816])), (11, (dd [0, 0, 39402006196394479212279040100143613804963947181228130472524722419237033863643940626748625690845458056798714860666880])), (10, (dd [0, 1, 726838724295606890549323807888004534353641360687318060281490199180639288113397923326191050713763565560762521606266177933534601628614656])), (9, (dd [0, 1, 13407807929942597099574024998205846127439963814395998898511282403621620416268467237531408851498955134285786136414988840242339616557061654305627021015777280])), (8, (dd [0, 1, 726838724295606890549323807888004534353641360687318060281490199180639288113397923326191050713763565560762521606266177933534601628614656])), (7, (dd [0, 1, 13407807929942597099574024998205846127479365820592393377723561443721764030073546976801874298166903427690031858186486050853753882811946569946433649006084096])), (6, (dd [0, 0, 247330401473104534060502521019647190035131349101211839914063056092897225106531867170316401061243044989597671426016139339351365034306751209967546155101893167916606772148699136]))] [(27, (dd [200, 1, 340282366920938463463374607431768211456, 208, 1, 6277101735386680763835789423207666416102355444464034512896, 216, 1, 340282366920938463463374607431768211456, 224, 1, 6277101735386680763835789423207666416102355444464034512896])), (26, (dd [200, 1, 6277101735386680763835789423207666416102355444464034512896, 208, 1, 115792089237316195423570985008687907853269984665640564039457584007913129639936, 216, 1, 6277101735386680763835789423207666416102355444464034512896, 224, 1, 115792089237316195423570985008687907853269984665640564039457584007913129639936])), (25, (dd [3272, 1, 340282366920938463463374607431768211456, 3281, 1, 115792089237316195423570985008687907853269984665640564039457584007913129639936, 3288, 1, 6277101735386680763835789423207666416102355444464034512896])), (24, (dd [3272, 1, 6277101735386680763835789423207666416102355444464034512896, 3281, 1, 2135987035920910082395021706169552114602704522356652769947041607822219725780640550022962086936576, 3288, 1, 115792089237316195423570985008687907853269984665640564039457584007913129639936])), (12, (dd [0, 0, 39402006196394479212279040100143613805079739270465446667948293404245721771497210611414266254884915640806627990306816])), (11, (dd [0, 1, 39402006196394479212279040100143613804963947181228130472524722419237033863643940626748625690845458056798714860666880])), (10, (dd [0, 0, 726838724295606890549323807888004534353641360687318060281490199180639288113397923326191050713763565560762521606266177933534601628614656])), (9, (dd [0, 0, 13407807929942597099574024998205846127439963814395998898511282403621620416268467237531408851498955134285786136414988840242339616557061654305627021015777280])), (8, (dd [0, 0, 726838724295606890549323807888004534353641360687318060281490199180639288113397923326191050713763565560762521606266177933534601628614656])), (7, (dd [0, 0, 13407807929942597099574024998205846127479365820592393377723561443721764030073546976801874298166903427690031858186486050853753882811946569946433649006084096]))] [] [(23, (dd [232, 1, 340282366920938463463374607431768211456, 240, 1, 6277101735386680763835789423207666416102355444464034512896, 248, 1, 340282366920938463463374607431768211456, 256, 1, 6277101735386680763835789423207666416102355444464034512896])), (22, (dd [232, 1, 6277101735386680763835789423207666416102355444464034512896, 240, 1, 115792089237316195423570985008687907853269984665640564039457584007913129639936, 248, 1, 6277101735386680763835789423207666416102355444464034512896, 256, 1, 115792089237316195423570985008687907853269984665640564039457584007913129639936])), (21, (dd [5048, 1, 340282366920938463463374607431768211456, 5057, 1, 115792089237316195423570985008687907853269984665640564039457584007913129639936, 5064, 1, 6277101735386680763835789423207666416102355444464034512896])), (20, (dd [5048, 1, 6277101735386680763835789423207666416102355444464034512896, 5057, 1, 2135987035920910082395021706169552114602704522356652769947041607822219725780640550022962086936576, 5064, 1, 115792089237316195423570985008687907853269984665640564039457584007913129639936])), (5, (dd [0, 0, 39402006196394479212279040100143613805079739270465446667948293404245721771497210611414266254884915640806627990306816])), (4, (dd [0, 1, 39402006196394479212279040100143613804963947181228130472524722419237033863643940626748625690845458056798714860666880])), (3, (dd [0, 0, 726838724295606890549323807888004534353641360687318060281490199180639288113397923326191050713763565560762521606266177933534601628614656])), (2, (dd [0, 0, 13407807929942597099574024998205846127439963814395998898511282403621620416268467237531408851498955134285786136414988840242339616557061654305627021015777280])), (1, (dd [0, 0, 726838724295606890549323807888004534353641360687318060281490199180639288113397923326191050713763565560762521606266177933534601628614656])), (0, (dd [0, 0, 13407807929942597099574024998205846127479365820592393377723561443721764030073546976801874298166903427690031858186486050853753882811946569946433649006084096]))] [(39, (dd [200, 1, 115792089237316195423570985008687907853269984665640564039457584007913129639936, 208, 1, 2135987035920910082395021706169552114602704522356652769947041607822219725780640550022962086936576, 216, 1, 39402006196394479212279040100143613805079739270465446667948293404245721771497210611414266254884915640806627990306816, 224, 1, 726838724295606890549323807888004534353641360687318060281490199180639288113397923326191050713763565560762521606266177933534601628614656, 232, 1, 115792089237316195423570985008687907853269984665640564039457584007913129639936, 240, 1, 2135987035920910082395021706169552114602704522356652769947041607822219725780640550022962086936576, 248, 1, 39402006196394479212279040100143613805079739270465446667948293404245721771497210611414266254884915640806627990306816, 256, 1, 726838724295606890549323807888004534353641360687318060281490199180639288113397923326191050713763565560762521606266177933534601628614656])), (38, (dd [200, 1, 2135987035920910082395021706169552114602704522356652769947041607822219725780640550022962086936576, 208, 1, 39402006196394479212279040100143613805079739270465446667948293404245721771497210611414266254884915640806627990306816, 216, 1, 726838724295606890549323807888004534353641360687318060281490199180639288113397923326191050713763565560762521606266177933534601628614656, 224, 1, 13407807929942597099574024998205846127479365820592393377723561443721764030073546976801874298166903427690031858186486050853753882811946569946433649006084096, 232, 1, 2135987035920910082395021706169552114602704522356652769947041607822219725780640550022962086936576, 240, 1, 39402006196394479212279040100143613805079739270465446667948293404245721771497210611414266254884915640806627990306816, 248, 1, 726838724295606890549323807888004534353641360687318060281490199180639288113397923326191050713763565560762521606266177933534601628614656, 256, 1, 13407807929942597099574024998205846127479365820592393377723561443721764030073546976801874298166903427690031858186486050853753882811946569946433649006084096])), (37, (dd [200, 1, 39402006196394479212279040100143613805079739270465446667948293404245721771497210611414266254884915640806627990306816, 208, 1, 726838724295606890549323807888004534353641360687318060281490199180639288113397923326191050713763565560762521606266177933534601628614656, 216, 1, 13407807929942597099574024998205846127479365820592393377723561443721764030073546976801874298166903427690031858186486050853753882811946569946433649006084096, 224, 1, 247330401473104534060502521019647190035131349101211839914063056092897225106531867170316401061243044989597671426016139339351365034306751209967546155101893167916606772148699136, 232, 1, 39402006196394479212279040100143613805079739270465446667948293404245721771497210611414266254884915640806627990306816, 240, 1, 726838724295606890549323807888004534353641360687318060281490199180639288113397923326191050713763565560762521606266177933534601628614656, 248, 1, 13407807929942597099574024998205846127479365820592393377723561443721764030073546976801874298166903427690031858186486050853753882811946569946433649006084096, 256, 1, 247330401473104534060502521019647190035131349101211839914063056092897225106531867170316401061243044989597671426016139339351365034306751209967546155101893167916606772148699136])), (36, (dd [200, 1, 726838724295606890549323807888004534353641360687318060281490199180639288113397923326191050713763565560762521606266177933534601628614656, 208, 1, 13407807929942597099574024998205846127479365820592393377723561443721764030073546976801874298166903427690031858186486050853753882811946569946433649006084096, 216, 1, 247330401473104534060502521019647190035131349101211839914063056092897225106531867170316401061243044989597671426016139339351365034306751209967546155101893167916606772148699136, 224, 1, 4562440617622195218641171605700291324893228507248559930579192517899275167208677386505912811317371399778642309573594407310688704721375437998252661319722214188251994674360264950082874192246603776, 232, 1, 726838724295606890549323807888004534353641360687318060281490199180639288113397923326191050713763565560762521606266177933534601628614656, 240, 1, 13407807929942597099574024998205846127479365820592393377723561443721764030073546976801874298166903427690031858186486050853753882811946569946433649006084096, 248, 1, 247330401473104534060502521019647190035131349101211839914063056092897225106531867170316401061243044989597671426016139339351365034306751209967546155101893167916606772148699136, 256, 1, 4562440617622195218641171605700291324893228507248559930579192517899275167208677386505912811317371399778642309573594407310688704721375437998252661319722214188251994674360264950082874192246603776])), (35, (dd [1144, 1, 115792089237316195423570985008687907853269984665640564039457584007913129639936, 1160, 1, 2135987035920910082395021706169552114602704522356652769947041607822219725780640550022962086936576, 1240, 1, 39402006196394479212279040100143613805079739270465446667948293404245721771497210611414266254884915640806627990306816, 1249, 1, 13407807929942597099574024998205846127479365820592393377723561443721764030073546976801874298166903427690031858186486050853753882811946569946433649006084096, 1256, 1, 726838724295606890549323807888004534353641360687318060281490199180639288113397923326191050713763565560762521606266177933534601628614656])), (34, (dd [1144, 1, 2135987035920910082395021706169552114602704522356652769947041607822219725780640550022962086936576, 1160, 1, 39402006196394479212279040100143613805079739270465446667948293404245721771497210611414266254884915640806627990306816, 1240, 1, 726838724295606890549323807888004534353641360687318060281490199180639288113397923326191050713763565560762521606266177933534601628614656, 1249, 1, 247330401473104534060502521019647190035131349101211839914063056092897225106531867170316401061243044989597671426016139339351365034306751209967546155101893167916606772148699136, 1256, 1, 13407807929942597099574024998205846127479365820592393377723561443721764030073546976801874298166903427690031858186486050853753882811946569946433649006084096])), (33, (dd [1144, 1, 39402006196394479212279040100143613805079739270465446667948293404245721771497210611414266254884915640806627990306816, 1160, 1, 726838724295606890549323807888004534353641360687318060281490199180639288113397923326191050713763565560762521606266177933534601628614656, 1240, 1, 13407807929942597099574024998205846127479365820592393377723561443721764030073546976801874298166903427690031858186486050853753882811946569946433649006084096, 1249, 1, 4562440617622195218641171605700291324893228507248559930579192517899275167208677386505912811317371399778642309573594407310688704721375437998252661319722214188251994674360264950082874192246603776, 1256, 1, 247330401473104534060502521019647190035131349101211839914063056092897225106531867170316401061243044989597671426016139339351365034306751209967546155101893167916606772148699136])), (32, (dd [1144, 1, 726838724295606890549323807888004534353641360687318060281490199180639288113397923326191050713763565560762521606266177933534601628614656, 1160, 1, 13407807929942597099574024998205846127479365820592393377723561443721764030073546976801874298166903427690031858186486050853753882811946569946433649006084096, 1240, 1, 247330401473104534060502521019647190035131349101211839914063056092897225106531867170316401061243044989597671426016139339351365034306751209967546155101893167916606772148699136, 1249, 1, 84162174424773976115855838126082058648805436845170781751972494449099714468753293153818664580441415219631727501698851483408310916002940861810045036330430093599283578738055113571066620126149163476340692027772502016, 1256, 1, 4562440617622195218641171605700291324893228507248559930579192517899275167208677386505912811317371399778642309573594407310688704721375437998252661319722214188251994674360264950082874192246603776])), (31, (dd [1352, 1, 39402006196394479212279040100143613805079739270465446667948293404245721771497210611414266254884915640806627990306816, 1368, 1, 726838724295606890549323807888004534353641360687318060281490199180639288113397923326191050713763565560762521606266177933534601628614656, 1448, 1, 39402006196394479212279040100143613805079739270465446667948293404245721771497210611414266254884915640806627990306816, 1464, 1, 726838724295606890549323807888004534353641360687318060281490199180639288113397923326191050713763565560762521606266177933534601628614656])), (30, (dd [1352, 1, 726838724295606890549323807888004534353641360687318060281490199180639288113397923326191050713763565560762521606266177933534601628614656, 1368, 1, 13407807929942597099574024998205846127479365820592393377723561443721764030073546976801874298166903427690031858186486050853753882811946569946433649006084096, 1448, 1, 726838724295606890549323807888004534353641360687318060281490199180639288113397923326191050713763565560762521606266177933534601628614656, 1464, 1, 13407807929942597099574024998205846127479365820592393377723561443721764030073546976801874298166903427690031858186486050853753882811946569946433649006084096])), (29, (dd [1784, 1, 39402006196394479212279040100143613805079739270465446667948293404245721771497210611414266254884915640806627990306816, 1793, 1, 13407807929942597099574024998205846127479365820592393377723561443721764030073546976801874298166903427690031858186486050853753882811946569946433649006084096, 1800, 1, 726838724295606890549323807888004534353641360687318060281490199180639288113397923326191050713763565560762521606266177933534601628614656])), (28, (dd [1784, 1, 726838724295606890549323807888004534353641360687318060281490199180639288113397923326191050713763565560762521606266177933534601628614656, 1793, 1, 247330401473104534060502521019647190035131349101211839914063056092897225106531867170316401061243044989597671426016139339351365034306751209967546155101893167916606772148699136, 1800, 1, 13407807929942597099574024998205846127479365820592393377723561443721764030073546976801874298166903427690031858186486050853753882811946569946433649006084096])), (27, (dd [200, 0, 39402006196394479212279040100143613805079739270465446667948293404245721771496870329047345316421452266199196222095360, 208, 0, 726838724295606890549323807888004534353641360687318060281490199180639288113391646224455664032999729771339313939850075578090137594101760, 216, 0, 39402006196394479212279040100143613805079739270465446667948293404245721771496870329047345316421452266199196222095360, 224, 0, 726838724295606890549323807888004534353641360687318060281490199180639288113391646224455664032999729771339313939850075578090137594101760])), (26, (dd [200, 0, 726838724295606890549323807888004534353641360687318060281490199180639288113391646224455664032999729771339313939850075578090137594101760, 208, 0, 13407807929942597099574024998205846127479365820592393377723561443721764030073431184712636981971479856705023170278632780869088242247907112362425735876444160, 216, 0, 726838724295606890549323807888004534353641360687318060281490199180639288113391646224455664032999729771339313939850075578090137594101760, 224, 0, 13407807929942597099574024998205846127479365820592393377723561443721764030073431184712636981971479856705023170278632780869088242247907112362425735876444160])), (25, (dd [3272, 0, 39402006196394479212279040100143613805079739270465446667948293404245721771496870329047345316421452266199196222095360, 3281, 0, 13407807929942597099574024998205846127479365820592393377723561443721764030073431184712636981971479856705023170278632780869088242247907112362425735876444160, 3288, 0, 726838724295606890549323807888004534353641360687318060281490199180639288113391646224455664032999729771339313939850075578090137594101760])), (24, (dd [3272, 0, 726838724295606890549323807888004534353641360687318060281490199180639288113391646224455664032999729771339313939850075578090137594101760, 3281, 0, 247330401473104534060502521019647190035131349101211839914063056092897225106529731183280480151160649967891501873901536634829008381536804168359723935376112527366583810061762560, 3288, 0, 13407807929942597099574024998205846127479365820592393377723561443721764030073431184712636981971479856705023170278632780869088242247907112362425735876444160])), (23, (dd [232, 1, 4562440617622195218641171605700291324893228507248559930579192517899275167208637984499716416838159120738542165959789327571418239274707489704848415597950716977640580408105380034442067564256296960, 240, 1, 84162174424773976115855838126082058648805436845170781751972494449099714468752566315094368973550865895823839497164497842047623597942659371610864397042316695675957387687341350005505857604542897298407157426143887360, 248, 1, 4562440617622195218641171605700291324893228507248559930579192517899275167208637984499716416838159120738542165959789327571418239274707489704848415597950716977640580408105380034442067564256296960, 256, 1, 84162174424773976115855838126082058648805436845170781751972494449099714468752566315094368973550865895823839497164497842047623597942659371610864397042316695675957387687341350005505857604542897298407157426143887360])), (22, (dd [232, 1, 84162174424773976115855838126082058648805436845170781751972494449099714468752566315094368973550865895823839497164497842047623597942659371610864397042316695675957387687341350005505857604542897298407157426143887360, 240, 1, 1552518092300708935148979488462502555256886017116696611139052038026050952686363478522948466231546903925489524851003593840350987650737090830000565511011107592227653101722683002122575253773411958774409245310904522180946413204809973760, 248, 1, 84162174424773976115855838126082058648805436845170781751972494449099714468752566315094368973550865895823839497164497842047623597942659371610864397042316695675957387687341350005505857604542897298407157426143887360, 256, 1, 1552518092300708935148979488462502555256886017116696611139052038026050952686363478522948466231546903925489524851003593840350987650737090830000565511011107592227653101722683002122575253773411958774409245310904522180946413204809973760])), (21, (dd [5048, 1, 4562440617622195218641171605700291324893228507248559930579192517899275167208637984499716416838159120738542165959789327571418239274707489704848415597950716977640580408105380034442067564256296960, 5057, 1, 1552518092300708935148979488462502555256886017116696611139052038026050952686363478522948466231546903925489524851003593840350987650737090830000565511011107592227653101722683002122575253773411958774409245310904522180946413204809973760, 5064, 1, 84162174424773976115855838126082058648805436845170781751972494449099714468752566315094368973550865895823839497164497842047623597942659371610864397042316695675957387687341350005505857604542897298407157426143887360])), (20, (dd [5048, 1, 84162174424773976115855838126082058648805436845170781751972494449099714468752566315094368973550865895823839497164497842047623597942659371610864397042316695675957387687341350005505857604542897298407157426143887360, 5057, 1, 28638903918474961204418783933674838490721739172170652529441449702311064005352656828943811161290567872908339862028964588725295648917159313644352128816458047753342557906917969057277203590052962636905688643197438496265963007451635690447442180334325596160, 5064, 1, 1552518092300708935148979488462502555256886017116696611139052038026050952686363478522948466231546903925489524851003593840350987650737090830000565511011107592227653101722683002122575253773411958774409245310904522180946413204809973760])), (19, (dd [0, 1, 13407807929942597099574024998205846127479365820592393377723561443721764030073546976801874298166903427690031858186486050853753882811946569946433649006084096])), (18, (dd [0, 0, 4562440617622195218641171605700291324893228507248559930579192517899275167208677386505912811317371399778642309573594407310688704721375437998252661319722214188251994674360264950082874192246603776])), (17, (dd [0, 1, 4562440617622195218641171605700291324879820699318617333479618492901069321081198020685320417939647838334920545543520860333886830423208534570562629461535728137398240791548318380136440543240519680])), (16, (dd [0, 0, 84162174424773976115855838126082058648805436845170781751972494449099714468753293153818664580441415219631727501698851483408310916002940861810045036330430093599283578738055113571066620126149163476340692027772502016])), (15, (dd [0, 0, 1552518092300708935148979488462502555252323576499074415920410866420350661361483657823629848898067285432588455529922395819665667232797442991665644965467586731893766271299474467552012624311876230637011004519356203800809972661569454080])), (14, (dd [0, 0, 84162174424773976115855838126082058648805436845170781751972494449099714468753293153818664580441415219631727501698851483408310916002940861810045036330430093599283578738055113571066620126149163476340692027772502016])), (13, (dd [0, 0, 1552518092300708935148979488462502555256886017116696611139052038026050952686376886330878408828646477950487730697131073206171580044114814391444287275041181139204454976020849905550265285631598444825262999193716468750892846853816057856])), (12, (dd [0, 1, 4562440617622195218641171605700291324893228507248559930579192517899275167208637984499716416838159120738542165959789327571418239274707489704848415597950716977640580408105380034442067564256296960])), (11, (dd [0, 0, 4562440617622195218641171605700291324879820699318617333479618492901069321081158618679124023460435559294820401929715896386705602292736009848143392427672084196771492165857472922079641828379852800])), (10, (dd [0, 1, 84162174424773976115855838126082058648805436845170781751972494449099714468752566315094368973550865895823839497164497842047623597942659371610864397042316695675957387687341350005505857604542897298407157426143887360])), (9, (dd [0, 1, 1552518092300708935148979488462502555252323576499074415920410866420350661361470250015699906300967711407590249683794955855851271233898931709262023345051318264656234862447975512417726838175461241796768664902799142146504345640553676800])), (8, (dd [0, 1, 84162174424773976115855838126082058648805436845170781751972494449099714468752566315094368973550865895823839497164497842047623597942659371610864397042316695675957387687341350005505857604542897298407157426143887360])), (7, (dd [0, 1, 1552518092300708935148979488462502555256886017116696611139052038026050952686363478522948466231546903925489524851003593840350987650737090830000565511011107592227653101722683002122575253773411958774409245310904522180946413204809973760])), (6, (dd [0, 0, 28638903918474961204418783933674838490721739172170652529441449702311064005352904159345284265824628375429359509218999720074396860757073376700445026041564579620512874307979212102266801261478978776245040008231745247475930553606737583615358787106474295296])), (5, (dd [0, 0, 528294531135665246352339784916516606518847326036121522127960709026673902556720297033799633692438546723068694701932235450375098999572106344732639703295730899521880771187687712768952875366852846645713544203489812966149775631431839524650144904092676211539455706705491394560])), (4, (dd [0, 1, 528294531135665246352339784916516606517294807943820813192811729538211400001463411016682937081299494685042643749245871971852150533340559440807150178444727305681529783536950621938952309855841739053485891101767129964027200377658427565875735658781771689358509293500681420800])), (3, (dd [0, 0, 9745314011399999080353382387875188310876226857595007526867906457212948690766341940291190291905894403387178834172759862746613999083451121552128887581843900126377459035376031614651157927988354796869391282563215438011875552889064444852147080036730910499256672182978128383605487897964141608960])), (2, (dd [0, 0, 179769313486231590772930519078902473361269403363094992027077741372816159198980563288580055091344426332604977474759416174607873438510839023731752684984855512041061916016464732453619092167253232146725030600853203241677753519700568853688995111361316574291650469767522860270471838035193323624545007776064916684800])), (1, (dd [0, 0, 9745314011399999080353382387875188310876226857595007526867906457212948690766341940291190291905894403387178834172759862746613999083451121552128887581843900126377459035376031614651157927988354796869391282563215438011875552889064444852147080036730910499256672182978128383605487897964141608960])), (0, (dd [0, 0, 179769313486231590772930519078902473361797697894230657273430081157732675805499410614616176613472387041631651377316136471641673072203277570454821379686787747491437015016036838798351731870548963046246911372040890954446706395067421700334708655564806387257800245398954699795121982939285999836084463482770408079360]))] = true := by decide +kernel

def C.rdc : Cert where
  S := ⟨[], [12, 24], [.arr 0, .arr 1], 0⟩
  anns := [a0, a0, a0, a0, a0, a0, a0, a0, au 0 1138, a0, au 0 1170, a0, au 0 1202, a0, a1, a0, au 0 1266, a0, a0, a1, a0, au 0 1346, a0, a0, a1, a0, au 0 1426, a0, a0, a1, a0, au 0 1506, a0, a0, a1, a0, au 0 1586, a0, a0, a1, a0, a0, a0, a0, a0, a0, a0, a0, a0, a0, a0, a0, a0, a0, a0, a0, a0, a0, a0, a0, a2, a2, a0, a0, a0, a0, a0, a0, a0, a0, au 0 2130, a0, a0, a0, a0, a0, a0, a0, a0, a0, au 0 2290, a0, a0, a0, a0, a0, au 0 2386, a0, a1, a0, au 0 2450, a0, a0, a1, a0, au 0 2530, a0, a0, a1, a0, au 0 2610, a0, a0, a1, a0, au 0 2690, a0, a0, a1, a0, au 0 2770, a0, a0, a1, a0, a0, a0, a0, a0, a0, a0, a0, a0, a0, a0, a0, a0, a0, a2, a2, a0, a0, a0, au 0 3138, a0, a0, a0, a0, a0, au 0 3234, a0, a0, a0, a0, au 0 3314, a0, a1, a0, au 0 3378, a0, a0, a1, a0, au 0 3458, a0, a0, a1, a0, au 0 3538, a0, a0, a1, a0, au 0 3618, a0, a0, a1, a0, au 0 3698, a0, a0, a1, a0, a0, a0, a0, a0, a0, a0, a0, a0, a0, a0, a0, a0, a0, a2, a0, a0, a0, a0, au 0 4066, a0, a0, a0, a0, au 0 4146, a0, a0, a0, au 0 4210, a0, a1, a0, au 0 4274, a0, a0, a1, a0, au 0 4354, a0, a0, a1, a0, au 0 4434, a0, a0, a1, a0, au 0 4514, a0, a0, a1, a0, au 0 4594, a0, a0, a1, a0, a0, a0, a0, a0, a0, a0, a0, a0, a0, a0, a0, a0, a0, a0, a0, a0, a0, a0, a0, a0, a0, a0, a0, a0, a0, a0, a0, a0, a0]
  hints := [⟨[146, 145], (dd [1681, 0, 1]), []⟩, ⟨[100, 99], (dd [2865, 0, 1]), []⟩, ⟨[56, 55], (dd [3793, 0, 1]), []⟩, ⟨[14, 13], (dd [4689, 0, 1]), []⟩]
  zb := 0
  scratch := []
  keepBP := false

theorem rdc_ok : rdcChk Model.Arm503.rdc C.rdc 8 13175843156907117380839252916199345042492186767578363998445663477035843932020761233518914911546024351608607150390087656982982306331019593961154237431807 1 (dd [104, 0, 1, 112, 0, 18446744073709551616, 120, 0, 340282366920938463463374607431768211456, 1992, 0, 6277101735386680763835789423207666416102355444464034512896, 2008, 0, 115792089237316195423570985008687907853269984665640564039457584007913129639936, 3080, 0, 2135987035920910082395021706169552114602704522356652769947041607822219725780640550022962086936576, 3096, 0, 39402006196394479212279040100143613805079739270465446667948293404245721771497210611414266254884915640806627990306816, 4008, 0, 726838724295606890549323807888004534353641360687318060281490199180639288113397923326191050713763565560762521606266177933534601628614656]) [(32, (dd [0, 0, 966134380754314586173837972732996836074731832426608749664308812862879785572390106134048441645480644490615904007875544294341269665260746913935727168366770187174245203705856])), (31, (dd [0, 0, 52374249726338269920211035149241586435466272736689036631732661889538140742474792878132321477214466514414186946040961136147476104734166288853256441430016])), (30, (dd [0, 0, 2839213766779714416208296124562517712318911565184836172974571090549372219192960637992933791850638927971728600024477257552869537611776])), (29, (dd [0, 0, 153914086704665934422965000391185991426092731525255651046673021110334850669910978950836977558144201721900890587136])), (28, (dd [0, 0, 8343699359066055009355553539724812947666814540455674882605631280555545803830627148527195652096])), (27, (dd [0, 0, 452312848583266388373324160190187140051835877600158453279131187530910662656])), (26, (dd [0, 1, 6277101735386680763835789423207666416102355444464034512896])), (25, (dd [0, 1, 115792089237316195423570985008687907853269984665640564039457584007913129639936])), (24, (dd [0, 0, 328758493846773344202561867680008041596896237676448366218642556441795759643567551382104158517349278201686435553511138607063714515636487741445488423165742553122201479445527787386978984867770169829455828233486336])), (23, (dd [0, 0, 17822033662586700072817076584766762987864173856439687228824970773044043621908896041038721919208482030385321521771853153557377752817872804680674458280164899172859354196719784961261227313463296])), (22, (dd [0, 0, 966134380754314586173837972732996836074731832426608749664308812862879785572390106134048441645480644490615904007875544294341269665260746913935727168366770187174245203705856])), (21, (dd [0, 0, 52374249726338269920211035149241586435466272736689036631732661889538140742474792878132321477214466514414186946040961136147476104734166288853256441430016])), (20, (dd [0, 0, 2839213766779714416208296124562517712318911565184836172974571090549372219192960637992933791850638927971728600024477257552869537611776])), (19, (dd [0, 0, 153914086704665934422965000391185991426092731525255651046673021110334850669910978950836977558144201721900890587136])), (18, (dd [0, 1, 2135987035920910082395021706169552114602704522356652769947041607822219725780640550022962086936576])), (17, (dd [0, 1, 39402006196394479212279040100143613805079739270465446667948293404245721771497210611414266254884915640806627990306816])), (16, (dd [0, 0, 111870718431542817204760874740917337854381793641291611443130662899652593770909781872442516663377454591520935582886717656540612737332317877736113382974861639142628415265543797274479692427652260844707187532155254872952853725026318685997495262134665216])), (15, (dd [0, 0, 6064523798049644277925701126806650606472211004362096137261922023539261533931159712229993784486900304494092698035668254711607734547323493716579247168129613825017402250081444943555723771998431425098683590600454956058175183022718976])), (14, (dd [0, 0, 328758493846773344202561867680008041596896237676448366218642556441795759643567551382104158517349278201686435553511138607063714515636487741445488423165742553122201479445527787386978984867770169829455828233486336])), (13, (dd [0, 0, 17822033662586700072817076584766762987864173856439687228824970773044043621908896041038721919208482030385321521771853153557377752817872804680674458280164899172859354196719784961261227313463296])), (12, (dd [0, 0, 966134380754314586173837972732996836074731832426608749664308812862879785572390106134048441645480644490615904007875544294341269665260746913935727168366770187174245203705856])), (11, (dd [0, 0, 52374249726338269920211035149241586435466272736689036631732661889538140742474792878132321477214466514414186946040961136147476104734166288853256441430016])), (10, (dd [0, 1, 726838724295606890549323807888004534353641360687318060281490199180639288113397923326191050713763565560762521606266177933534601628614656])), (9, (dd [0, 0, 38067632857031246407630399952637454339360261162480498151827759598488080823306351962756308851101602575098847329028940110091637382285949586119445262876221302420044053515454972772932772091758022063878123412028196792475334366896073730256821732872925646925108354699626084168288392929655914496])), (8, (dd [0, 0, 2063650512248692368563827284830142994214247367328599695812346519635444931862206482321942405811160890213571855442410658901884170154307365379884917884620857722298385484371113610034107490923540785363375909797699954703703235518560788042337487885808736236287260081631789056])), (7, (dd [0, 0, 111870718431542817204760874740917337854381793641291611443130662899652593770909781872442516663377454591520935582886717656540612737332317877736113382974861639142628415265543797274479692427652260844707187532155254872952853725026318685997495262134665216])), (6, (dd [0, 0, 6064523798049644277925701126806650606472211004362096137261922023539261533931159712229993784486900304494092698035668254711607734547323493716579247168129613825017402250081444943555723771998431425098683590600454956058175183022718976])), (5, (dd [0, 0, 328758493846773344202561867680008041596896237676448366218642556441795759643567551382104158517349278201686435553511138607063714515636487741445488423165742553122201479445527787386978984867770169829455828233486336])), (4, (dd [0, 0, 17822033662586700072817076584766762987864173856439687228824970773044043621908896041038721919208482030385321521771853153557377752817872804680674458280164899172859354196719784961261227313463296])), (3, (dd [0, 0, 17822033662586700072817076584766762987864173856439687228824970773044043621908896041038721919208482030385321521771853153557377752817872804680674458280164899172859354196719784961261227313463296])), (2, (dd [0, 0, 6064523798049644277925701126806650606472211004362096137261922023539261533931159712229993784486900304494092698035668254711607734547323493716579247168129613825017402250081444943555723771998431425098683590600454956058175183022718976])), (1, (dd [0, 0, 2063650512248692368563827284830142994214247367328599695812346519635444931862206482321942405811160890213571855442410658901884170154307365379884917884620857722298385484371113610034107490923540785363375909797699954703703235518560788042337487885808736236287260081631789056])), (0, (dd [0, 0, 702223880805592151456759840151962786569522257399338504974336254522393264865238137237142489540654437582500444843247630303354647534431314931612685275935445798350655833690880801860555545317367555154113605281582053784524026102900245630757473088050106395169337932361665227499793929447186391815763110662594625536]))] = true := by decide +kernel

end Lemmas.AsmCertArm503
