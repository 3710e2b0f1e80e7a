import Verif.Lemmas.AsmFam
import Verif.Model.AsmP751
/- Certificates for `mul` and `rdc` of p751/arith_amd64.s, printed by gen/asmgen.py. -/
set_option maxRecDepth 100000
namespace Lemmas.AsmCert751
open Model.Asm Lemmas.AsmSym Lemmas.AsmPoly Lemmas.AsmSound Lemmas.AsmCall Lemmas.AsmFam

def C.mul : Cert where
  S := ⟨[35, 47], [24, 12, 12], [.arr 0, .arr 1, .arr 2], 0⟩
  anns := [a0, a0, a0, a0, a0, a0, a0, a0, a0, a0, a2, a2, a2, a2, a2, a2, a0, a0, a0, a0, a0, a0, a1, a0, a0, a0, a0, a0, a0, a0, a2, a2, a2, a2, a2, a2, a0, a0, a0, a0, a0, a0, a1, a0, a0, a0, a0, a0, a0, a0, a0, a0, a0, a0, a0, a1, a0, a0, a0, a0, a0, a0, a1, a0, a0, a0, a0, a0, a0, a1, a0, a0, a0, a0, a0, a1, a0, a0, a0, a0, a1, a0, a0, a0, a0, a0, a1, a0, a0, a0, a0, a1, a0, a0, a0, a0, a1, a0, a0, a0, a0, a0, a0, a1, a0, a0, a0, a0, a0, a1, a0, a0, a0, a0, a1, a0, a0, a0, a0, a0, a1, a0, a0, a0, a0, a1, a0, a0, a0, a0, a0, a0, a1, a0, a0, a0, a0, a0, a1, a0, a0, a0, a0, a1, a0, a0, a0, a0, a1, a0, a0, a0, a0, a1, a0, a0, a0, a0, a1, a0, a0, a0, a0, a0, a0, a1, a0, a0, a0, a0, a0, a1, a0, a0, a0, a0, a1, a0, a0, a0, a0, a1, a0, a0, a0, a0, a0, a1, a0, a0, a0, a0, a0, a1, a0, a0, a0, a0, a0, a1, a0, a0, a0, a0, a1, a0, a0, a0, a0, a1, a0, a0, a0, a0, a0, a1, a0, a0, a0, a0, a0, a1, a0, a0, a0, a0, a1, a0, a0, a0, a0, a0, a1, a0, a0, a0, a0, a0, a1, a0, a0, a0, a0, a1, a0, a0, a0, a0, a0, a0, a0, a0, a0, a0, a0, a0, a0, a0, a0, a0, a0, a0, a0, a0, a0, a0, a0, a0, a0, a0, a0, a0, a0, a0, a0, a0, a0, a0, a0, a0, a0, a0, a0, a0, a0, a0, a0, a0, a0, a0, a0, a0, a0, a0, a0, a0, a0, a0, a0, a0, a0, a0, a0, a0, a0, a0, a0, a0, a0, a0, a0, a1, a0, a0, a0, a0, a0, a0, a0, a1, a0, a0, a0, a0, a0, a1, a0, a0, a0, a0, a0, a1, a0, a0, a0, a0, a0, a1, a0, a0, a0, a0, a0, a1, a0, a0, a0, a0, a1, a0, a0, a0, a0, a1, a0, a0, a0, a0, a0, a0, a1, a0, a0, a0, a0, a0, a1, a0, a0, a0, a0, a1, a0, a0, a0, a0, a1, a0, a0, a0, a0, a1, a0, a0, a0, a0, a0, a0, a1, a0, a0, a0, a0, a0, a1, a0, a0, a0, a0, a1, a0, a0, a0, a0, a1, a0, a0, a0, a0, a0, a1, a0, a0, a0, a0, a1, a0, a0, a0, a0, a0, a0, a1, a0, a0, a0, a0, a0, a1, a0, a0, a0, a0, a1, a0, a0, a0, a0, a1, a0, a0, a0, a0, a1, a0, a0, a0, a0, a0, a1, a0, a0, a0, a0, a0, a1, a0, a0, a0, a0, a1, a0, a0, a0, a0, a1, a0, a0, a0, a0, a0, a1, a0, a0, a0, a0, a0, a1, a0, a0, a0, a0, a1, a0, a0, a0, a0, a0, a1, a0, a0, a0, a0, a0, a1, a0, a0, a0, a0, a0, a1, a0, a0, a0, a0, a0, a0, a0, a0, a0, a0, a0, a0, a0, a0, a0, a0, a1, a0, a0, a0, a0, a0, a0, a1, a0, a0, a0, a0, a0, a1, a0, a0, a0, a0, a0, a1, a0, a0, a0, a0, a0, a1, a0, a0, a0, a0, a0, a1, a0, a0, a0, a0, a1, a0, a0, a0, a0, a1, a0, a0, a0, a0, a0, a0, a1, a0, a0, a0, a0, a0, a1, a0, a0, a0, a0, a1, a0, a0, a0, a0, a0, a1, a0, a0, a0, a0, a1, a0, a0, a0, a0, a0, a0, a1, a0, a0, a0, a0, a0, a1, a0, a0, a0, a0, a1, a0, a0, a0, a0, a1, a0, a0, a0, a0, a0, a1, a0, a0, a0, a0, a1, a0, a0, a0, a0, a0, a1, a0, a0, a0, a0, a0, a1, a0, a0, a0, a0, a1, a0, a0, a0, a0, a1, a0, a0, a0, a0, a1, a0, a0, a0, a0, a0, a1, a0, a0, a0, a0, a0, a1, a0, a0, a0, a0, a1, a0, a0, a0, a0, a1, a0, a0, a0, a0, a0, a1, a0, a0, a0, a0, a0, a1, a0, a0, a0, a0, a1, a0, a0, a0, a0, a0, a1, a0, a0, a0, a0, a0, a0, a0, a0, a0, a0, a0, a0, a0, a1, a0, a0, a0, a0, a0, a0, a0, a0, a0, a0, a0, a0, a0, a0, a0, a0, a0, a0, a0, a0, a0, a0, a0, a0, a0, a0, a0, a0, a0, a0, a0, a0, a0, a0, a0, a0, a0, a0, a0, a0, a0, a0, a0, a0, a0, a0, a0, a0, a0, a0, a0, a0, a0, a0, a0, a0, a0, a0, a0, a0, a0, a0, a0, a0, a0, a0, a0, a0, a0, a0, a0, a0, a0, a0, a0, a0, a0, a0, a0, a0, a0, a0, a0, a0, a0, a0, a0, a0, a0, a0, a0, a0]
  hints := [⟨[391, 371, 355, 343, 335, 331, 330], (dd [4977, 0, 1]), []⟩, ⟨[240, 220, 204, 192, 184, 180, 179], (dd [9105, 0, 1]), []⟩, ⟨[49, 48], (dd [12177, 0, 1]), []⟩, ⟨[53, 46, 45], (dd [12257, 0, 1]), [(0, (dd [0, 0, 6277101735386680763835789423207666416102355444464034512896]))]⟩, ⟨[29, 28, 27, 26, 25, 24, 23, 22, 21, 20, 19, 18], (dd [5249, 0, 1, 5745, 0, 1, 12737, 1, 1, 13137, 1, 1, 82904625, 0, 1]), [(15, (dd [296, 1, 1, 304, 1, 18446744073709551616, 312, 1, 340282366920938463463374607431768211456, 320, 1, 6277101735386680763835789423207666416102355444464034512896, 328, 1, 115792089237316195423570985008687907853269984665640564039457584007913129639936, 336, 1, 2135987035920910082395021706169552114602704522356652769947041607822219725780640550022962086936576, 344, 1, 1, 352, 1, 18446744073709551616, 360, 1, 340282366920938463463374607431768211456, 368, 1, 6277101735386680763835789423207666416102355444464034512896, 376, 1, 115792089237316195423570985008687907853269984665640564039457584007913129639936, 388, 1, 2135987035920910082395021706169552114602704522356652769947041607822219725780640550022962086936576])), (14, (dd [296, 1, 18446744073709551616, 304, 1, 340282366920938463463374607431768211456, 312, 1, 6277101735386680763835789423207666416102355444464034512896, 320, 1, 115792089237316195423570985008687907853269984665640564039457584007913129639936, 328, 1, 2135987035920910082395021706169552114602704522356652769947041607822219725780640550022962086936576, 336, 1, 39402006196394479212279040100143613805079739270465446667948293404245721771497210611414266254884915640806627990306816, 344, 1, 18446744073709551616, 352, 1, 340282366920938463463374607431768211456, 360, 1, 6277101735386680763835789423207666416102355444464034512896, 368, 1, 115792089237316195423570985008687907853269984665640564039457584007913129639936, 376, 1, 2135987035920910082395021706169552114602704522356652769947041607822219725780640550022962086936576, 388, 1, 39402006196394479212279040100143613805079739270465446667948293404245721771497210611414266254884915640806627990306816])), (13, (dd [296, 1, 340282366920938463463374607431768211456, 304, 1, 6277101735386680763835789423207666416102355444464034512896, 312, 1, 115792089237316195423570985008687907853269984665640564039457584007913129639936, 320, 1, 2135987035920910082395021706169552114602704522356652769947041607822219725780640550022962086936576, 328, 1, 39402006196394479212279040100143613805079739270465446667948293404245721771497210611414266254884915640806627990306816, 336, 1, 726838724295606890549323807888004534353641360687318060281490199180639288113397923326191050713763565560762521606266177933534601628614656, 344, 1, 340282366920938463463374607431768211456, 352, 1, 6277101735386680763835789423207666416102355444464034512896, 360, 1, 115792089237316195423570985008687907853269984665640564039457584007913129639936, 368, 1, 2135987035920910082395021706169552114602704522356652769947041607822219725780640550022962086936576, 376, 1, 39402006196394479212279040100143613805079739270465446667948293404245721771497210611414266254884915640806627990306816, 388, 1, 726838724295606890549323807888004534353641360687318060281490199180639288113397923326191050713763565560762521606266177933534601628614656])), (12, (dd [296, 1, 6277101735386680763835789423207666416102355444464034512896, 304, 1, 115792089237316195423570985008687907853269984665640564039457584007913129639936, 312, 1, 2135987035920910082395021706169552114602704522356652769947041607822219725780640550022962086936576, 320, 1, 39402006196394479212279040100143613805079739270465446667948293404245721771497210611414266254884915640806627990306816, 328, 1, 726838724295606890549323807888004534353641360687318060281490199180639288113397923326191050713763565560762521606266177933534601628614656, 336, 1, 13407807929942597099574024998205846127479365820592393377723561443721764030073546976801874298166903427690031858186486050853753882811946569946433649006084096, 344, 1, 6277101735386680763835789423207666416102355444464034512896, 352, 1, 115792089237316195423570985008687907853269984665640564039457584007913129639936, 360, 1, 2135987035920910082395021706169552114602704522356652769947041607822219725780640550022962086936576, 368, 1, 39402006196394479212279040100143613805079739270465446667948293404245721771497210611414266254884915640806627990306816, 376, 1, 726838724295606890549323807888004534353641360687318060281490199180639288113397923326191050713763565560762521606266177933534601628614656, 388, 1, 13407807929942597099574024998205846127479365820592393377723561443721764030073546976801874298166903427690031858186486050853753882811946569946433649006084096])), (11, (dd [296, 1, 115792089237316195423570985008687907853269984665640564039457584007913129639936, 304, 1, 2135987035920910082395021706169552114602704522356652769947041607822219725780640550022962086936576, 312, 1, 39402006196394479212279040100143613805079739270465446667948293404245721771497210611414266254884915640806627990306816, 320, 1, 726838724295606890549323807888004534353641360687318060281490199180639288113397923326191050713763565560762521606266177933534601628614656, 328, 1, 13407807929942597099574024998205846127479365820592393377723561443721764030073546976801874298166903427690031858186486050853753882811946569946433649006084096, 336, 1, 247330401473104534060502521019647190035131349101211839914063056092897225106531867170316401061243044989597671426016139339351365034306751209967546155101893167916606772148699136, 344, 1, 115792089237316195423570985008687907853269984665640564039457584007913129639936, 352, 1, 2135987035920910082395021706169552114602704522356652769947041607822219725780640550022962086936576, 360, 1, 39402006196394479212279040100143613805079739270465446667948293404245721771497210611414266254884915640806627990306816, 368, 1, 726838724295606890549323807888004534353641360687318060281490199180639288113397923326191050713763565560762521606266177933534601628614656, 376, 1, 13407807929942597099574024998205846127479365820592393377723561443721764030073546976801874298166903427690031858186486050853753882811946569946433649006084096, 388, 1, 247330401473104534060502521019647190035131349101211839914063056092897225106531867170316401061243044989597671426016139339351365034306751209967546155101893167916606772148699136])), (10, (dd [296, 1, 2135987035920910082395021706169552114602704522356652769947041607822219725780640550022962086936576, 304, 1, 39402006196394479212279040100143613805079739270465446667948293404245721771497210611414266254884915640806627990306816, 312, 1, 726838724295606890549323807888004534353641360687318060281490199180639288113397923326191050713763565560762521606266177933534601628614656, 320, 1, 13407807929942597099574024998205846127479365820592393377723561443721764030073546976801874298166903427690031858186486050853753882811946569946433649006084096, 328, 1, 247330401473104534060502521019647190035131349101211839914063056092897225106531867170316401061243044989597671426016139339351365034306751209967546155101893167916606772148699136, 336, 1, 4562440617622195218641171605700291324893228507248559930579192517899275167208677386505912811317371399778642309573594407310688704721375437998252661319722214188251994674360264950082874192246603776, 344, 1, 2135987035920910082395021706169552114602704522356652769947041607822219725780640550022962086936576, 352, 1, 39402006196394479212279040100143613805079739270465446667948293404245721771497210611414266254884915640806627990306816, 360, 1, 726838724295606890549323807888004534353641360687318060281490199180639288113397923326191050713763565560762521606266177933534601628614656, 368, 1, 13407807929942597099574024998205846127479365820592393377723561443721764030073546976801874298166903427690031858186486050853753882811946569946433649006084096, 376, 1, 247330401473104534060502521019647190035131349101211839914063056092897225106531867170316401061243044989597671426016139339351365034306751209967546155101893167916606772148699136, 388, 1, 4562440617622195218641171605700291324893228507248559930579192517899275167208677386505912811317371399778642309573594407310688704721375437998252661319722214188251994674360264950082874192246603776])), (9, (dd [1192, 1, 1, 1208, 1, 18446744073709551616, 1224, 1, 340282366920938463463374607431768211456, 1240, 1, 6277101735386680763835789423207666416102355444464034512896, 1256, 1, 115792089237316195423570985008687907853269984665640564039457584007913129639936, 1265, 1, 39402006196394479212279040100143613805079739270465446667948293404245721771497210611414266254884915640806627990306816, 1272, 1, 2135987035920910082395021706169552114602704522356652769947041607822219725780640550022962086936576])), (8, (dd [1192, 1, 18446744073709551616, 1208, 1, 340282366920938463463374607431768211456, 1224, 1, 6277101735386680763835789423207666416102355444464034512896, 1240, 1, 115792089237316195423570985008687907853269984665640564039457584007913129639936, 1256, 1, 2135987035920910082395021706169552114602704522356652769947041607822219725780640550022962086936576, 1265, 1, 726838724295606890549323807888004534353641360687318060281490199180639288113397923326191050713763565560762521606266177933534601628614656, 1272, 1, 39402006196394479212279040100143613805079739270465446667948293404245721771497210611414266254884915640806627990306816])), (7, (dd [1192, 1, 340282366920938463463374607431768211456, 1208, 1, 6277101735386680763835789423207666416102355444464034512896, 1224, 1, 115792089237316195423570985008687907853269984665640564039457584007913129639936, 1240, 1, 2135987035920910082395021706169552114602704522356652769947041607822219725780640550022962086936576, 1256, 1, 39402006196394479212279040100143613805079739270465446667948293404245721771497210611414266254884915640806627990306816, 1265, 1, 13407807929942597099574024998205846127479365820592393377723561443721764030073546976801874298166903427690031858186486050853753882811946569946433649006084096, 1272, 1, 726838724295606890549323807888004534353641360687318060281490199180639288113397923326191050713763565560762521606266177933534601628614656])), (6, (dd [1192, 1, 6277101735386680763835789423207666416102355444464034512896, 1208, 1, 115792089237316195423570985008687907853269984665640564039457584007913129639936, 1224, 1, 2135987035920910082395021706169552114602704522356652769947041607822219725780640550022962086936576, 1240, 1, 39402006196394479212279040100143613805079739270465446667948293404245721771497210611414266254884915640806627990306816, 1256, 1, 726838724295606890549323807888004534353641360687318060281490199180639288113397923326191050713763565560762521606266177933534601628614656, 1265, 1, 247330401473104534060502521019647190035131349101211839914063056092897225106531867170316401061243044989597671426016139339351365034306751209967546155101893167916606772148699136, 1272, 1, 13407807929942597099574024998205846127479365820592393377723561443721764030073546976801874298166903427690031858186486050853753882811946569946433649006084096])), (5, (dd [1192, 1, 115792089237316195423570985008687907853269984665640564039457584007913129639936, 1208, 1, 2135987035920910082395021706169552114602704522356652769947041607822219725780640550022962086936576, 1224, 1, 39402006196394479212279040100143613805079739270465446667948293404245721771497210611414266254884915640806627990306816, 1240, 1, 726838724295606890549323807888004534353641360687318060281490199180639288113397923326191050713763565560762521606266177933534601628614656, 1256, 1, 13407807929942597099574024998205846127479365820592393377723561443721764030073546976801874298166903427690031858186486050853753882811946569946433649006084096, 1265, 1, 4562440617622195218641171605700291324893228507248559930579192517899275167208677386505912811317371399778642309573594407310688704721375437998252661319722214188251994674360264950082874192246603776, 1272, 1, 247330401473104534060502521019647190035131349101211839914063056092897225106531867170316401061243044989597671426016139339351365034306751209967546155101893167916606772148699136])), (4, (dd [1192, 1, 2135987035920910082395021706169552114602704522356652769947041607822219725780640550022962086936576, 1208, 1, 39402006196394479212279040100143613805079739270465446667948293404245721771497210611414266254884915640806627990306816, 1224, 1, 726838724295606890549323807888004534353641360687318060281490199180639288113397923326191050713763565560762521606266177933534601628614656, 1240, 1, 13407807929942597099574024998205846127479365820592393377723561443721764030073546976801874298166903427690031858186486050853753882811946569946433649006084096, 1256, 1, 247330401473104534060502521019647190035131349101211839914063056092897225106531867170316401061243044989597671426016139339351365034306751209967546155101893167916606772148699136, 1265, 1, 84162174424773976115855838126082058648805436845170781751972494449099714468753293153818664580441415219631727501698851483408310916002940861810045036330430093599283578738055113571066620126149163476340692027772502016, 1272, 1, 4562440617622195218641171605700291324893228507248559930579192517899275167208677386505912811317371399778642309573594407310688704721375437998252661319722214188251994674360264950082874192246603776])), (3, (dd [0, 0, 1552518092300708935148979488462502555256886017116696611139052038026050952686376886330878408828646477950487730697131073206171580044114814391444287275041181139204454976020849905550265285631598444825262999193716468750892846853816057856])), (2, (dd [0, 1, 1552518092300708935148979488462502555256886017116696611139052038026050952686376886330878408828646477950487730697131073206171580044114814391444287275041181139204454976020849905550265285631598444825262999193716468750892846853816057856])), (1, (dd [0, 1, 84162174424773976115855838126082058648805436845170781751972494449099714468753293153818664580441415219631727501698851483408310916002940861810045036330430093599283578738055113571066620126149163476340692027772502016])), (0, (dd [0, 1, 84162174424773976115855838126082058648805436845170781751972494449099714468753293153818664580441415219631727501698851483408310916002940861810045036330430093599283578738055113571066620126149163476340692027772502016]))]⟩]
  zb := 0
  scratch := []
  keepBP := true

theorem mul_ok : mulChk Model.Asm751.mul C.mul 12 1 2 [(16, (dd [296, 1, 39402006196394479212279040100143613805079739270465446667948293404245721771497210611414266254884915640806627990306816, 304, 1, 726838724295606890549323807888004534353641360687318060281490199180639288113397923326191050713763565560762521606266177933534601628614656, 312, 1, 13407807929942597099574024998205846127479365820592393377723561443721764030073546976801874298166903427690031858186486050853753882811946569946433649006084096, 320, 1, 247330401473104534060502521019647190035131349101211839914063056092897225106531867170316401061243044989597671426016139339351365034306751209967546155101893167916606772148699136, 328, 1, 4562440617622195218641171605700291324893228507248559930579192517899275167208677386505912811317371399778642309573594407310688704721375437998252661319722214188251994674360264950082874192246603776, 336, 1, 84162174424773976115855838126082058648805436845170781751972494449099714468753293153818664580441415219631727501698851483408310916002940861810045036330430093599283578738055113571066620126149163476340692027772502016, 344, 1, 39402006196394479212279040100143613805079739270465446667948293404245721771497210611414266254884915640806627990306816, 352, 1, 726838724295606890549323807888004534353641360687318060281490199180639288113397923326191050713763565560762521606266177933534601628614656, 360, 1, 13407807929942597099574024998205846127479365820592393377723561443721764030073546976801874298166903427690031858186486050853753882811946569946433649006084096, 368, 1, 247330401473104534060502521019647190035131349101211839914063056092897225106531867170316401061243044989597671426016139339351365034306751209967546155101893167916606772148699136, 376, 1, 4562440617622195218641171605700291324893228507248559930579192517899275167208677386505912811317371399778642309573594407310688704721375437998252661319722214188251994674360264950082874192246603776, 388, 1, 84162174424773976115855838126082058648805436845170781751972494449099714468753293153818664580441415219631727501698851483408310916002940861810045036330430093599283578738055113571066620126149163476340692027772502016])), (15, (dd [296, 1, 726838724295606890549323807888004534353641360687318060281490199180639288113397923326191050713763565560762521606266177933534601628614656, 304, 1, 13407807929942597099574024998205846127479365820592393377723561443721764030073546976801874298166903427690031858186486050853753882811946569946433649006084096, 312, 1, 247330401473104534060502521019647190035131349101211839914063056092897225106531867170316401061243044989597671426016139339351365034306751209967546155101893167916606772148699136, 320, 1, 4562440617622195218641171605700291324893228507248559930579192517899275167208677386505912811317371399778642309573594407310688704721375437998252661319722214188251994674360264950082874192246603776, 328, 1, 84162174424773976115855838126082058648805436845170781751972494449099714468753293153818664580441415219631727501698851483408310916002940861810045036330430093599283578738055113571066620126149163476340692027772502016, 336, 1, 1552518092300708935148979488462502555256886017116696611139052038026050952686376886330878408828646477950487730697131073206171580044114814391444287275041181139204454976020849905550265285631598444825262999193716468750892846853816057856, 344, 1, 726838724295606890549323807888004534353641360687318060281490199180639288113397923326191050713763565560762521606266177933534601628614656, 352, 1, 13407807929942597099574024998205846127479365820592393377723561443721764030073546976801874298166903427690031858186486050853753882811946569946433649006084096, 360, 1, 247330401473104534060502521019647190035131349101211839914063056092897225106531867170316401061243044989597671426016139339351365034306751209967546155101893167916606772148699136, 368, 1, 4562440617622195218641171605700291324893228507248559930579192517899275167208677386505912811317371399778642309573594407310688704721375437998252661319722214188251994674360264950082874192246603776, 376, 1, 84162174424773976115855838126082058648805436845170781751972494449099714468753293153818664580441415219631727501698851483408310916002940861810045036330430093599283578738055113571066620126149163476340692027772502016, 388, 1, 1552518092300708935148979488462502555256886017116696611139052038026050952686376886330878408828646477950487730697131073206171580044114814391444287275041181139204454976020849905550265285631598444825262999193716468750892846853816057856])), (14, (dd [296, 1, 13407807929942597099574024998205846127479365820592393377723561443721764030073546976801874298166903427690031858186486050853753882811946569946433649006084096, 304, 1, 247330401473104534060502521019647190035131349101211839914063056092897225106531867170316401061243044989597671426016139339351365034306751209967546155101893167916606772148699136, 312, 1, 4562440617622195218641171605700291324893228507248559930579192517899275167208677386505912811317371399778642309573594407310688704721375437998252661319722214188251994674360264950082874192246603776, 320, 1, 84162174424773976115855838126082058648805436845170781751972494449099714468753293153818664580441415219631727501698851483408310916002940861810045036330430093599283578738055113571066620126149163476340692027772502016, 328, 1, 1552518092300708935148979488462502555256886017116696611139052038026050952686376886330878408828646477950487730697131073206171580044114814391444287275041181139204454976020849905550265285631598444825262999193716468750892846853816057856, 336, 1, 28638903918474961204418783933674838490721739172170652529441449702311064005352904159345284265824628375429359509218999720074396860757073376700445026041564579620512874307979212102266801261478978776245040008231745247475930553606737583615358787106474295296, 344, 1, 13407807929942597099574024998205846127479365820592393377723561443721764030073546976801874298166903427690031858186486050853753882811946569946433649006084096, 352, 1, 247330401473104534060502521019647190035131349101211839914063056092897225106531867170316401061243044989597671426016139339351365034306751209967546155101893167916606772148699136, 360, 1, 4562440617622195218641171605700291324893228507248559930579192517899275167208677386505912811317371399778642309573594407310688704721375437998252661319722214188251994674360264950082874192246603776, 368, 1, 84162174424773976115855838126082058648805436845170781751972494449099714468753293153818664580441415219631727501698851483408310916002940861810045036330430093599283578738055113571066620126149163476340692027772502016, 376, 1, 1552518092300708935148979488462502555256886017116696611139052038026050952686376886330878408828646477950487730697131073206171580044114814391444287275041181139204454976020849905550265285631598444825262999193716468750892846853816057856, 388, 1, 28638903918474961204418783933674838490721739172170652529441449702311064005352904159345284265824628375429359509218999720074396860757073376700445026041564579620512874307979212102266801261478978776245040008231745247475930553606737583615358787106474295296])), (13, (dd [296, 1, 247330401473104534060502521019647190035131349101211839914063056092897225106531867170316401061243044989597671426016139339351365034306751209967546155101893167916606772148699136, 304, 1, 4562440617622195218641171605700291324893228507248559930579192517899275167208677386505912811317371399778642309573594407310688704721375437998252661319722214188251994674360264950082874192246603776, 312, 1, 84162174424773976115855838126082058648805436845170781751972494449099714468753293153818664580441415219631727501698851483408310916002940861810045036330430093599283578738055113571066620126149163476340692027772502016, 320, 1, 1552518092300708935148979488462502555256886017116696611139052038026050952686376886330878408828646477950487730697131073206171580044114814391444287275041181139204454976020849905550265285631598444825262999193716468750892846853816057856, 328, 1, 28638903918474961204418783933674838490721739172170652529441449702311064005352904159345284265824628375429359509218999720074396860757073376700445026041564579620512874307979212102266801261478978776245040008231745247475930553606737583615358787106474295296, 336, 1, 528294531135665246352339784916516606518847326036121522127960709026673902556724859474417255887657187894674394993257128678882347559502685537250538978462939576908386683999005084168731517676426441053024232908211188404148028292751561738838396898767036476489538580897737998336, 344, 1, 247330401473104534060502521019647190035131349101211839914063056092897225106531867170316401061243044989597671426016139339351365034306751209967546155101893167916606772148699136, 352, 1, 4562440617622195218641171605700291324893228507248559930579192517899275167208677386505912811317371399778642309573594407310688704721375437998252661319722214188251994674360264950082874192246603776, 360, 1, 84162174424773976115855838126082058648805436845170781751972494449099714468753293153818664580441415219631727501698851483408310916002940861810045036330430093599283578738055113571066620126149163476340692027772502016, 368, 1, 1552518092300708935148979488462502555256886017116696611139052038026050952686376886330878408828646477950487730697131073206171580044114814391444287275041181139204454976020849905550265285631598444825262999193716468750892846853816057856, 376, 1, 28638903918474961204418783933674838490721739172170652529441449702311064005352904159345284265824628375429359509218999720074396860757073376700445026041564579620512874307979212102266801261478978776245040008231745247475930553606737583615358787106474295296, 388, 1, 528294531135665246352339784916516606518847326036121522127960709026673902556724859474417255887657187894674394993257128678882347559502685537250538978462939576908386683999005084168731517676426441053024232908211188404148028292751561738838396898767036476489538580897737998336])), (12, (dd [296, 1, 4562440617622195218641171605700291324893228507248559930579192517899275167208677386505912811317371399778642309573594407310688704721375437998252661319722214188251994674360264950082874192246603776, 304, 1, 84162174424773976115855838126082058648805436845170781751972494449099714468753293153818664580441415219631727501698851483408310916002940861810045036330430093599283578738055113571066620126149163476340692027772502016, 312, 1, 1552518092300708935148979488462502555256886017116696611139052038026050952686376886330878408828646477950487730697131073206171580044114814391444287275041181139204454976020849905550265285631598444825262999193716468750892846853816057856, 320, 1, 28638903918474961204418783933674838490721739172170652529441449702311064005352904159345284265824628375429359509218999720074396860757073376700445026041564579620512874307979212102266801261478978776245040008231745247475930553606737583615358787106474295296, 328, 1, 528294531135665246352339784916516606518847326036121522127960709026673902556724859474417255887657187894674394993257128678882347559502685537250538978462939576908386683999005084168731517676426441053024232908211188404148028292751561738838396898767036476489538580897737998336, 336, 1, 9745314011399999080353382387875188310876226857595007526867906457212948690766426102465615065882010259225304916231408668183459169865203094046577987296312653419531277699956473029870789655490053648352799593479218378873685597925394874945746363615468965612827738803104277547081828589991914110976, 344, 1, 4562440617622195218641171605700291324893228507248559930579192517899275167208677386505912811317371399778642309573594407310688704721375437998252661319722214188251994674360264950082874192246603776, 352, 1, 84162174424773976115855838126082058648805436845170781751972494449099714468753293153818664580441415219631727501698851483408310916002940861810045036330430093599283578738055113571066620126149163476340692027772502016, 360, 1, 1552518092300708935148979488462502555256886017116696611139052038026050952686376886330878408828646477950487730697131073206171580044114814391444287275041181139204454976020849905550265285631598444825262999193716468750892846853816057856, 368, 1, 28638903918474961204418783933674838490721739172170652529441449702311064005352904159345284265824628375429359509218999720074396860757073376700445026041564579620512874307979212102266801261478978776245040008231745247475930553606737583615358787106474295296, 376, 1, 528294531135665246352339784916516606518847326036121522127960709026673902556724859474417255887657187894674394993257128678882347559502685537250538978462939576908386683999005084168731517676426441053024232908211188404148028292751561738838396898767036476489538580897737998336, 388, 1, 9745314011399999080353382387875188310876226857595007526867906457212948690766426102465615065882010259225304916231408668183459169865203094046577987296312653419531277699956473029870789655490053648352799593479218378873685597925394874945746363615468965612827738803104277547081828589991914110976])), (11, (dd [296, 1, 84162174424773976115855838126082058648805436845170781751972494449099714468753293153818664580441415219631727501698851483408310916002940861810045036330430093599283578738055113571066620126149163476340692027772502016, 304, 1, 1552518092300708935148979488462502555256886017116696611139052038026050952686376886330878408828646477950487730697131073206171580044114814391444287275041181139204454976020849905550265285631598444825262999193716468750892846853816057856, 312, 1, 28638903918474961204418783933674838490721739172170652529441449702311064005352904159345284265824628375429359509218999720074396860757073376700445026041564579620512874307979212102266801261478978776245040008231745247475930553606737583615358787106474295296, 320, 1, 528294531135665246352339784916516606518847326036121522127960709026673902556724859474417255887657187894674394993257128678882347559502685537250538978462939576908386683999005084168731517676426441053024232908211188404148028292751561738838396898767036476489538580897737998336, 328, 1, 9745314011399999080353382387875188310876226857595007526867906457212948690766426102465615065882010259225304916231408668183459169865203094046577987296312653419531277699956473029870789655490053648352799593479218378873685597925394874945746363615468965612827738803104277547081828589991914110976, 336, 1, 179769313486231590772930519078902473361797697894230657273430081157732675805500963132708477322407536021120113879871393357658789768814416622492847430639474124377767893424865485276302219601246094119453082952085005768838150682342462881473913110540827237163350510684586298239947245938479716304835356329624224137216, 344, 1, 84162174424773976115855838126082058648805436845170781751972494449099714468753293153818664580441415219631727501698851483408310916002940861810045036330430093599283578738055113571066620126149163476340692027772502016, 352, 1, 1552518092300708935148979488462502555256886017116696611139052038026050952686376886330878408828646477950487730697131073206171580044114814391444287275041181139204454976020849905550265285631598444825262999193716468750892846853816057856, 360, 1, 28638903918474961204418783933674838490721739172170652529441449702311064005352904159345284265824628375429359509218999720074396860757073376700445026041564579620512874307979212102266801261478978776245040008231745247475930553606737583615358787106474295296, 368, 1, 528294531135665246352339784916516606518847326036121522127960709026673902556724859474417255887657187894674394993257128678882347559502685537250538978462939576908386683999005084168731517676426441053024232908211188404148028292751561738838396898767036476489538580897737998336, 376, 1, 9745314011399999080353382387875188310876226857595007526867906457212948690766426102465615065882010259225304916231408668183459169865203094046577987296312653419531277699956473029870789655490053648352799593479218378873685597925394874945746363615468965612827738803104277547081828589991914110976, 388, 1, 179769313486231590772930519078902473361797697894230657273430081157732675805500963132708477322407536021120113879871393357658789768814416622492847430639474124377767893424865485276302219601246094119453082952085005768838150682342462881473913110540827237163350510684586298239947245938479716304835356329624224137216])), (10, (dd [1192, 1, 39402006196394479212279040100143613805079739270465446667948293404245721771497210611414266254884915640806627990306816, 1208, 1, 726838724295606890549323807888004534353641360687318060281490199180639288113397923326191050713763565560762521606266177933534601628614656, 1224, 1, 13407807929942597099574024998205846127479365820592393377723561443721764030073546976801874298166903427690031858186486050853753882811946569946433649006084096, 1240, 1, 247330401473104534060502521019647190035131349101211839914063056092897225106531867170316401061243044989597671426016139339351365034306751209967546155101893167916606772148699136, 1256, 1, 4562440617622195218641171605700291324893228507248559930579192517899275167208677386505912811317371399778642309573594407310688704721375437998252661319722214188251994674360264950082874192246603776, 1265, 1, 1552518092300708935148979488462502555256886017116696611139052038026050952686376886330878408828646477950487730697131073206171580044114814391444287275041181139204454976020849905550265285631598444825262999193716468750892846853816057856, 1272, 1, 84162174424773976115855838126082058648805436845170781751972494449099714468753293153818664580441415219631727501698851483408310916002940861810045036330430093599283578738055113571066620126149163476340692027772502016])), (9, (dd [1192, 1, 726838724295606890549323807888004534353641360687318060281490199180639288113397923326191050713763565560762521606266177933534601628614656, 1208, 1, 13407807929942597099574024998205846127479365820592393377723561443721764030073546976801874298166903427690031858186486050853753882811946569946433649006084096, 1224, 1, 247330401473104534060502521019647190035131349101211839914063056092897225106531867170316401061243044989597671426016139339351365034306751209967546155101893167916606772148699136, 1240, 1, 4562440617622195218641171605700291324893228507248559930579192517899275167208677386505912811317371399778642309573594407310688704721375437998252661319722214188251994674360264950082874192246603776, 1256, 1, 84162174424773976115855838126082058648805436845170781751972494449099714468753293153818664580441415219631727501698851483408310916002940861810045036330430093599283578738055113571066620126149163476340692027772502016, 1265, 1, 28638903918474961204418783933674838490721739172170652529441449702311064005352904159345284265824628375429359509218999720074396860757073376700445026041564579620512874307979212102266801261478978776245040008231745247475930553606737583615358787106474295296, 1272, 1, 1552518092300708935148979488462502555256886017116696611139052038026050952686376886330878408828646477950487730697131073206171580044114814391444287275041181139204454976020849905550265285631598444825262999193716468750892846853816057856])), (8, (dd [1192, 1, 13407807929942597099574024998205846127479365820592393377723561443721764030073546976801874298166903427690031858186486050853753882811946569946433649006084096, 1208, 1, 247330401473104534060502521019647190035131349101211839914063056092897225106531867170316401061243044989597671426016139339351365034306751209967546155101893167916606772148699136, 1224, 1, 4562440617622195218641171605700291324893228507248559930579192517899275167208677386505912811317371399778642309573594407310688704721375437998252661319722214188251994674360264950082874192246603776, 1240, 1, 84162174424773976115855838126082058648805436845170781751972494449099714468753293153818664580441415219631727501698851483408310916002940861810045036330430093599283578738055113571066620126149163476340692027772502016, 1256, 1, 1552518092300708935148979488462502555256886017116696611139052038026050952686376886330878408828646477950487730697131073206171580044114814391444287275041181139204454976020849905550265285631598444825262999193716468750892846853816057856, 1265, 1, 528294531135665246352339784916516606518847326036121522127960709026673902556724859474417255887657187894674394993257128678882347559502685537250538978462939576908386683999005084168731517676426441053024232908211188404148028292751561738838396898767036476489538580897737998336, 1272, 1, 28638903918474961204418783933674838490721739172170652529441449702311064005352904159345284265824628375429359509218999720074396860757073376700445026041564579620512874307979212102266801261478978776245040008231745247475930553606737583615358787106474295296])), (7, (dd [1192, 1, 247330401473104534060502521019647190035131349101211839914063056092897225106531867170316401061243044989597671426016139339351365034306751209967546155101893167916606772148699136, 1208, 1, 4562440617622195218641171605700291324893228507248559930579192517899275167208677386505912811317371399778642309573594407310688704721375437998252661319722214188251994674360264950082874192246603776, 1224, 1, 84162174424773976115855838126082058648805436845170781751972494449099714468753293153818664580441415219631727501698851483408310916002940861810045036330430093599283578738055113571066620126149163476340692027772502016, 1240, 1, 1552518092300708935148979488462502555256886017116696611139052038026050952686376886330878408828646477950487730697131073206171580044114814391444287275041181139204454976020849905550265285631598444825262999193716468750892846853816057856, 1256, 1, 28638903918474961204418783933674838490721739172170652529441449702311064005352904159345284265824628375429359509218999720074396860757073376700445026041564579620512874307979212102266801261478978776245040008231745247475930553606737583615358787106474295296, 1265, 1, 9745314011399999080353382387875188310876226857595007526867906457212948690766426102465615065882010259225304916231408668183459169865203094046577987296312653419531277699956473029870789655490053648352799593479218378873685597925394874945746363615468965612827738803104277547081828589991914110976, 1272, 1, 528294531135665246352339784916516606518847326036121522127960709026673902556724859474417255887657187894674394993257128678882347559502685537250538978462939576908386683999005084168731517676426441053024232908211188404148028292751561738838396898767036476489538580897737998336])), (6, (dd [1192, 1, 4562440617622195218641171605700291324893228507248559930579192517899275167208677386505912811317371399778642309573594407310688704721375437998252661319722214188251994674360264950082874192246603776, 1208, 1, 84162174424773976115855838126082058648805436845170781751972494449099714468753293153818664580441415219631727501698851483408310916002940861810045036330430093599283578738055113571066620126149163476340692027772502016, 1224, 1, 1552518092300708935148979488462502555256886017116696611139052038026050952686376886330878408828646477950487730697131073206171580044114814391444287275041181139204454976020849905550265285631598444825262999193716468750892846853816057856, 1240, 1, 28638903918474961204418783933674838490721739172170652529441449702311064005352904159345284265824628375429359509218999720074396860757073376700445026041564579620512874307979212102266801261478978776245040008231745247475930553606737583615358787106474295296, 1256, 1, 528294531135665246352339784916516606518847326036121522127960709026673902556724859474417255887657187894674394993257128678882347559502685537250538978462939576908386683999005084168731517676426441053024232908211188404148028292751561738838396898767036476489538580897737998336, 1265, 1, 179769313486231590772930519078902473361797697894230657273430081157732675805500963132708477322407536021120113879871393357658789768814416622492847430639474124377767893424865485276302219601246094119453082952085005768838150682342462881473913110540827237163350510684586298239947245938479716304835356329624224137216, 1272, 1, 9745314011399999080353382387875188310876226857595007526867906457212948690766426102465615065882010259225304916231408668183459169865203094046577987296312653419531277699956473029870789655490053648352799593479218378873685597925394874945746363615468965612827738803104277547081828589991914110976])), (5, (dd [1192, 1, 84162174424773976115855838126082058648805436845170781751972494449099714468753293153818664580441415219631727501698851483408310916002940861810045036330430093599283578738055113571066620126149163476340692027772502016, 1208, 1, 1552518092300708935148979488462502555256886017116696611139052038026050952686376886330878408828646477950487730697131073206171580044114814391444287275041181139204454976020849905550265285631598444825262999193716468750892846853816057856, 1224, 1, 28638903918474961204418783933674838490721739172170652529441449702311064005352904159345284265824628375429359509218999720074396860757073376700445026041564579620512874307979212102266801261478978776245040008231745247475930553606737583615358787106474295296, 1240, 1, 528294531135665246352339784916516606518847326036121522127960709026673902556724859474417255887657187894674394993257128678882347559502685537250538978462939576908386683999005084168731517676426441053024232908211188404148028292751561738838396898767036476489538580897737998336, 1256, 1, 9745314011399999080353382387875188310876226857595007526867906457212948690766426102465615065882010259225304916231408668183459169865203094046577987296312653419531277699956473029870789655490053648352799593479218378873685597925394874945746363615468965612827738803104277547081828589991914110976, 1265, 1, 3316158518186977171087283760642741158699936149735704467159471849921418683482035763477878926564345847729145083728966646356210626353328840324989147544629059746554141479347263264595425816446455256534872353644097455203319930608430165174159005378955830171087831965898486080345430665055936553487340789901656166618033483630075818541056, 1272, 1, 179769313486231590772930519078902473361797697894230657273430081157732675805500963132708477322407536021120113879871393357658789768814416622492847430639474124377767893424865485276302219601246094119453082952085005768838150682342462881473913110540827237163350510684586298239947245938479716304835356329624224137216])), (4, (dd [0, 0, 61172327492847069472032393719205726809135813743440799050195397570919697796091958321786863938157971792315844506873509046544459008355036150650333616890210625686064472971480622053109783197015954399612052812141827922088117778074833698589048132156300022844899841969874763871624802603515651998113045708569927237462546233168834543264678118409417047146496])), (3, (dd [0, 1, 61172327492847069472032393719205726809135813743440799050195397570919697796091958321786863938157971792315844506873507494026366707646101001670845154387655368800047356274869483001071757146063268022725721933732999275610167290344136567515841960576255908030508397682599722690485598148539631148207495443284295639017720970169640826795927225562563231088640])), (2, (dd [0, 0, 130663298481829608781738534421774961030200182945768642515226446184482290784132935865436050618383918932278269554657625508400688138365595703382562657404425275557348248724717550257727689638715220714355650140958180795462349722683077302512750771833202835918569799146560015356188012912736956993487946644801753378650481532430297139549742706025831367695646403140013281637046295318201839515909463745915961557648824940027163951144340853178446023114096640])), (1, (dd [0, 0, 130663298481829608781738534421774961030200182945768642515226446184482290784132935865436050618383918932278269554657625508400688138365595703382562657404425275557348248724717550257727689638715220714355650140958180795462349722683077302512750771833202835918569799146560015356188012912736956993487946644801753378650481532430297139549742706025831367695646403140013281637046295318201839515909463745915961557648824940027163951144340853178446023114096640])), (0, (dd [0, 0, 61172327492847069472032393719205726809135813743440799050195397570919697796091958321786863938157971792315844506873509046544459008355036150650333616890210625686064472971480622053109783197015954399612052812141827922088117778074833698589048132156300022844899841969874763871624802603515651998113045708569927237462546233168834543264678118409417047146496]))] = true := by decide +kernel

def C.mul_xy : Cert where
  S := ⟨[35], [24, 12], [.arr 0, .arr 1, .arr 1], 0⟩
  anns := [a0, a0, a0, a0, a0, a0, a0, a0, a0, a0, a2, a2, a2, a2, a2, a2, a0, a0, a0, a0, a0, a0, a1, a0, a0, a0, a0, a0, a0, a0, a2, a2, a2, a2, a2, a2, a0, a0, a0, a0, a0, a0, a1, a0, a0, a0, a0, a0, a0, a0, a0, a0, a0, a0, a0, a1, a0, a0, a0, a0, a0, a0, a1, a0, a0, a0, a0, a0, a0, a1, a0, a0, a0, a0, a0, a1, a0, a0, a0, a0, a1, a0, a0, a0, a0, a0, a1, a0, a0, a0, a0, a1, a0, a0, a0, a0, a1, a0, a0, a0, a0, a0, a0, a1, a0, a0, a0, a0, a0, a1, a0, a0, a0, a0, a1, a0, a0, a0, a0, a0, a1, a0, a0, a0, a0, a1, a0, a0, a0, a0, a0, a0, a1, a0, a0, a0, a0, a0, a1, a0, a0, a0, a0, a1, a0, a0, a0, a0, a1, a0, a0, a0, a0, a1, a0, a0, a0, a0, a1, a0, a0, a0, a0, a0, a0, a1, a0, a0, a0, a0, a0, a1, a0, a0, a0, a0, a1, a0, a0, a0, a0, a1, a0, a0, a0, a0, a0, a1, a0, a0, a0, a0, a0, a1, a0, a0, a0, a0, a0, a1, a0, a0, a0, a0, a1, a0, a0, a0, a0, a1, a0, a0, a0, a0, a0, a1, a0, a0, a0, a0, a0, a1, a0, a0, a0, a0, a1, a0, a0, a0, a0, a0, a1, a0, a0, a0, a0, a0, a1, a0, a0, a0, a0, a1, a0, a0, a0, a0, a0, a0, a0, a0, a0, a0, a0, a0, a0, a0, a0, a0, a0, a0, a0, a0, a0, a0, a0, a0, a0, a0, a0, a0, a0, a0, a0, a0, a0, a0, a0, a0, a0, a0, a0, a0, a0, a0, a0, a0, a0, a0, a0, a0, a0, a0, a0, a0, a0, a0, a0, a0, a0, a0, a0, a0, a0, a0, a0, a0, a0, a0, a0, a1, a0, a0, a0, a0, a0, a0, a0, a1, a0, a0, a0, a0, a0, a1, a0, a0, a0, a0, a0, a1, a0, a0, a0, a0, a0, a1, a0, a0, a0, a0, a0, a1, a0, a0, a0, a0, a1, a0, a0, a0, a0, a1, a0, a0, a0, a0, a0, a0, a1, a0, a0, a0, a0, a0, a1, a0, a0, a0, a0, a1, a0, a0, a0, a0, a1, a0, a0, a0, a0, a1, a0, a0, a0, a0, a0, a0, a1, a0, a0, a0, a0, a0, a1, a0, a0, a0, a0, a1, a0, a0, a0, a0, a1, a0, a0, a0, a0, a0, a1, a0, a0, a0, a0, a1, a0, a0, a0, a0, a0, a0, a1, a0, a0, a0, a0, a0, a1, a0, a0, a0, a0, a1, a0, a0, a0, a0, a1, a0, a0, a0, a0, a1, a0, a0, a0, a0, a0, a1, a0, a0, a0, a0, a0, a1, a0, a0, a0, a0, a1, a0, a0, a0, a0, a1, a0, a0, a0, a0, a0, a1, a0, a0, a0, a0, a0, a1, a0, a0, a0, a0, a1, a0, a0, a0, a0, a0, a1, a0, a0, a0, a0, a0, a1, a0, a0, a0, a0, a0, a1, a0, a0, a0, a0, a0, a0, a0, a0, a0, a0, a0, a0, a0, a0, a0, a0, a1, a0, a0, a0, a0, a0, a0, a1, a0, a0, a0, a0, a0, a1, a0, a0, a0, a0, a0, a1, a0, a0, a0, a0, a0, a1, a0, a0, a0, a0, a0, a1, a0, a0, a0, a0, a1, a0, a0, a0, a0, a1, a0, a0, a0, a0, a0, a0, a1, a0, a0, a0, a0, a0, a1, a0, a0, a0, a0, a1, a0, a0, a0, a0, a0, a1, a0, a0, a0, a0, a1, a0, a0, a0, a0, a0, a0, a1, a0, a0, a0, a0, a0, a1, a0, a0, a0, a0, a1, a0, a0, a0, a0, a1, a0, a0, a0, a0, a0, a1, a0, a0, a0, a0, a1, a0, a0, a0, a0, a0, a1, a0, a0, a0, a0, a0, a1, a0, a0, a0, a0, a1, a0, a0, a0, a0, a1, a0, a0, a0, a0, a1, a0, a0, a0, a0, a0, a1, a0, a0, a0, a0, a0, a1, a0, a0, a0, a0, a1, a0, a0, a0, a0, a1, a0, a0, a0, a0, a0, a1, a0, a0, a0, a0, a0, a1, a0, a0, a0, a0, a1, a0, a0, a0, a0, a0, a1, a0, a0, a0, a0, a0, a0, a0, a0, a0, a0, a0, a0, a0, a1, a0, a0, a0, a0, a0, a0, a0, a0, a0, a0, a0, a0, a0, a0, a0, a0, a0, a0, a0, a0, a0, a0, a0, a0, a0, a0, a0, a0, a0, a0, a0, a0, a0, a0, a0, a0, a0, a0, a0, a0, a0, a0, a0, a0, a0, a0, a0, a0, a0, a0, a0, a0, a0, a0, a0, a0, a0, a0, a0, a0, a0, a0, a0, a0, a0, a0, a0, a0, a0, a0, a0, a0, a0, a0, a0, a0, a0, a0, a0, a0, a0, a0, a0, a0, a0, a0, a0, a0, a0, a0, a0, a0]
  hints := [⟨[391, 371, 355, 343, 335, 331, 330], (dd [4977, 0, 1]), []⟩, ⟨[240, 220, 204, 192, 184, 180, 179], (dd [9105, 0, 1]), []⟩, ⟨[49, 48], (dd [12177, 0, 1]), []⟩, ⟨[53, 46, 45], (dd [12257, 0, 1]), [(0, (dd [0, 0, 6277101735386680763835789423207666416102355444464034512896]))]⟩, ⟨[29, 28, 27, 26, 25, 24, 23, 22, 21, 20, 19, 18], (dd [5249, 0, 1, 5745, 0, 1, 12737, 1, 1, 13137, 1, 1, 82904625, 0, 1]), [(15, (dd [200, 1, 1, 208, 1, 18446744073709551616, 216, 1, 340282366920938463463374607431768211456, 224, 1, 6277101735386680763835789423207666416102355444464034512896, 232, 1, 115792089237316195423570985008687907853269984665640564039457584007913129639936, 240, 1, 2135987035920910082395021706169552114602704522356652769947041607822219725780640550022962086936576, 248, 1, 1, 256, 1, 18446744073709551616, 264, 1, 340282366920938463463374607431768211456, 272, 1, 6277101735386680763835789423207666416102355444464034512896, 280, 1, 115792089237316195423570985008687907853269984665640564039457584007913129639936, 292, 1, 2135987035920910082395021706169552114602704522356652769947041607822219725780640550022962086936576])), (14, (dd [200, 1, 18446744073709551616, 208, 1, 340282366920938463463374607431768211456, 216, 1, 6277101735386680763835789423207666416102355444464034512896, 224, 1, 115792089237316195423570985008687907853269984665640564039457584007913129639936, 232, 1, 2135987035920910082395021706169552114602704522356652769947041607822219725780640550022962086936576, 240, 1, 39402006196394479212279040100143613805079739270465446667948293404245721771497210611414266254884915640806627990306816, 248, 1, 18446744073709551616, 256, 1, 340282366920938463463374607431768211456, 264, 1, 6277101735386680763835789423207666416102355444464034512896, 272, 1, 115792089237316195423570985008687907853269984665640564039457584007913129639936, 280, 1, 2135987035920910082395021706169552114602704522356652769947041607822219725780640550022962086936576, 292, 1, 39402006196394479212279040100143613805079739270465446667948293404245721771497210611414266254884915640806627990306816])), (13, (dd [200, 1, 340282366920938463463374607431768211456, 208, 1, 6277101735386680763835789423207666416102355444464034512896, 216, 1, 115792089237316195423570985008687907853269984665640564039457584007913129639936, 224, 1, 2135987035920910082395021706169552114602704522356652769947041607822219725780640550022962086936576, 232, 1, 39402006196394479212279040100143613805079739270465446667948293404245721771497210611414266254884915640806627990306816, 240, 1, 726838724295606890549323807888004534353641360687318060281490199180639288113397923326191050713763565560762521606266177933534601628614656, 248, 1, 340282366920938463463374607431768211456, 256, 1, 6277101735386680763835789423207666416102355444464034512896, 264, 1, 115792089237316195423570985008687907853269984665640564039457584007913129639936, 272, 1, 2135987035920910082395021706169552114602704522356652769947041607822219725780640550022962086936576, 280, 1, 39402006196394479212279040100143613805079739270465446667948293404245721771497210611414266254884915640806627990306816, 292, 1, 726838724295606890549323807888004534353641360687318060281490199180639288113397923326191050713763565560762521606266177933534601628614656])), (12, (dd [200, 1, 6277101735386680763835789423207666416102355444464034512896, 208, 1, 115792089237316195423570985008687907853269984665640564039457584007913129639936, 216, 1, 2135987035920910082395021706169552114602704522356652769947041607822219725780640550022962086936576, 224, 1, 39402006196394479212279040100143613805079739270465446667948293404245721771497210611414266254884915640806627990306816, 232, 1, 726838724295606890549323807888004534353641360687318060281490199180639288113397923326191050713763565560762521606266177933534601628614656, 240, 1, 13407807929942597099574024998205846127479365820592393377723561443721764030073546976801874298166903427690031858186486050853753882811946569946433649006084096, 248, 1, 6277101735386680763835789423207666416102355444464034512896, 256, 1, 115792089237316195423570985008687907853269984665640564039457584007913129639936, 264, 1, 2135987035920910082395021706169552114602704522356652769947041607822219725780640550022962086936576, 272, 1, 39402006196394479212279040100143613805079739270465446667948293404245721771497210611414266254884915640806627990306816, 280, 1, 726838724295606890549323807888004534353641360687318060281490199180639288113397923326191050713763565560762521606266177933534601628614656, 292, 1, 13407807929942597099574024998205846127479365820592393377723561443721764030073546976801874298166903427690031858186486050853753882811946569946433649006084096])), (11, (dd [200, 1, 115792089237316195423570985008687907853269984665640564039457584007913129639936, 208, 1, 2135987035920910082395021706169552114602704522356652769947041607822219725780640550022962086936576, 216, 1, 39402006196394479212279040100143613805079739270465446667948293404245721771497210611414266254884915640806627990306816, 224, 1, 726838724295606890549323807888004534353641360687318060281490199180639288113397923326191050713763565560762521606266177933534601628614656, 232, 1, 13407807929942597099574024998205846127479365820592393377723561443721764030073546976801874298166903427690031858186486050853753882811946569946433649006084096, 240, 1, 247330401473104534060502521019647190035131349101211839914063056092897225106531867170316401061243044989597671426016139339351365034306751209967546155101893167916606772148699136, 248, 1, 115792089237316195423570985008687907853269984665640564039457584007913129639936, 256, 1, 2135987035920910082395021706169552114602704522356652769947041607822219725780640550022962086936576, 264, 1, 39402006196394479212279040100143613805079739270465446667948293404245721771497210611414266254884915640806627990306816, 272, 1, 726838724295606890549323807888004534353641360687318060281490199180639288113397923326191050713763565560762521606266177933534601628614656, 280, 1, 13407807929942597099574024998205846127479365820592393377723561443721764030073546976801874298166903427690031858186486050853753882811946569946433649006084096, 292, 1, 247330401473104534060502521019647190035131349101211839914063056092897225106531867170316401061243044989597671426016139339351365034306751209967546155101893167916606772148699136])), (10, (dd [200, 1, 2135987035920910082395021706169552114602704522356652769947041607822219725780640550022962086936576, 208, 1, 39402006196394479212279040100143613805079739270465446667948293404245721771497210611414266254884915640806627990306816, 216, 1, 726838724295606890549323807888004534353641360687318060281490199180639288113397923326191050713763565560762521606266177933534601628614656, 224, 1, 13407807929942597099574024998205846127479365820592393377723561443721764030073546976801874298166903427690031858186486050853753882811946569946433649006084096, 232, 1, 247330401473104534060502521019647190035131349101211839914063056092897225106531867170316401061243044989597671426016139339351365034306751209967546155101893167916606772148699136, 240, 1, 4562440617622195218641171605700291324893228507248559930579192517899275167208677386505912811317371399778642309573594407310688704721375437998252661319722214188251994674360264950082874192246603776, 248, 1, 2135987035920910082395021706169552114602704522356652769947041607822219725780640550022962086936576, 256, 1, 39402006196394479212279040100143613805079739270465446667948293404245721771497210611414266254884915640806627990306816, 264, 1, 726838724295606890549323807888004534353641360687318060281490199180639288113397923326191050713763565560762521606266177933534601628614656, 272, 1, 13407807929942597099574024998205846127479365820592393377723561443721764030073546976801874298166903427690031858186486050853753882811946569946433649006084096, 280, 1, 247330401473104534060502521019647190035131349101211839914063056092897225106531867170316401061243044989597671426016139339351365034306751209967546155101893167916606772148699136, 292, 1, 4562440617622195218641171605700291324893228507248559930579192517899275167208677386505912811317371399778642309573594407310688704721375437998252661319722214188251994674360264950082874192246603776])), (9, (dd [1192, 1, 1, 1208, 1, 18446744073709551616, 1224, 1, 340282366920938463463374607431768211456, 1240, 1, 6277101735386680763835789423207666416102355444464034512896, 1256, 1, 115792089237316195423570985008687907853269984665640564039457584007913129639936, 1265, 1, 39402006196394479212279040100143613805079739270465446667948293404245721771497210611414266254884915640806627990306816, 1272, 1, 2135987035920910082395021706169552114602704522356652769947041607822219725780640550022962086936576])), (8, (dd [1192, 1, 18446744073709551616, 1208, 1, 340282366920938463463374607431768211456, 1224, 1, 6277101735386680763835789423207666416102355444464034512896, 1240, 1, 115792089237316195423570985008687907853269984665640564039457584007913129639936, 1256, 1, 2135987035920910082395021706169552114602704522356652769947041607822219725780640550022962086936576, 1265, 1, 726838724295606890549323807888004534353641360687318060281490199180639288113397923326191050713763565560762521606266177933534601628614656, 1272, 1, 39402006196394479212279040100143613805079739270465446667948293404245721771497210611414266254884915640806627990306816])), (7, (dd [1192, 1, 340282366920938463463374607431768211456, 1208, 1, 6277101735386680763835789423207666416102355444464034512896, 1224, 1, 115792089237316195423570985008687907853269984665640564039457584007913129639936, 1240, 1, 2135987035920910082395021706169552114602704522356652769947041607822219725780640550022962086936576, 1256, 1, 39402006196394479212279040100143613805079739270465446667948293404245721771497210611414266254884915640806627990306816, 1265, 1, 13407807929942597099574024998205846127479365820592393377723561443721764030073546976801874298166903427690031858186486050853753882811946569946433649006084096, 1272, 1, 726838724295606890549323807888004534353641360687318060281490199180639288113397923326191050713763565560762521606266177933534601628614656])), (6, (dd [1192, 1, 6277101735386680763835789423207666416102355444464034512896, 1208, 1, 115792089237316195423570985008687907853269984665640564039457584007913129639936, 1224, 1, 2135987035920910082395021706169552114602704522356652769947041607822219725780640550022962086936576, 1240, 1, 39402006196394479212279040100143613805079739270465446667948293404245721771497210611414266254884915640806627990306816, 1256, 1, 726838724295606890549323807888004534353641360687318060281490199180639288113397923326191050713763565560762521606266177933534601628614656, 1265, 1, 247330401473104534060502521019647190035131349101211839914063056092897225106531867170316401061243044989597671426016139339351365034306751209967546155101893167916606772148699136, 1272, 1, 13407807929942597099574024998205846127479365820592393377723561443721764030073546976801874298166903427690031858186486050853753882811946569946433649006084096])), (5, (dd [1192, 1, 115792089237316195423570985008687907853269984665640564039457584007913129639936, 1208, 1, 2135987035920910082395021706169552114602704522356652769947041607822219725780640550022962086936576, 1224, 1, 39402006196394479212279040100143613805079739270465446667948293404245721771497210611414266254884915640806627990306816, 1240, 1, 726838724295606890549323807888004534353641360687318060281490199180639288113397923326191050713763565560762521606266177933534601628614656, 1256, 1, 13407807929942597099574024998205846127479365820592393377723561443721764030073546976801874298166903427690031858186486050853753882811946569946433649006084096, 1265, 1, 4562440617622195218641171605700291324893228507248559930579192517899275167208677386505912811317371399778642309573594407310688704721375437998252661319722214188251994674360264950082874192246603776, 1272, 1, 247330401473104534060502521019647190035131349101211839914063056092897225106531867170316401061243044989597671426016139339351365034306751209967546155101893167916606772148699136])), (4, (dd [1192, 1, 2135987035920910082395021706169552114602704522356652769947041607822219725780640550022962086936576, 1208, 1, 39402006196394479212279040100143613805079739270465446667948293404245721771497210611414266254884915640806627990306816, 1224, 1, 726838724295606890549323807888004534353641360687318060281490199180639288113397923326191050713763565560762521606266177933534601628614656, 1240, 1, 13407807929942597099574024998205846127479365820592393377723561443721764030073546976801874298166903427690031858186486050853753882811946569946433649006084096, 1256, 1, 247330401473104534060502521019647190035131349101211839914063056092897225106531867170316401061243044989597671426016139339351365034306751209967546155101893167916606772148699136, 1265, 1, 84162174424773976115855838126082058648805436845170781751972494449099714468753293153818664580441415219631727501698851483408310916002940861810045036330430093599283578738055113571066620126149163476340692027772502016, 1272, 1, 4562440617622195218641171605700291324893228507248559930579192517899275167208677386505912811317371399778642309573594407310688704721375437998252661319722214188251994674360264950082874192246603776])), (3, (dd [0, 0, 1552518092300708935148979488462502555256886017116696611139052038026050952686376886330878408828646477950487730697131073206171580044114814391444287275041181139204454976020849905550265285631598444825262999193716468750892846853816057856])), (2, (dd [0, 1, 1552518092300708935148979488462502555256886017116696611139052038026050952686376886330878408828646477950487730697131073206171580044114814391444287275041181139204454976020849905550265285631598444825262999193716468750892846853816057856])), (1, (dd [0, 1, 84162174424773976115855838126082058648805436845170781751972494449099714468753293153818664580441415219631727501698851483408310916002940861810045036330430093599283578738055113571066620126149163476340692027772502016])), (0, (dd [0, 1, 84162174424773976115855838126082058648805436845170781751972494449099714468753293153818664580441415219631727501698851483408310916002940861810045036330430093599283578738055113571066620126149163476340692027772502016]))]⟩]
  zb := 0
  scratch := []
  keepBP := true

theorem mul_xy_ok : mulChk Model.Asm751.mul C.mul_xy 12 1 1 [(16, (dd [200, 1, 39402006196394479212279040100143613805079739270465446667948293404245721771497210611414266254884915640806627990306816, 208, 1, 726838724295606890549323807888004534353641360687318060281490199180639288113397923326191050713763565560762521606266177933534601628614656, 216, 1, 13407807929942597099574024998205846127479365820592393377723561443721764030073546976801874298166903427690031858186486050853753882811946569946433649006084096, 224, 1, 247330401473104534060502521019647190035131349101211839914063056092897225106531867170316401061243044989597671426016139339351365034306751209967546155101893167916606772148699136, 232, 1, 4562440617622195218641171605700291324893228507248559930579192517899275167208677386505912811317371399778642309573594407310688704721375437998252661319722214188251994674360264950082874192246603776, 240, 1, 84162174424773976115855838126082058648805436845170781751972494449099714468753293153818664580441415219631727501698851483408310916002940861810045036330430093599283578738055113571066620126149163476340692027772502016, 248, 1, 39402006196394479212279040100143613805079739270465446667948293404245721771497210611414266254884915640806627990306816, 256, 1, 726838724295606890549323807888004534353641360687318060281490199180639288113397923326191050713763565560762521606266177933534601628614656, 264, 1, 13407807929942597099574024998205846127479365820592393377723561443721764030073546976801874298166903427690031858186486050853753882811946569946433649006084096, 272, 1, 247330401473104534060502521019647190035131349101211839914063056092897225106531867170316401061243044989597671426016139339351365034306751209967546155101893167916606772148699136, 280, 1, 4562440617622195218641171605700291324893228507248559930579192517899275167208677386505912811317371399778642309573594407310688704721375437998252661319722214188251994674360264950082874192246603776, 292, 1, 84162174424773976115855838126082058648805436845170781751972494449099714468753293153818664580441415219631727501698851483408310916002940861810045036330430093599283578738055113571066620126149163476340692027772502016])), (15, (dd [200, 1, 726838724295606890549323807888004534353641360687318060281490199180639288113397923326191050713763565560762521606266177933534601628614656, 208, 1, 13407807929942597099574024998205846127479365820592393377723561443721764030073546976801874298166903427690031858186486050853753882811946569946433649006084096, 216, 1, 247330401473104534060502521019647190035131349101211839914063056092897225106531867170316401061243044989597671426016139339351365034306751209967546155101893167916606772148699136, 224, 1, 4562440617622195218641171605700291324893228507248559930579192517899275167208677386505912811317371399778642309573594407310688704721375437998252661319722214188251994674360264950082874192246603776, 232, 1, 84162174424773976115855838126082058648805436845170781751972494449099714468753293153818664580441415219631727501698851483408310916002940861810045036330430093599283578738055113571066620126149163476340692027772502016, 240, 1, 1552518092300708935148979488462502555256886017116696611139052038026050952686376886330878408828646477950487730697131073206171580044114814391444287275041181139204454976020849905550265285631598444825262999193716468750892846853816057856, 248, 1, 726838724295606890549323807888004534353641360687318060281490199180639288113397923326191050713763565560762521606266177933534601628614656, 256, 1, 13407807929942597099574024998205846127479365820592393377723561443721764030073546976801874298166903427690031858186486050853753882811946569946433649006084096, 264, 1, 247330401473104534060502521019647190035131349101211839914063056092897225106531867170316401061243044989597671426016139339351365034306751209967546155101893167916606772148699136, 272, 1, 4562440617622195218641171605700291324893228507248559930579192517899275167208677386505912811317371399778642309573594407310688704721375437998252661319722214188251994674360264950082874192246603776, 280, 1, 84162174424773976115855838126082058648805436845170781751972494449099714468753293153818664580441415219631727501698851483408310916002940861810045036330430093599283578738055113571066620126149163476340692027772502016, 292, 1, 1552518092300708935148979488462502555256886017116696611139052038026050952686376886330878408828646477950487730697131073206171580044114814391444287275041181139204454976020849905550265285631598444825262999193716468750892846853816057856])), (14, (dd [200, 1, 13407807929942597099574024998205846127479365820592393377723561443721764030073546976801874298166903427690031858186486050853753882811946569946433649006084096, 208, 1, 247330401473104534060502521019647190035131349101211839914063056092897225106531867170316401061243044989597671426016139339351365034306751209967546155101893167916606772148699136, 216, 1, 4562440617622195218641171605700291324893228507248559930579192517899275167208677386505912811317371399778642309573594407310688704721375437998252661319722214188251994674360264950082874192246603776, 224, 1, 84162174424773976115855838126082058648805436845170781751972494449099714468753293153818664580441415219631727501698851483408310916002940861810045036330430093599283578738055113571066620126149163476340692027772502016, 232, 1, 1552518092300708935148979488462502555256886017116696611139052038026050952686376886330878408828646477950487730697131073206171580044114814391444287275041181139204454976020849905550265285631598444825262999193716468750892846853816057856, 240, 1, 28638903918474961204418783933674838490721739172170652529441449702311064005352904159345284265824628375429359509218999720074396860757073376700445026041564579620512874307979212102266801261478978776245040008231745247475930553606737583615358787106474295296, 248, 1, 13407807929942597099574024998205846127479365820592393377723561443721764030073546976801874298166903427690031858186486050853753882811946569946433649006084096, 256, 1, 247330401473104534060502521019647190035131349101211839914063056092897225106531867170316401061243044989597671426016139339351365034306751209967546155101893167916606772148699136, 264, 1, 4562440617622195218641171605700291324893228507248559930579192517899275167208677386505912811317371399778642309573594407310688704721375437998252661319722214188251994674360264950082874192246603776, 272, 1, 84162174424773976115855838126082058648805436845170781751972494449099714468753293153818664580441415219631727501698851483408310916002940861810045036330430093599283578738055113571066620126149163476340692027772502016, 280, 1, 1552518092300708935148979488462502555256886017116696611139052038026050952686376886330878408828646477950487730697131073206171580044114814391444287275041181139204454976020849905550265285631598444825262999193716468750892846853816057856, 292, 1, 28638903918474961204418783933674838490721739172170652529441449702311064005352904159345284265824628375429359509218999720074396860757073376700445026041564579620512874307979212102266801261478978776245040008231745247475930553606737583615358787106474295296])), (13, (dd [200, 1, 247330401473104534060502521019647190035131349101211839914063056092897225106531867170316401061243044989597671426016139339351365034306751209967546155101893167916606772148699136, 208, 1, 4562440617622195218641171605700291324893228507248559930579192517899275167208677386505912811317371399778642309573594407310688704721375437998252661319722214188251994674360264950082874192246603776, 216, 1, 84162174424773976115855838126082058648805436845170781751972494449099714468753293153818664580441415219631727501698851483408310916002940861810045036330430093599283578738055113571066620126149163476340692027772502016, 224, 1, 1552518092300708935148979488462502555256886017116696611139052038026050952686376886330878408828646477950487730697131073206171580044114814391444287275041181139204454976020849905550265285631598444825262999193716468750892846853816057856, 232, 1, 28638903918474961204418783933674838490721739172170652529441449702311064005352904159345284265824628375429359509218999720074396860757073376700445026041564579620512874307979212102266801261478978776245040008231745247475930553606737583615358787106474295296, 240, 1, 528294531135665246352339784916516606518847326036121522127960709026673902556724859474417255887657187894674394993257128678882347559502685537250538978462939576908386683999005084168731517676426441053024232908211188404148028292751561738838396898767036476489538580897737998336, 248, 1, 247330401473104534060502521019647190035131349101211839914063056092897225106531867170316401061243044989597671426016139339351365034306751209967546155101893167916606772148699136, 256, 1, 4562440617622195218641171605700291324893228507248559930579192517899275167208677386505912811317371399778642309573594407310688704721375437998252661319722214188251994674360264950082874192246603776, 264, 1, 84162174424773976115855838126082058648805436845170781751972494449099714468753293153818664580441415219631727501698851483408310916002940861810045036330430093599283578738055113571066620126149163476340692027772502016, 272, 1, 1552518092300708935148979488462502555256886017116696611139052038026050952686376886330878408828646477950487730697131073206171580044114814391444287275041181139204454976020849905550265285631598444825262999193716468750892846853816057856, 280, 1, 28638903918474961204418783933674838490721739172170652529441449702311064005352904159345284265824628375429359509218999720074396860757073376700445026041564579620512874307979212102266801261478978776245040008231745247475930553606737583615358787106474295296, 292, 1, 528294531135665246352339784916516606518847326036121522127960709026673902556724859474417255887657187894674394993257128678882347559502685537250538978462939576908386683999005084168731517676426441053024232908211188404148028292751561738838396898767036476489538580897737998336])), (12, (dd [200, 1, 4562440617622195218641171605700291324893228507248559930579192517899275167208677386505912811317371399778642309573594407310688704721375437998252661319722214188251994674360264950082874192246603776, 208, 1, 84162174424773976115855838126082058648805436845170781751972494449099714468753293153818664580441415219631727501698851483408310916002940861810045036330430093599283578738055113571066620126149163476340692027772502016, 216, 1, 1552518092300708935148979488462502555256886017116696611139052038026050952686376886330878408828646477950487730697131073206171580044114814391444287275041181139204454976020849905550265285631598444825262999193716468750892846853816057856, 224, 1, 28638903918474961204418783933674838490721739172170652529441449702311064005352904159345284265824628375429359509218999720074396860757073376700445026041564579620512874307979212102266801261478978776245040008231745247475930553606737583615358787106474295296, 232, 1, 528294531135665246352339784916516606518847326036121522127960709026673902556724859474417255887657187894674394993257128678882347559502685537250538978462939576908386683999005084168731517676426441053024232908211188404148028292751561738838396898767036476489538580897737998336, 240, 1, 9745314011399999080353382387875188310876226857595007526867906457212948690766426102465615065882010259225304916231408668183459169865203094046577987296312653419531277699956473029870789655490053648352799593479218378873685597925394874945746363615468965612827738803104277547081828589991914110976, 248, 1, 4562440617622195218641171605700291324893228507248559930579192517899275167208677386505912811317371399778642309573594407310688704721375437998252661319722214188251994674360264950082874192246603776, 256, 1, 84162174424773976115855838126082058648805436845170781751972494449099714468753293153818664580441415219631727501698851483408310916002940861810045036330430093599283578738055113571066620126149163476340692027772502016, 264, 1, 1552518092300708935148979488462502555256886017116696611139052038026050952686376886330878408828646477950487730697131073206171580044114814391444287275041181139204454976020849905550265285631598444825262999193716468750892846853816057856, 272, 1, 28638903918474961204418783933674838490721739172170652529441449702311064005352904159345284265824628375429359509218999720074396860757073376700445026041564579620512874307979212102266801261478978776245040008231745247475930553606737583615358787106474295296, 280, 1, 528294531135665246352339784916516606518847326036121522127960709026673902556724859474417255887657187894674394993257128678882347559502685537250538978462939576908386683999005084168731517676426441053024232908211188404148028292751561738838396898767036476489538580897737998336, 292, 1, 9745314011399999080353382387875188310876226857595007526867906457212948690766426102465615065882010259225304916231408668183459169865203094046577987296312653419531277699956473029870789655490053648352799593479218378873685597925394874945746363615468965612827738803104277547081828589991914110976])), (11, (dd [200, 1, 84162174424773976115855838126082058648805436845170781751972494449099714468753293153818664580441415219631727501698851483408310916002940861810045036330430093599283578738055113571066620126149163476340692027772502016, 208, 1, 1552518092300708935148979488462502555256886017116696611139052038026050952686376886330878408828646477950487730697131073206171580044114814391444287275041181139204454976020849905550265285631598444825262999193716468750892846853816057856, 216, 1, 28638903918474961204418783933674838490721739172170652529441449702311064005352904159345284265824628375429359509218999720074396860757073376700445026041564579620512874307979212102266801261478978776245040008231745247475930553606737583615358787106474295296, 224, 1, 528294531135665246352339784916516606518847326036121522127960709026673902556724859474417255887657187894674394993257128678882347559502685537250538978462939576908386683999005084168731517676426441053024232908211188404148028292751561738838396898767036476489538580897737998336, 232, 1, 9745314011399999080353382387875188310876226857595007526867906457212948690766426102465615065882010259225304916231408668183459169865203094046577987296312653419531277699956473029870789655490053648352799593479218378873685597925394874945746363615468965612827738803104277547081828589991914110976, 240, 1, 179769313486231590772930519078902473361797697894230657273430081157732675805500963132708477322407536021120113879871393357658789768814416622492847430639474124377767893424865485276302219601246094119453082952085005768838150682342462881473913110540827237163350510684586298239947245938479716304835356329624224137216, 248, 1, 84162174424773976115855838126082058648805436845170781751972494449099714468753293153818664580441415219631727501698851483408310916002940861810045036330430093599283578738055113571066620126149163476340692027772502016, 256, 1, 1552518092300708935148979488462502555256886017116696611139052038026050952686376886330878408828646477950487730697131073206171580044114814391444287275041181139204454976020849905550265285631598444825262999193716468750892846853816057856, 264, 1, 28638903918474961204418783933674838490721739172170652529441449702311064005352904159345284265824628375429359509218999720074396860757073376700445026041564579620512874307979212102266801261478978776245040008231745247475930553606737583615358787106474295296, 272, 1, 528294531135665246352339784916516606518847326036121522127960709026673902556724859474417255887657187894674394993257128678882347559502685537250538978462939576908386683999005084168731517676426441053024232908211188404148028292751561738838396898767036476489538580897737998336, 280, 1, 9745314011399999080353382387875188310876226857595007526867906457212948690766426102465615065882010259225304916231408668183459169865203094046577987296312653419531277699956473029870789655490053648352799593479218378873685597925394874945746363615468965612827738803104277547081828589991914110976, 292, 1, 179769313486231590772930519078902473361797697894230657273430081157732675805500963132708477322407536021120113879871393357658789768814416622492847430639474124377767893424865485276302219601246094119453082952085005768838150682342462881473913110540827237163350510684586298239947245938479716304835356329624224137216])), (10, (dd [1192, 1, 39402006196394479212279040100143613805079739270465446667948293404245721771497210611414266254884915640806627990306816, 1208, 1, 726838724295606890549323807888004534353641360687318060281490199180639288113397923326191050713763565560762521606266177933534601628614656, 1224, 1, 13407807929942597099574024998205846127479365820592393377723561443721764030073546976801874298166903427690031858186486050853753882811946569946433649006084096, 1240, 1, 247330401473104534060502521019647190035131349101211839914063056092897225106531867170316401061243044989597671426016139339351365034306751209967546155101893167916606772148699136, 1256, 1, 4562440617622195218641171605700291324893228507248559930579192517899275167208677386505912811317371399778642309573594407310688704721375437998252661319722214188251994674360264950082874192246603776, 1265, 1, 1552518092300708935148979488462502555256886017116696611139052038026050952686376886330878408828646477950487730697131073206171580044114814391444287275041181139204454976020849905550265285631598444825262999193716468750892846853816057856, 1272, 1, 84162174424773976115855838126082058648805436845170781751972494449099714468753293153818664580441415219631727501698851483408310916002940861810045036330430093599283578738055113571066620126149163476340692027772502016])), (9, (dd [1192, 1, 726838724295606890549323807888004534353641360687318060281490199180639288113397923326191050713763565560762521606266177933534601628614656, 1208, 1, 13407807929942597099574024998205846127479365820592393377723561443721764030073546976801874298166903427690031858186486050853753882811946569946433649006084096, 1224, 1, 247330401473104534060502521019647190035131349101211839914063056092897225106531867170316401061243044989597671426016139339351365034306751209967546155101893167916606772148699136, 1240, 1, 4562440617622195218641171605700291324893228507248559930579192517899275167208677386505912811317371399778642309573594407310688704721375437998252661319722214188251994674360264950082874192246603776, 1256, 1, 84162174424773976115855838126082058648805436845170781751972494449099714468753293153818664580441415219631727501698851483408310916002940861810045036330430093599283578738055113571066620126149163476340692027772502016, 1265, 1, 28638903918474961204418783933674838490721739172170652529441449702311064005352904159345284265824628375429359509218999720074396860757073376700445026041564579620512874307979212102266801261478978776245040008231745247475930553606737583615358787106474295296, 1272, 1, 1552518092300708935148979488462502555256886017116696611139052038026050952686376886330878408828646477950487730697131073206171580044114814391444287275041181139204454976020849905550265285631598444825262999193716468750892846853816057856])), (8, (dd [1192, 1, 13407807929942597099574024998205846127479365820592393377723561443721764030073546976801874298166903427690031858186486050853753882811946569946433649006084096, 1208, 1, 247330401473104534060502521019647190035131349101211839914063056092897225106531867170316401061243044989597671426016139339351365034306751209967546155101893167916606772148699136, 1224, 1, 4562440617622195218641171605700291324893228507248559930579192517899275167208677386505912811317371399778642309573594407310688704721375437998252661319722214188251994674360264950082874192246603776, 1240, 1, 84162174424773976115855838126082058648805436845170781751972494449099714468753293153818664580441415219631727501698851483408310916002940861810045036330430093599283578738055113571066620126149163476340692027772502016, 1256, 1, 1552518092300708935148979488462502555256886017116696611139052038026050952686376886330878408828646477950487730697131073206171580044114814391444287275041181139204454976020849905550265285631598444825262999193716468750892846853816057856, 1265, 1, 528294531135665246352339784916516606518847326036121522127960709026673902556724859474417255887657187894674394993257128678882347559502685537250538978462939576908386683999005084168731517676426441053024232908211188404148028292751561738838396898767036476489538580897737998336, 1272, 1, 28638903918474961204418783933674838490721739172170652529441449702311064005352904159345284265824628375429359509218999720074396860757073376700445026041564579620512874307979212102266801261478978776245040008231745247475930553606737583615358787106474295296])), (7, (dd [1192, 1, 247330401473104534060502521019647190035131349101211839914063056092897225106531867170316401061243044989597671426016139339351365034306751209967546155101893167916606772148699136, 1208, 1, 4562440617622195218641171605700291324893228507248559930579192517899275167208677386505912811317371399778642309573594407310688704721375437998252661319722214188251994674360264950082874192246603776, 1224, 1, 84162174424773976115855838126082058648805436845170781751972494449099714468753293153818664580441415219631727501698851483408310916002940861810045036330430093599283578738055113571066620126149163476340692027772502016, 1240, 1, 1552518092300708935148979488462502555256886017116696611139052038026050952686376886330878408828646477950487730697131073206171580044114814391444287275041181139204454976020849905550265285631598444825262999193716468750892846853816057856, 1256, 1, 28638903918474961204418783933674838490721739172170652529441449702311064005352904159345284265824628375429359509218999720074396860757073376700445026041564579620512874307979212102266801261478978776245040008231745247475930553606737583615358787106474295296, 1265, 1, 9745314011399999080353382387875188310876226857595007526867906457212948690766426102465615065882010259225304916231408668183459169865203094046577987296312653419531277699956473029870789655490053648352799593479218378873685597925394874945746363615468965612827738803104277547081828589991914110976, 1272, 1, 528294531135665246352339784916516606518847326036121522127960709026673902556724859474417255887657187894674394993257128678882347559502685537250538978462939576908386683999005084168731517676426441053024232908211188404148028292751561738838396898767036476489538580897737998336])), (6, (dd [1192, 1, 4562440617622195218641171605700291324893228507248559930579192517899275167208677386505912811317371399778642309573594407310688704721375437998252661319722214188251994674360264950082874192246603776, 1208, 1, 84162174424773976115855838126082058648805436845170781751972494449099714468753293153818664580441415219631727501698851483408310916002940861810045036330430093599283578738055113571066620126149163476340692027772502016, 1224, 1, 1552518092300708935148979488462502555256886017116696611139052038026050952686376886330878408828646477950487730697131073206171580044114814391444287275041181139204454976020849905550265285631598444825262999193716468750892846853816057856, 1240, 1, 28638903918474961204418783933674838490721739172170652529441449702311064005352904159345284265824628375429359509218999720074396860757073376700445026041564579620512874307979212102266801261478978776245040008231745247475930553606737583615358787106474295296, 1256, 1, 528294531135665246352339784916516606518847326036121522127960709026673902556724859474417255887657187894674394993257128678882347559502685537250538978462939576908386683999005084168731517676426441053024232908211188404148028292751561738838396898767036476489538580897737998336, 1265, 1, 179769313486231590772930519078902473361797697894230657273430081157732675805500963132708477322407536021120113879871393357658789768814416622492847430639474124377767893424865485276302219601246094119453082952085005768838150682342462881473913110540827237163350510684586298239947245938479716304835356329624224137216, 1272, 1, 9745314011399999080353382387875188310876226857595007526867906457212948690766426102465615065882010259225304916231408668183459169865203094046577987296312653419531277699956473029870789655490053648352799593479218378873685597925394874945746363615468965612827738803104277547081828589991914110976])), (5, (dd [1192, 1, 84162174424773976115855838126082058648805436845170781751972494449099714468753293153818664580441415219631727501698851483408310916002940861810045036330430093599283578738055113571066620126149163476340692027772502016, 1208, 1, 1552518092300708935148979488462502555256886017116696611139052038026050952686376886330878408828646477950487730697131073206171580044114814391444287275041181139204454976020849905550265285631598444825262999193716468750892846853816057856, 1224, 1, 28638903918474961204418783933674838490721739172170652529441449702311064005352904159345284265824628375429359509218999720074396860757073376700445026041564579620512874307979212102266801261478978776245040008231745247475930553606737583615358787106474295296, 1240, 1, 528294531135665246352339784916516606518847326036121522127960709026673902556724859474417255887657187894674394993257128678882347559502685537250538978462939576908386683999005084168731517676426441053024232908211188404148028292751561738838396898767036476489538580897737998336, 1256, 1, 9745314011399999080353382387875188310876226857595007526867906457212948690766426102465615065882010259225304916231408668183459169865203094046577987296312653419531277699956473029870789655490053648352799593479218378873685597925394874945746363615468965612827738803104277547081828589991914110976, 1265, 1, 3316158518186977171087283760642741158699936149735704467159471849921418683482035763477878926564345847729145083728966646356210626353328840324989147544629059746554141479347263264595425816446455256534872353644097455203319930608430165174159005378955830171087831965898486080345430665055936553487340789901656166618033483630075818541056, 1272, 1, 179769313486231590772930519078902473361797697894230657273430081157732675805500963132708477322407536021120113879871393357658789768814416622492847430639474124377767893424865485276302219601246094119453082952085005768838150682342462881473913110540827237163350510684586298239947245938479716304835356329624224137216])), (4, (dd [0, 0, 61172327492847069472032393719205726809135813743440799050195397570919697796091958321786863938157971792315844506873509046544459008355036150650333616890210625686064472971480622053109783197015954399612052812141827922088117778074833698589048132156300022844899841969874763871624802603515651998113045708569927237462546233168834543264678118409417047146496])), (3, (dd [0, 1, 61172327492847069472032393719205726809135813743440799050195397570919697796091958321786863938157971792315844506873507494026366707646101001670845154387655368800047356274869483001071757146063268022725721933732999275610167290344136567515841960576255908030508397682599722690485598148539631148207495443284295639017720970169640826795927225562563231088640])), (2, (dd [0, 0, 130663298481829608781738534421774961030200182945768642515226446184482290784132935865436050618383918932278269554657625508400688138365595703382562657404425275557348248724717550257727689638715220714355650140958180795462349722683077302512750771833202835918569799146560015356188012912736956993487946644801753378650481532430297139549742706025831367695646403140013281637046295318201839515909463745915961557648824940027163951144340853178446023114096640])), (1, (dd [0, 0, 130663298481829608781738534421774961030200182945768642515226446184482290784132935865436050618383918932278269554657625508400688138365595703382562657404425275557348248724717550257727689638715220714355650140958180795462349722683077302512750771833202835918569799146560015356188012912736956993487946644801753378650481532430297139549742706025831367695646403140013281637046295318201839515909463745915961557648824940027163951144340853178446023114096640])), (0, (dd [0, 0, 61172327492847069472032393719205726809135813743440799050195397570919697796091958321786863938157971792315844506873509046544459008355036150650333616890210625686064472971480622053109783197015954399612052812141827922088117778074833698589048132156300022844899841969874763871624802603515651998113045708569927237462546233168834543264678118409417047146496]))] = true := by decide +kernel

def C.rdc : Cert where
  S := ⟨[], [12, 24], [.arr 0, .arr 1], 0⟩
  anns := [a0, a0, a0, a0, a0, a0, a2, a0, a1, a0, a0, a0, a0, a0, a1, a0, a0, a0, a0, a0, a1, a2, a0, a0, a1, a0, a0, a0, a0, a0, a1, a0, a0, a0, a0, a1, a0, a0, a0, a0, a0, a1, a2, a0, a0, a1, a0, a0, a0, a0, a0, a1, a0, a0, a0, a0, a1, a0, a0, a0, a0, a1, a0, a0, a0, a0, a0, a1, a2, a0, a0, a1, a0, a0, a0, a0, a0, a1, a0, a0, a0, a0, a1, a0, a0, a0, a0, a1, a0, a0, a0, a0, a1, a0, a0, a0, a0, a0, a1, a2, a0, a0, a1, a0, a0, a0, a0, a0, a1, a0, a0, a0, a0, a1, a0, a0, a0, a0, a1, a0, a0, a0, a0, a1, a0, a0, a0, a0, a1, a0, a0, a0, a0, a0, a1, a2, a0, a0, a1, a0, a0, a0, a0, a0, a1, a0, a0, a0, a0, a1, a0, a0, a0, a0, a1, a0, a0, a0, a0, a1, a0, a0, a0, a0, a1, a0, a0, a0, a0, a1, a0, a0, a0, a0, a0, a1, a2, a0, a0, a1, a0, a0, a0, a0, a0, a1, a0, a0, a0, a0, a1, a0, a0, a0, a0, a1, a0, a0, a0, a0, a1, a0, a0, a0, a0, a1, a0, a0, a0, a0, a1, a0, a0, a0, a0, a0, a1, a0, a0, a0, a1, a0, a0, a0, a0, a0, a1, a0, a0, a0, a0, a1, a0, a0, a0, a0, a1, a0, a0, a0, a0, a1, a0, a0, a0, a0, a1, a0, a0, a0, a0, a1, a0, a0, a0, a0, a0, a1, a0, a0, a0, a1, a0, a0, a0, a0, a0, a1, a0, a0, a0, a0, a1, a0, a0, a0, a0, a1, a0, a0, a0, a0, a1, a0, a0, a0, a0, a1, a0, a0, a0, a0, a1, a0, a0, a0, a0, a0, a1, a0, a0, a0, a1, a0, a0, a0, a0, a0, a1, a0, a0, a0, a0, a1, a0, a0, a0, a0, a1, a0, a0, a0, a0, a1, a0, a0, a0, a0, a1, a0, a0, a0, a0, a1, a0, a0, a0, a0, a0, a1, a0, a0, a0, a1, a0, a0, a0, a0, a0, a1, a0, a0, a0, a0, a1, a0, a0, a0, a0, a1, a0, a0, a0, a0, a1, a0, a0, a0, a0, a1, a0, a0, a0, a0, a1, a0, a0, a0, a0, a0, a1, a0, a0, a0, a1, a0, a0, a0, a0, a0, a1, a0, a0, a0, a0, a1, a0, a0, a0, a0, a1, a0, a0, a0, a0, a1, a0, a0, a0, a0, a1, a0, a0, a0, a0, a1, a0, a0, a0, a1, a0, a0, a0, a0, a0, a1, a0, a0, a0, a0, a1, a0, a0, a0, a0, a1, a0, a0, a0, a0, a1, a0, a0, a0, a0, a1, a0, a0, a0, a1, a0, a0, a0, a0, a0, a1, a0, a0, a0, a0, a1, a0, a0, a0, a0, a1, a0, a0, a0, a0, a1, a0, a0, a0, a1, a0, a0, a0, a0, a0, a1, a0, a0, a0, a0, a1, a0, a0, a0, a0, a1, a0, a0, a0, a1, a0, a0, a0, a0, a0, a1, a0, a0, a0, a0, a1, a0, a0, a0, a1, a0, a0, a0, a0, a0, a0, a0, a0, a0]
  hints := []
  zb := 0
  scratch := []
  keepBP := true

theorem rdc_ok : rdcChk Model.Asm751.rdc C.rdc 12 10354717741769305252977768237866805321427389645549071170116189679054678940682478846502882896561066713624553211618840202385203911976522554393044160468771151816976706840078913334358399730952774926980235086850991501872665651576831 1 (dd [104, 0, 1, 112, 0, 18446744073709551616, 120, 0, 340282366920938463463374607431768211456, 128, 0, 6277101735386680763835789423207666416102355444464034512896, 136, 0, 115792089237316195423570985008687907853269984665640564039457584007913129639936, 1128, 0, 2135987035920910082395021706169552114602704522356652769947041607822219725780640550022962086936576, 1368, 0, 39402006196394479212279040100143613805079739270465446667948293404245721771497210611414266254884915640806627990306816, 1704, 0, 726838724295606890549323807888004534353641360687318060281490199180639288113397923326191050713763565560762521606266177933534601628614656, 2120, 0, 13407807929942597099574024998205846127479365820592393377723561443721764030073546976801874298166903427690031858186486050853753882811946569946433649006084096, 2616, 0, 247330401473104534060502521019647190035131349101211839914063056092897225106531867170316401061243044989597671426016139339351365034306751209967546155101893167916606772148699136, 3192, 0, 4562440617622195218641171605700291324893228507248559930579192517899275167208677386505912811317371399778642309573594407310688704721375437998252661319722214188251994674360264950082874192246603776, 3848, 0, 84162174424773976115855838126082058648805436845170781751972494449099714468753293153818664580441415219631727501698851483408310916002940861810045036330430093599283578738055113571066620126149163476340692027772502016]) [(6, (dd [0, 1, 2135987035920910082395021706169552114602704522356652769947041607822219725780640550022962086936576])), (5, (dd [0, 1, 39402006196394479212279040100143613805079739270465446667948293404245721771497210611414266254884915640806627990306816])), (4, (dd [0, 1, 726838724295606890549323807888004534353641360687318060281490199180639288113397923326191050713763565560762521606266177933534601628614656])), (3, (dd [0, 1, 13407807929942597099574024998205846127479365820592393377723561443721764030073546976801874298166903427690031858186486050853753882811946569946433649006084096])), (2, (dd [0, 1, 247330401473104534060502521019647190035131349101211839914063056092897225106531867170316401061243044989597671426016139339351365034306751209967546155101893167916606772148699136])), (1, (dd [0, 1, 4562440617622195218641171605700291324893228507248559930579192517899275167208677386505912811317371399778642309573594407310688704721375437998252661319722214188251994674360264950082874192246603776])), (0, (dd [0, 1, 84162174424773976115855838126082058648805436845170781751972494449099714468753293153818664580441415219631727501698851483408310916002940861810045036330430093599283578738055113571066620126149163476340692027772502016]))] = true := by decide +kernel

def C.rdc_bmi2 : Cert where
  S := ⟨[], [12, 24], [.arr 0, .arr 1], 0⟩
  anns := [a0, a0, a0, a0, a0, a0, a0, a0, a0, a0, a0, a0, a0, a0, a0, a0, a0, a0, a1, a0, a0, a0, a0, a0, a0, a0, a0, a0, a0, a0, a0, a0, a0, a0, a0, a0, a0, a1, a0, a0, a0, a0, a0, a0, a0, a0, a0, a0, a0, a0, a0, a0, a0, a0, a0, a0, a0, a0, a0, a0, a0, a0, a0, a0, a1, a0, a0, a0, a0, a0, a0, a0, a0, a0, a0, a0, a0, a0, a0, a0, a0, a0, a0, a0, a0, a0, a0, a0, a0, a0, a1, a0, a0, a0, a0, a0, a0, a0, a0, a0, a0, a0, a0, a2, a2, a2, a0, a0, a0, a2, a0, a0, a0, a0, a0, a0, a0, a0, a0, a0, a0, a0, a0, a0, a0, a0, a0, a0, a0, a0, a0, a0, a0, a0, a0, a0, a0, a0, a0, a0, a0, a0, a0, a0, a0, a0, a0, a0, a0, a0, a0, a0, a0, a0, a0, a0, a0, a0, a0, a0, a0, a0, a0, a0, a1, a0, a0, a0, a0, a0, a0, a0, a0, a0, a0, a0, a0, a0, a0, a0, a0, a0, a0, a1, a0, a0, a0, a0, a0, a0, a0, a0, a0, a0, a0, a0, a0, a0, a0, a0, a0, a0, a0, a0, a0, a0, a0, a0, a0, a0, a1, a0, a0, a0, a0, a0, a0, a0, a0, a0, a0, a0, a0, a0, a0, a0, a0, a0, a0, a0, a0, a0, a0, a0, a0, a0, a1, a0, a0, a0, a0, a0, a0, a0, a0, a0, a0, a0, a0, a2, a2, a2, a0, a0, a0, a0, a0, a0, a0, a0, a0, a0, a0, a0, a0, a0, a0, a0, a0, a0, a0, a0, a0, a0, a0, a0, a0, a0, a0, a0, a0, a0, a0, a0, a0, a0, a0, a0, a0, a0, a0, a0, a0, a0, a0, a0, a0, a0, a1, a0, a0, a0, a0, a0, a0, a0, a0, a0, a0, a0, a0, a0, a0, a0, a0, a0, a0, a1, a0, a0, a0, a0, a0, a0, a0, a0, a0, a0, a0, a0, a0, a0, a0, a0, a0, a0, a0, a0, a0, a0, a0, a0, a0, a0, a1, a0, a0, a0, a0, a0, a0, a0, a0, a0, a0, a0, a0, a0, a0, a0, a0, a0, a0, a0, a0, a0, a0, a0, a0, a0, a1, a0, a0, a0, a0, a0, a0, a0, a0, a0, a0, a0, a0, a0, a0, a0, a0, a0, a0, a0, a0, a0, a0, a0, a0, a0, a0, a0, a0, a0, a0, a0, a0, a0]
  hints := [⟨[250, 249], (dd [1745, 0, 1]), []⟩, ⟨[228, 227], (dd [2177, 0, 1]), [(0, (dd [0, 0, 18446744073709551616]))]⟩, ⟨[206, 205], (dd [2593, 0, 1]), [(0, (dd [0, 0, 18446744073709551616]))]⟩, ⟨[151, 150], (dd [4081, 0, 1]), []⟩, ⟨[129, 128], (dd [4513, 0, 1]), [(0, (dd [0, 0, 18446744073709551616]))]⟩, ⟨[107, 106], (dd [4929, 0, 1]), [(0, (dd [0, 0, 18446744073709551616]))]⟩, ⟨[56, 55], (dd [6225, 0, 1]), []⟩, ⟨[34, 33], (dd [6657, 0, 1]), [(0, (dd [0, 0, 18446744073709551616]))]⟩]
  zb := 0
  scratch := [1]
  keepBP := false

theorem rdc_bmi2_ok : rdcChk Model.Asm751.rdc_bmi2 C.rdc_bmi2 12 10354717741769305252977768237866805321427389645549071170116189679054678940682478846502882896561066713624553211618840202385203911976522554393044160468771151816976706840078913334358399730952774926980235086850991501872665651576831 1 (dd [104, 0, 1, 112, 0, 18446744073709551616, 120, 0, 340282366920938463463374607431768211456, 128, 0, 6277101735386680763835789423207666416102355444464034512896, 136, 0, 115792089237316195423570985008687907853269984665640564039457584007913129639936, 2680, 0, 2135987035920910082395021706169552114602704522356652769947041607822219725780640550022962086936576, 2696, 0, 39402006196394479212279040100143613805079739270465446667948293404245721771497210611414266254884915640806627990306816, 2712, 0, 726838724295606890549323807888004534353641360687318060281490199180639288113397923326191050713763565560762521606266177933534601628614656, 2776, 0, 13407807929942597099574024998205846127479365820592393377723561443721764030073546976801874298166903427690031858186486050853753882811946569946433649006084096, 5016, 0, 247330401473104534060502521019647190035131349101211839914063056092897225106531867170316401061243044989597671426016139339351365034306751209967546155101893167916606772148699136, 5032, 0, 4562440617622195218641171605700291324893228507248559930579192517899275167208677386505912811317371399778642309573594407310688704721375437998252661319722214188251994674360264950082874192246603776, 5048, 0, 84162174424773976115855838126082058648805436845170781751972494449099714468753293153818664580441415219631727501698851483408310916002940861810045036330430093599283578738055113571066620126149163476340692027772502016]) [(14, (dd [0, 1, 2135987035920910082395021706169552114602704522356652769947041607822219725780640550022962086936576])), (13, (dd [0, 1, 39402006196394479212279040100143613805079739270465446667948293404245721771497210611414266254884915640806627990306816])), (12, (dd [0, 1, 726838724295606890549323807888004534353641360687318060281490199180639288113397923326191050713763565560762521606266177933534601628614656])), (11, (dd [0, 1, 13407807929942597099574024998205846127479365820592393377723561443721764030073546976801874298166903427690031858186486050853753882811946569946433649006084096])), (10, (dd [0, 1, 247330401473104534060502521019647190035131349101211839914063056092897225106531867170316401061243044989597671426016139339351365034306751209967546155101893167916606772148699136])), (9, (dd [0, 1, 4562440617622195218641171605700291324893228507248559930579192517899275167208677386505912811317371399778642309573594407310688704721375437998252661319722214188251994674360264950082874192246603776])), (8, (dd [0, 1, 84162174424773976115855838126082058648805436845170781751972494449099714468753293153818664580441415219631727501698851483408310916002940861810045036330430093599283578738055113571066620126149163476340692027772502016])), (7, (dd [0, 0, 528294531135665246352339784916516606518847326036121522127960709026673902556724859474417255887657187894674394993257128678882347559502685537250538978462939576908386683999005084168731517676426441053024232908211188404148028292751561738838396898767036476489538580897737998336])), (6, (dd [0, 0, 9745314011399999080353382387875188310876226857595007526867906457212948690766426102465615065882010259225304916231408668183459169865203094046577987296312653419531277699956473029870789655490053648352799593479218378873685597925394874945746363615468965612827738803104277547081828589991914110976])), (5, (dd [0, 0, 179769313486231590772930519078902473361797697894230657273430081157732675805500963132708477322407536021120113879871393357658789768814416622492847430639474124377767893424865485276302219601246094119453082952085005768838150682342462881473913110540827237163350510684586298239947245938479716304835356329624224137216])), (4, (dd [0, 0, 61172327492847069472032393719205726809135813743440799050195397570919697796091958321786863938157971792315844506873509046544459008355036150650333616890210625686064472971480622053109783197015954399612052812141827922088117778074833698589048132156300022844899841969874763871624802603515651998113045708569927237462546233168834543264678118409417047146496])), (3, (dd [0, 0, 1128430269653696552505663664688505519051893948117725342710709407999638941941219040912833546632301522012495604549678634617312701794930960696933850145274509219899605219518447018369658381698338332600334225533767288503097470829739413943739519714331064178097205003926859545229038622328927117691927971265095131106901145206539640038505022502031780376472027866138952425537536])), (2, (dd [0, 0, 20815864389328798163850480654728171077230524494533409610638224700807216119346720596024478883464648369684843227908562015582767132496646929816279813211354641525848259018778440691546366699323167100945918841095379622423387354295096957733925002768876520583464697770622321657076833170056511209332449663781837603694136444406281042053396870977465916057756101739472373801429441421111406337458176])), (1, (dd [0, 0, 7083271603906078757501937199839970337237042072752024044272935252133021449487672037753077279976540494138725768234495819230178699615482523444525217326451885295083794903354995236859949814158861106339793498427520403285563504697437506153794873484561573759163876734171825622767620957924878367969185009358384129424236514293956457858505582263102570156257796764049361854053114869322098725721757629614488965634874516982012228724064256])), (0, (dd [0, 0, 130663298481829608781738534421774961030200182945768642515226446184482290784132935865436050618383918932278269554657628824559206325342766790666323300145583975493497984429184709729577611057398702750119128019884745141310078867766806269159106982459556164758894788294104644415934567054216304256752542070618199833907016404783941237004946025956439797860820562145392237467217383150167738001989809176581017494202312280817065607310958886662076098932637696]))] = true := by decide +kernel

def C.rdc_adx : Cert where
  S := ⟨[], [12, 24], [.arr 0, .arr 1], 0⟩
  anns := [a0, a0, a0, a0, a0, a0, a0, a0, a0, a0, a0, a0, a0, a0, a0, a0, a0, a0, a1, a0, a0, a0, a0, a0, a0, a0, a0, a0, a0, a0, a0, a0, a0, a0, a0, a0, a0, a0, a1, a0, a0, a0, a0, a0, a0, a0, a0, a0, a0, a0, a0, a0, a0, a0, a0, a0, a0, a0, a0, a0, a0, a0, a0, a1, a0, a0, a0, a0, a0, a0, a0, a0, a0, a0, a0, a0, a0, a0, a0, a0, a0, a0, a0, a0, a0, a0, a0, a1, a0, a0, a0, a0, a0, a0, a0, a0, a0, a2, a2, a2, a0, a0, a0, a2, a0, a0, a0, a0, a0, a0, a0, a0, a0, a0, a0, a0, a0, a0, a0, a0, a0, a0, a0, a0, a0, a0, a0, a0, a0, a0, a0, a0, a0, a0, a0, a0, a0, a0, a0, a0, a0, a0, a0, a0, a0, a0, a0, a0, a0, a0, a0, a0, a0, a0, a0, a0, a0, a0, a1, a0, a0, a0, a0, a0, a0, a0, a0, a0, a0, a0, a0, a0, a0, a0, a0, a0, a0, a0, a1, a0, a0, a0, a0, a0, a0, a0, a0, a0, a0, a0, a0, a0, a0, a0, a0, a0, a0, a0, a0, a0, a0, a0, a0, a1, a0, a0, a0, a0, a0, a0, a0, a0, a0, a0, a0, a0, a0, a0, a0, a0, a0, a0, a0, a0, a0, a0, a0, a1, a0, a0, a0, a0, a0, a0, a0, a0, a0, a2, a2, a2, a0, a0, a0, a0, a0, a0, a0, a0, a0, a0, a0, a0, a0, a0, a0, a0, a0, a0, a0, a0, a0, a0, a0, a0, a0, a0, a0, a0, a0, a0, a0, a0, a0, a0, a0, a0, a0, a0, a0, a0, a0, a0, a0, a0, a0, a0, a1, a0, a0, a0, a0, a0, a0, a0, a0, a0, a0, a0, a0, a0, a0, a0, a0, a0, a0, a0, a1, a0, a0, a0, a0, a0, a0, a0, a0, a0, a0, a0, a0, a0, a0, a0, a0, a0, a0, a0, a0, a0, a0, a0, a0, a1, a0, a0, a0, a0, a0, a0, a0, a0, a0, a0, a0, a0, a0, a0, a0, a0, a0, a0, a0, a0, a0, a0, a0, a1, a0, a0, a0, a0, a0, a0, a0, a0, a0, a0, a0, a0, a0, a0, a0, a0, a0, a0, a0, a0, a0, a0, a0, a0, a0, a0, a0, a0, a0, a0]
  hints := [⟨[250, 249], (dd [1713, 0, 1]), []⟩, ⟨[228, 227], (dd [2113, 0, 1]), [(0, (dd [0, 0, 18446744073709551616]))]⟩, ⟨[206, 205], (dd [2497, 0, 1]), [(0, (dd [0, 0, 18446744073709551616]))]⟩, ⟨[151, 150], (dd [3953, 0, 1]), []⟩, ⟨[129, 128], (dd [4353, 0, 1]), [(0, (dd [0, 0, 18446744073709551616]))]⟩, ⟨[107, 106], (dd [4737, 0, 1]), [(0, (dd [0, 0, 18446744073709551616]))]⟩, ⟨[56, 55], (dd [6001, 0, 1]), []⟩, ⟨[34, 33], (dd [6401, 0, 1]), [(0, (dd [0, 0, 18446744073709551616]))]⟩]
  zb := 0
  scratch := [1]
  keepBP := false

theorem rdc_adx_ok : rdcChk Model.Asm751.rdc_adx C.rdc_adx 12 10354717741769305252977768237866805321427389645549071170116189679054678940682478846502882896561066713624553211618840202385203911976522554393044160468771151816976706840078913334358399730952774926980235086850991501872665651576831 1 (dd [104, 0, 1, 112, 0, 18446744073709551616, 120, 0, 340282366920938463463374607431768211456, 128, 0, 6277101735386680763835789423207666416102355444464034512896, 136, 0, 115792089237316195423570985008687907853269984665640564039457584007913129639936, 2584, 0, 2135987035920910082395021706169552114602704522356652769947041607822219725780640550022962086936576, 2600, 0, 39402006196394479212279040100143613805079739270465446667948293404245721771497210611414266254884915640806627990306816, 2616, 0, 726838724295606890549323807888004534353641360687318060281490199180639288113397923326191050713763565560762521606266177933534601628614656, 2680, 0, 13407807929942597099574024998205846127479365820592393377723561443721764030073546976801874298166903427690031858186486050853753882811946569946433649006084096, 4824, 0, 247330401473104534060502521019647190035131349101211839914063056092897225106531867170316401061243044989597671426016139339351365034306751209967546155101893167916606772148699136, 4840, 0, 4562440617622195218641171605700291324893228507248559930579192517899275167208677386505912811317371399778642309573594407310688704721375437998252661319722214188251994674360264950082874192246603776, 4856, 0, 84162174424773976115855838126082058648805436845170781751972494449099714468753293153818664580441415219631727501698851483408310916002940861810045036330430093599283578738055113571066620126149163476340692027772502016]) [(14, (dd [0, 1, 2135987035920910082395021706169552114602704522356652769947041607822219725780640550022962086936576])), (13, (dd [0, 1, 39402006196394479212279040100143613805079739270465446667948293404245721771497210611414266254884915640806627990306816])), (12, (dd [0, 1, 726838724295606890549323807888004534353641360687318060281490199180639288113397923326191050713763565560762521606266177933534601628614656])), (11, (dd [0, 1, 13407807929942597099574024998205846127479365820592393377723561443721764030073546976801874298166903427690031858186486050853753882811946569946433649006084096])), (10, (dd [0, 1, 247330401473104534060502521019647190035131349101211839914063056092897225106531867170316401061243044989597671426016139339351365034306751209967546155101893167916606772148699136])), (9, (dd [0, 1, 4562440617622195218641171605700291324893228507248559930579192517899275167208677386505912811317371399778642309573594407310688704721375437998252661319722214188251994674360264950082874192246603776])), (8, (dd [0, 1, 84162174424773976115855838126082058648805436845170781751972494449099714468753293153818664580441415219631727501698851483408310916002940861810045036330430093599283578738055113571066620126149163476340692027772502016])), (7, (dd [0, 0, 528294531135665246352339784916516606518847326036121522127960709026673902556724859474417255887657187894674394993257128678882347559502685537250538978462939576908386683999005084168731517676426441053024232908211188404148028292751561738838396898767036476489538580897737998336])), (6, (dd [0, 0, 9745314011399999080353382387875188310876226857595007526867906457212948690766426102465615065882010259225304916231408668183459169865203094046577987296312653419531277699956473029870789655490053648352799593479218378873685597925394874945746363615468965612827738803104277547081828589991914110976])), (5, (dd [0, 0, 179769313486231590772930519078902473361797697894230657273430081157732675805500963132708477322407536021120113879871393357658789768814416622492847430639474124377767893424865485276302219601246094119453082952085005768838150682342462881473913110540827237163350510684586298239947245938479716304835356329624224137216])), (4, (dd [0, 0, 61172327492847069472032393719205726809135813743440799050195397570919697796091958321786863938157971792315844506873509046544459008355036150650333616890210625686064472971480622053109783197015954399612052812141827922088117778074833698589048132156300022844899841969874763871624802603515651998113045708569927237462546233168834543264678118409417047146496])), (3, (dd [0, 0, 1128430269653696552505663664688505519051893948117725342710709407999638941941219040912833546632301522012495604549678634617312701794930960696933850145274509219899605219518447018369658381698338332600334225533767288503097470829739413943739519714331064178097205003926859545229038622328927117691927971265095131106901145206539640038505022502031780376472027866138952425537536])), (2, (dd [0, 0, 20815864389328798163850480654728171077230524494533409610638224700807216119346720596024478883464648369684843227908562015582767132496646929816279813211354641525848259018778440691546366699323167100945918841095379622423387354295096957733925002768876520583464697770622321657076833170056511209332449663781837603694136444406281042053396870977465916057756101739472373801429441421111406337458176])), (1, (dd [0, 0, 7083271603906078757501937199839970337237042072752024044272935252133021449487672037753077279976540494138725768234495819230178699615482523444525217326451885295083794903354995236859949814158861106339793498427520403285563504697437506153794873484561573759163876734171825622767620957924878367969185009358384129424236514293956457858505582263102570156257796764049361854053114869322098725721757629614488965634874516982012228724064256])), (0, (dd [0, 0, 130663298481829608781738534421774961030200182945768642515226446184482290784132935865436050618383918932278269554657628824559206325342766790666323300145583975493497984429184709729577611057398702750119128019884745141310078867766806269159106982459556164758894788294104644415934567054216304256752542070618199833907016404783941237004946025956439797860820562145392237467217383150167738001989809176581017494202312280817065607310958886662076098932637696]))] = true := by decide +kernel

end Lemmas.AsmCert751
