import Verif.Lemmas.AsmFam
import Verif.Model.AsmP503
/- Certificates for `mul` and `rdc` of p503/arith_amd64.s, printed by gen/asmgen.py. -/
set_option maxRecDepth 100000
namespace Lemmas.AsmCert503
open Model.Asm Lemmas.AsmSym Lemmas.AsmPoly Lemmas.AsmSound Lemmas.AsmCall Lemmas.AsmFam

def C.mul : Cert where
  S := ⟨[31, 43], [24, 12, 12], [.arr 0, .arr 1, .arr 2], 0⟩
  anns := [a0, a0, a0, a0, a0, a0, a0, a0, a2, a2, a2, a2, a0, a0, a0, a0, a1, a0, a0, a0, a0, a0, a2, a2, a2, a2, a1, a0, a0, a0, a0, a0, a0, a0, a0, a0, a0, a1, a0, a0, a0, a0, a0, a0, a1, a0, a0, a0, a0, a0, a1, a0, a0, a0, a0, a1, a0, a0, a0, a0, a0, a1, a0, a0, a0, a0, a0, a1, a0, a0, a0, a0, a1, a0, a0, a0, a0, a1, a0, a0, a0, a0, a0, a1, a0, a0, a0, a0, a0, a1, a0, a0, a0, a0, a1, a0, a0, a0, a0, a0, a1, a0, a0, a0, a0, a0, a1, a0, a0, a0, a0, a1, a0, a0, a0, a0, a0, a0, a0, a0, a0, a0, a0, a0, a0, a0, a0, a0, a0, a0, a0, a0, a0, a0, a0, a0, a0, a0, a0, a0, a0, a0, a0, a0, a0, a0, a0, a0, a0, a0, a0, a0, a0, a1, a0, a0, a0, a0, a0, a0, a1, a0, a0, a0, a0, a0, a1, a0, a0, a0, a0, a0, a1, a0, a0, a0, a0, a0, a1, a0, a0, a0, a0, a0, a0, a1, a0, a0, a0, a0, a1, a0, a0, a0, a0, a1, a0, a0, a0, a0, a0, a1, a0, a0, a0, a0, a0, a1, a0, a0, a0, a0, a1, a0, a0, a0, a0, a0, a1, a0, a0, a0, a0, a0, a1, a0, a0, a0, a0, a0, a1, a0, a0, a0, a0, a0, a0, a0, a0, a0, a0, a0, a0, a0, a0, a0, a0, a0, a1, a0, a0, a0, a0, a0, a0, a1, a0, a0, a0, a0, a0, a1, a0, a0, a0, a0, a0, a1, a0, a0, a0, a0, a0, a1, a0, a0, a0, a0, a0, a0, a1, a0, a0, a0, a0, a1, a0, a0, a0, a0, a1, a0, a0, a0, a0, a0, a1, a0, a0, a0, a0, a0, a1, a0, a0, a0, a0, a1, a0, a0, a0, a0, a0, a1, a0, a0, a0, a0, a0, a1, a0, a0, a0, a0, a0, a1, a0, a0, a0, a0, a0, a0, a0, a0, a0, a0, a0, a0, a0, a0, a0, a0, a0, a0, a0, a0, a0, a0, a0, a0, a0, a0, a0, a0, a0, a0, a0, a0, a0, a0, a0, a0, a0, a0, a0, a0, a0, a0, a0, a0, a0, a0, a0, a0, a0, a0, a0, a0, a0, a0, a0, a0, a0, a0, a0, a0, a0, a0]
  hints := [⟨[179, 167, 159, 155, 154], (dd [2865, 0, 1]), []⟩, ⟨[112, 100, 92, 88, 87], (dd [4785, 0, 1]), []⟩, ⟨[29, 28], (dd [6305, 0, 1]), []⟩, ⟨[19, 18, 17, 16, 15, 14, 13, 12], (dd [3009, 0, 1, 3217, 0, 1, 6577, 1, 1, 6833, 1, 1, 78710161, 0, 1]), [(10, (dd [296, 1, 1, 304, 1, 18446744073709551616, 312, 1, 340282366920938463463374607431768211456, 320, 1, 6277101735386680763835789423207666416102355444464034512896, 328, 1, 1, 336, 1, 18446744073709551616, 344, 1, 340282366920938463463374607431768211456, 356, 1, 6277101735386680763835789423207666416102355444464034512896])), (9, (dd [296, 1, 18446744073709551616, 304, 1, 340282366920938463463374607431768211456, 312, 1, 6277101735386680763835789423207666416102355444464034512896, 320, 1, 115792089237316195423570985008687907853269984665640564039457584007913129639936, 328, 1, 18446744073709551616, 336, 1, 340282366920938463463374607431768211456, 344, 1, 6277101735386680763835789423207666416102355444464034512896, 356, 1, 115792089237316195423570985008687907853269984665640564039457584007913129639936])), (8, (dd [296, 1, 340282366920938463463374607431768211456, 304, 1, 6277101735386680763835789423207666416102355444464034512896, 312, 1, 115792089237316195423570985008687907853269984665640564039457584007913129639936, 320, 1, 2135987035920910082395021706169552114602704522356652769947041607822219725780640550022962086936576, 328, 1, 340282366920938463463374607431768211456, 336, 1, 6277101735386680763835789423207666416102355444464034512896, 344, 1, 115792089237316195423570985008687907853269984665640564039457584007913129639936, 356, 1, 2135987035920910082395021706169552114602704522356652769947041607822219725780640550022962086936576])), (7, (dd [296, 1, 6277101735386680763835789423207666416102355444464034512896, 304, 1, 115792089237316195423570985008687907853269984665640564039457584007913129639936, 312, 1, 2135987035920910082395021706169552114602704522356652769947041607822219725780640550022962086936576, 320, 1, 39402006196394479212279040100143613805079739270465446667948293404245721771497210611414266254884915640806627990306816, 328, 1, 6277101735386680763835789423207666416102355444464034512896, 336, 1, 115792089237316195423570985008687907853269984665640564039457584007913129639936, 344, 1, 2135987035920910082395021706169552114602704522356652769947041607822219725780640550022962086936576, 356, 1, 39402006196394479212279040100143613805079739270465446667948293404245721771497210611414266254884915640806627990306816])), (6, (dd [1160, 1, 1, 1176, 1, 18446744073709551616, 1192, 1, 340282366920938463463374607431768211456, 1201, 1, 115792089237316195423570985008687907853269984665640564039457584007913129639936, 1208, 1, 6277101735386680763835789423207666416102355444464034512896])), (5, (dd [1160, 1, 18446744073709551616, 1176, 1, 340282366920938463463374607431768211456, 1192, 1, 6277101735386680763835789423207666416102355444464034512896, 1201, 1, 2135987035920910082395021706169552114602704522356652769947041607822219725780640550022962086936576, 1208, 1, 115792089237316195423570985008687907853269984665640564039457584007913129639936])), (4, (dd [1160, 1, 340282366920938463463374607431768211456, 1176, 1, 6277101735386680763835789423207666416102355444464034512896, 1192, 1, 115792089237316195423570985008687907853269984665640564039457584007913129639936, 1201, 1, 39402006196394479212279040100143613805079739270465446667948293404245721771497210611414266254884915640806627990306816, 1208, 1, 2135987035920910082395021706169552114602704522356652769947041607822219725780640550022962086936576])), (3, (dd [1160, 1, 6277101735386680763835789423207666416102355444464034512896, 1176, 1, 115792089237316195423570985008687907853269984665640564039457584007913129639936, 1192, 1, 2135987035920910082395021706169552114602704522356652769947041607822219725780640550022962086936576, 1201, 1, 726838724295606890549323807888004534353641360687318060281490199180639288113397923326191050713763565560762521606266177933534601628614656, 1208, 1, 39402006196394479212279040100143613805079739270465446667948293404245721771497210611414266254884915640806627990306816])), (2, (dd [0, 0, 13407807929942597099574024998205846127479365820592393377723561443721764030073546976801874298166903427690031858186486050853753882811946569946433649006084096])), (1, (dd [0, 1, 13407807929942597099574024998205846127479365820592393377723561443721764030073546976801874298166903427690031858186486050853753882811946569946433649006084096])), (0, (dd [0, 1, 13407807929942597099574024998205846127479365820592393377723561443721764030073546976801874298166903427690031858186486050853753882811946569946433649006084096]))]⟩]
  zb := 0
  scratch := []
  keepBP := true

theorem mul_ok : mulChk Model.Asm503.mul C.mul 8 1 2 [(11, (dd [296, 1, 115792089237316195423570985008687907853269984665640564039457584007913129639936, 304, 1, 2135987035920910082395021706169552114602704522356652769947041607822219725780640550022962086936576, 312, 1, 39402006196394479212279040100143613805079739270465446667948293404245721771497210611414266254884915640806627990306816, 320, 1, 726838724295606890549323807888004534353641360687318060281490199180639288113397923326191050713763565560762521606266177933534601628614656, 328, 1, 115792089237316195423570985008687907853269984665640564039457584007913129639936, 336, 1, 2135987035920910082395021706169552114602704522356652769947041607822219725780640550022962086936576, 344, 1, 39402006196394479212279040100143613805079739270465446667948293404245721771497210611414266254884915640806627990306816, 356, 1, 726838724295606890549323807888004534353641360687318060281490199180639288113397923326191050713763565560762521606266177933534601628614656])), (10, (dd [296, 1, 2135987035920910082395021706169552114602704522356652769947041607822219725780640550022962086936576, 304, 1, 39402006196394479212279040100143613805079739270465446667948293404245721771497210611414266254884915640806627990306816, 312, 1, 726838724295606890549323807888004534353641360687318060281490199180639288113397923326191050713763565560762521606266177933534601628614656, 320, 1, 13407807929942597099574024998205846127479365820592393377723561443721764030073546976801874298166903427690031858186486050853753882811946569946433649006084096, 328, 1, 2135987035920910082395021706169552114602704522356652769947041607822219725780640550022962086936576, 336, 1, 39402006196394479212279040100143613805079739270465446667948293404245721771497210611414266254884915640806627990306816, 344, 1, 726838724295606890549323807888004534353641360687318060281490199180639288113397923326191050713763565560762521606266177933534601628614656, 356, 1, 13407807929942597099574024998205846127479365820592393377723561443721764030073546976801874298166903427690031858186486050853753882811946569946433649006084096])), (9, (dd [296, 1, 39402006196394479212279040100143613805079739270465446667948293404245721771497210611414266254884915640806627990306816, 304, 1, 726838724295606890549323807888004534353641360687318060281490199180639288113397923326191050713763565560762521606266177933534601628614656, 312, 1, 13407807929942597099574024998205846127479365820592393377723561443721764030073546976801874298166903427690031858186486050853753882811946569946433649006084096, 320, 1, 247330401473104534060502521019647190035131349101211839914063056092897225106531867170316401061243044989597671426016139339351365034306751209967546155101893167916606772148699136, 328, 1, 39402006196394479212279040100143613805079739270465446667948293404245721771497210611414266254884915640806627990306816, 336, 1, 726838724295606890549323807888004534353641360687318060281490199180639288113397923326191050713763565560762521606266177933534601628614656, 344, 1, 13407807929942597099574024998205846127479365820592393377723561443721764030073546976801874298166903427690031858186486050853753882811946569946433649006084096, 356, 1, 247330401473104534060502521019647190035131349101211839914063056092897225106531867170316401061243044989597671426016139339351365034306751209967546155101893167916606772148699136])), (8, (dd [296, 1, 726838724295606890549323807888004534353641360687318060281490199180639288113397923326191050713763565560762521606266177933534601628614656, 304, 1, 13407807929942597099574024998205846127479365820592393377723561443721764030073546976801874298166903427690031858186486050853753882811946569946433649006084096, 312, 1, 247330401473104534060502521019647190035131349101211839914063056092897225106531867170316401061243044989597671426016139339351365034306751209967546155101893167916606772148699136, 320, 1, 4562440617622195218641171605700291324893228507248559930579192517899275167208677386505912811317371399778642309573594407310688704721375437998252661319722214188251994674360264950082874192246603776, 328, 1, 726838724295606890549323807888004534353641360687318060281490199180639288113397923326191050713763565560762521606266177933534601628614656, 336, 1, 13407807929942597099574024998205846127479365820592393377723561443721764030073546976801874298166903427690031858186486050853753882811946569946433649006084096, 344, 1, 247330401473104534060502521019647190035131349101211839914063056092897225106531867170316401061243044989597671426016139339351365034306751209967546155101893167916606772148699136, 356, 1, 4562440617622195218641171605700291324893228507248559930579192517899275167208677386505912811317371399778642309573594407310688704721375437998252661319722214188251994674360264950082874192246603776])), (7, (dd [1160, 1, 115792089237316195423570985008687907853269984665640564039457584007913129639936, 1176, 1, 2135987035920910082395021706169552114602704522356652769947041607822219725780640550022962086936576, 1192, 1, 39402006196394479212279040100143613805079739270465446667948293404245721771497210611414266254884915640806627990306816, 1201, 1, 13407807929942597099574024998205846127479365820592393377723561443721764030073546976801874298166903427690031858186486050853753882811946569946433649006084096, 1208, 1, 726838724295606890549323807888004534353641360687318060281490199180639288113397923326191050713763565560762521606266177933534601628614656])), (6, (dd [1160, 1, 2135987035920910082395021706169552114602704522356652769947041607822219725780640550022962086936576, 1176, 1, 39402006196394479212279040100143613805079739270465446667948293404245721771497210611414266254884915640806627990306816, 1192, 1, 726838724295606890549323807888004534353641360687318060281490199180639288113397923326191050713763565560762521606266177933534601628614656, 1201, 1, 247330401473104534060502521019647190035131349101211839914063056092897225106531867170316401061243044989597671426016139339351365034306751209967546155101893167916606772148699136, 1208, 1, 13407807929942597099574024998205846127479365820592393377723561443721764030073546976801874298166903427690031858186486050853753882811946569946433649006084096])), (5, (dd [1160, 1, 39402006196394479212279040100143613805079739270465446667948293404245721771497210611414266254884915640806627990306816, 1176, 1, 726838724295606890549323807888004534353641360687318060281490199180639288113397923326191050713763565560762521606266177933534601628614656, 1192, 1, 13407807929942597099574024998205846127479365820592393377723561443721764030073546976801874298166903427690031858186486050853753882811946569946433649006084096, 1201, 1, 4562440617622195218641171605700291324893228507248559930579192517899275167208677386505912811317371399778642309573594407310688704721375437998252661319722214188251994674360264950082874192246603776, 1208, 1, 247330401473104534060502521019647190035131349101211839914063056092897225106531867170316401061243044989597671426016139339351365034306751209967546155101893167916606772148699136])), (4, (dd [1160, 1, 726838724295606890549323807888004534353641360687318060281490199180639288113397923326191050713763565560762521606266177933534601628614656, 1176, 1, 13407807929942597099574024998205846127479365820592393377723561443721764030073546976801874298166903427690031858186486050853753882811946569946433649006084096, 1192, 1, 247330401473104534060502521019647190035131349101211839914063056092897225106531867170316401061243044989597671426016139339351365034306751209967546155101893167916606772148699136, 1201, 1, 84162174424773976115855838126082058648805436845170781751972494449099714468753293153818664580441415219631727501698851483408310916002940861810045036330430093599283578738055113571066620126149163476340692027772502016, 1208, 1, 4562440617622195218641171605700291324893228507248559930579192517899275167208677386505912811317371399778642309573594407310688704721375437998252661319722214188251994674360264950082874192246603776])), (3, (dd [0, 0, 1552518092300708935148979488462502555256886017116696611139052038026050952686376886330878408828646477950487730697131073206171580044114814391444287275041181139204454976020849905550265285631598444825262999193716468750892846853816057856])), (2, (dd [0, 1, 1552518092300708935148979488462502555256886017116696611139052038026050952686363478522948466231546903925489524851003593840350987650737090830000565511011107592227653101722683002122575253773411958774409245310904522180946413204809973760])), (1, (dd [0, 0, 179769313486231590772930519078902473361797697894230657273430081157732675805499410614616176613472387041631651377316136471641673072203277570454821379686787747491437015016036838798351731870548963046246911372040890954446706395067421700334708655564806387257800245398954699795121982939285999836084463482770408079360])), (0, (dd [0, 0, 1552518092300708935148979488462502555256886017116696611139052038026050952686376886330878408828646477950487730697131073206171580044114814391444287275041181139204454976020849905550265285631598444825262999193716468750892846853816057856]))] = true := by decide +kernel

def C.mul_xy : Cert where
  S := ⟨[31], [24, 12], [.arr 0, .arr 1, .arr 1], 0⟩
  anns := [a0, a0, a0, a0, a0, a0, a0, a0, a2, a2, a2, a2, a0, a0, a0, a0, a1, a0, a0, a0, a0, a0, a2, a2, a2, a2, a1, a0, a0, a0, a0, a0, a0, a0, a0, a0, a0, a1, a0, a0, a0, a0, a0, a0, a1, a0, a0, a0, a0, a0, a1, a0, a0, a0, a0, a1, a0, a0, a0, a0, a0, a1, a0, a0, a0, a0, a0, a1, a0, a0, a0, a0, a1, a0, a0, a0, a0, a1, a0, a0, a0, a0, a0, a1, a0, a0, a0, a0, a0, a1, a0, a0, a0, a0, a1, a0, a0, a0, a0, a0, a1, a0, a0, a0, a0, a0, a1, a0, a0, a0, a0, a1, a0, a0, a0, a0, a0, a0, a0, a0, a0, a0, a0, a0, a0, a0, a0, a0, a0, a0, a0, a0, a0, a0, a0, a0, a0, a0, a0, a0, a0, a0, a0, a0, a0, a0, a0, a0, a0, a0, a0, a0, a0, a1, a0, a0, a0, a0, a0, a0, a1, a0, a0, a0, a0, a0, a1, a0, a0, a0, a0, a0, a1, a0, a0, a0, a0, a0, a1, a0, a0, a0, a0, a0, a0, a1, a0, a0, a0, a0, a1, a0, a0, a0, a0, a1, a0, a0, a0, a0, a0, a1, a0, a0, a0, a0, a0, a1, a0, a0, a0, a0, a1, a0, a0, a0, a0, a0, a1, a0, a0, a0, a0, a0, a1, a0, a0, a0, a0, a0, a1, a0, a0, a0, a0, a0, a0, a0, a0, a0, a0, a0, a0, a0, a0, a0, a0, a0, a1, a0, a0, a0, a0, a0, a0, a1, a0, a0, a0, a0, a0, a1, a0, a0, a0, a0, a0, a1, a0, a0, a0, a0, a0, a1, a0, a0, a0, a0, a0, a0, a1, a0, a0, a0, a0, a1, a0, a0, a0, a0, a1, a0, a0, a0, a0, a0, a1, a0, a0, a0, a0, a0, a1, a0, a0, a0, a0, a1, a0, a0, a0, a0, a0, a1, a0, a0, a0, a0, a0, a1, a0, a0, a0, a0, a0, a1, a0, a0, a0, a0, a0, a0, a0, a0, a0, a0, a0, a0, a0, a0, a0, a0, a0, a0, a0, a0, a0, a0, a0, a0, a0, a0, a0, a0, a0, a0, a0, a0, a0, a0, a0, a0, a0, a0, a0, a0, a0, a0, a0, a0, a0, a0, a0, a0, a0, a0, a0, a0, a0, a0, a0, a0, a0, a0, a0, a0, a0, a0]
  hints := [⟨[179, 167, 159, 155, 154], (dd [2865, 0, 1]), []⟩, ⟨[112, 100, 92, 88, 87], (dd [4785, 0, 1]), []⟩, ⟨[29, 28], (dd [6305, 0, 1]), []⟩, ⟨[19, 18, 17, 16, 15, 14, 13, 12], (dd [3009, 0, 1, 3217, 0, 1, 6577, 1, 1, 6833, 1, 1, 78710161, 0, 1]), [(10, (dd [200, 1, 1, 208, 1, 18446744073709551616, 216, 1, 340282366920938463463374607431768211456, 224, 1, 6277101735386680763835789423207666416102355444464034512896, 232, 1, 1, 240, 1, 18446744073709551616, 248, 1, 340282366920938463463374607431768211456, 260, 1, 6277101735386680763835789423207666416102355444464034512896])), (9, (dd [200, 1, 18446744073709551616, 208, 1, 340282366920938463463374607431768211456, 216, 1, 6277101735386680763835789423207666416102355444464034512896, 224, 1, 115792089237316195423570985008687907853269984665640564039457584007913129639936, 232, 1, 18446744073709551616, 240, 1, 340282366920938463463374607431768211456, 248, 1, 6277101735386680763835789423207666416102355444464034512896, 260, 1, 115792089237316195423570985008687907853269984665640564039457584007913129639936])), (8, (dd [200, 1, 340282366920938463463374607431768211456, 208, 1, 6277101735386680763835789423207666416102355444464034512896, 216, 1, 115792089237316195423570985008687907853269984665640564039457584007913129639936, 224, 1, 2135987035920910082395021706169552114602704522356652769947041607822219725780640550022962086936576, 232, 1, 340282366920938463463374607431768211456, 240, 1, 6277101735386680763835789423207666416102355444464034512896, 248, 1, 115792089237316195423570985008687907853269984665640564039457584007913129639936, 260, 1, 2135987035920910082395021706169552114602704522356652769947041607822219725780640550022962086936576])), (7, (dd [200, 1, 6277101735386680763835789423207666416102355444464034512896, 208, 1, 115792089237316195423570985008687907853269984665640564039457584007913129639936, 216, 1, 2135987035920910082395021706169552114602704522356652769947041607822219725780640550022962086936576, 224, 1, 39402006196394479212279040100143613805079739270465446667948293404245721771497210611414266254884915640806627990306816, 232, 1, 6277101735386680763835789423207666416102355444464034512896, 240, 1, 115792089237316195423570985008687907853269984665640564039457584007913129639936, 248, 1, 2135987035920910082395021706169552114602704522356652769947041607822219725780640550022962086936576, 260, 1, 39402006196394479212279040100143613805079739270465446667948293404245721771497210611414266254884915640806627990306816])), (6, (dd [1160, 1, 1, 1176, 1, 18446744073709551616, 1192, 1, 340282366920938463463374607431768211456, 1201, 1, 115792089237316195423570985008687907853269984665640564039457584007913129639936, 1208, 1, 6277101735386680763835789423207666416102355444464034512896])), (5, (dd [1160, 1, 18446744073709551616, 1176, 1, 340282366920938463463374607431768211456, 1192, 1, 6277101735386680763835789423207666416102355444464034512896, 1201, 1, 2135987035920910082395021706169552114602704522356652769947041607822219725780640550022962086936576, 1208, 1, 115792089237316195423570985008687907853269984665640564039457584007913129639936])), (4, (dd [1160, 1, 340282366920938463463374607431768211456, 1176, 1, 6277101735386680763835789423207666416102355444464034512896, 1192, 1, 115792089237316195423570985008687907853269984665640564039457584007913129639936, 1201, 1, 39402006196394479212279040100143613805079739270465446667948293404245721771497210611414266254884915640806627990306816, 1208, 1, 2135987035920910082395021706169552114602704522356652769947041607822219725780640550022962086936576])), (3, (dd [1160, 1, 6277101735386680763835789423207666416102355444464034512896, 1176, 1, 115792089237316195423570985008687907853269984665640564039457584007913129639936, 1192, 1, 2135987035920910082395021706169552114602704522356652769947041607822219725780640550022962086936576, 1201, 1, 726838724295606890549323807888004534353641360687318060281490199180639288113397923326191050713763565560762521606266177933534601628614656, 1208, 1, 39402006196394479212279040100143613805079739270465446667948293404245721771497210611414266254884915640806627990306816])), (2, (dd [0, 0, 13407807929942597099574024998205846127479365820592393377723561443721764030073546976801874298166903427690031858186486050853753882811946569946433649006084096])), (1, (dd [0, 1, 13407807929942597099574024998205846127479365820592393377723561443721764030073546976801874298166903427690031858186486050853753882811946569946433649006084096])), (0, (dd [0, 1, 13407807929942597099574024998205846127479365820592393377723561443721764030073546976801874298166903427690031858186486050853753882811946569946433649006084096]))]⟩]
  zb := 0
  scratch := []
  keepBP := true

theorem mul_xy_ok : mulChk Model.Asm503.mul C.mul_xy 8 1 1 [(11, (dd [200, 1, 115792089237316195423570985008687907853269984665640564039457584007913129639936, 208, 1, 2135987035920910082395021706169552114602704522356652769947041607822219725780640550022962086936576, 216, 1, 39402006196394479212279040100143613805079739270465446667948293404245721771497210611414266254884915640806627990306816, 224, 1, 726838724295606890549323807888004534353641360687318060281490199180639288113397923326191050713763565560762521606266177933534601628614656, 232, 1, 115792089237316195423570985008687907853269984665640564039457584007913129639936, 240, 1, 2135987035920910082395021706169552114602704522356652769947041607822219725780640550022962086936576, 248, 1, 39402006196394479212279040100143613805079739270465446667948293404245721771497210611414266254884915640806627990306816, 260, 1, 726838724295606890549323807888004534353641360687318060281490199180639288113397923326191050713763565560762521606266177933534601628614656])), (10, (dd [200, 1, 2135987035920910082395021706169552114602704522356652769947041607822219725780640550022962086936576, 208, 1, 39402006196394479212279040100143613805079739270465446667948293404245721771497210611414266254884915640806627990306816, 216, 1, 726838724295606890549323807888004534353641360687318060281490199180639288113397923326191050713763565560762521606266177933534601628614656, 224, 1, 13407807929942597099574024998205846127479365820592393377723561443721764030073546976801874298166903427690031858186486050853753882811946569946433649006084096, 232, 1, 2135987035920910082395021706169552114602704522356652769947041607822219725780640550022962086936576, 240, 1, 39402006196394479212279040100143613805079739270465446667948293404245721771497210611414266254884915640806627990306816, 248, 1, 726838724295606890549323807888004534353641360687318060281490199180639288113397923326191050713763565560762521606266177933534601628614656, 260, 1, 13407807929942597099574024998205846127479365820592393377723561443721764030073546976801874298166903427690031858186486050853753882811946569946433649006084096])), (9, (dd [200, 1, 39402006196394479212279040100143613805079739270465446667948293404245721771497210611414266254884915640806627990306816, 208, 1, 726838724295606890549323807888004534353641360687318060281490199180639288113397923326191050713763565560762521606266177933534601628614656, 216, 1, 13407807929942597099574024998205846127479365820592393377723561443721764030073546976801874298166903427690031858186486050853753882811946569946433649006084096, 224, 1, 247330401473104534060502521019647190035131349101211839914063056092897225106531867170316401061243044989597671426016139339351365034306751209967546155101893167916606772148699136, 232, 1, 39402006196394479212279040100143613805079739270465446667948293404245721771497210611414266254884915640806627990306816, 240, 1, 726838724295606890549323807888004534353641360687318060281490199180639288113397923326191050713763565560762521606266177933534601628614656, 248, 1, 13407807929942597099574024998205846127479365820592393377723561443721764030073546976801874298166903427690031858186486050853753882811946569946433649006084096, 260, 1, 247330401473104534060502521019647190035131349101211839914063056092897225106531867170316401061243044989597671426016139339351365034306751209967546155101893167916606772148699136])), (8, (dd [200, 1, 726838724295606890549323807888004534353641360687318060281490199180639288113397923326191050713763565560762521606266177933534601628614656, 208, 1, 13407807929942597099574024998205846127479365820592393377723561443721764030073546976801874298166903427690031858186486050853753882811946569946433649006084096, 216, 1, 247330401473104534060502521019647190035131349101211839914063056092897225106531867170316401061243044989597671426016139339351365034306751209967546155101893167916606772148699136, 224, 1, 4562440617622195218641171605700291324893228507248559930579192517899275167208677386505912811317371399778642309573594407310688704721375437998252661319722214188251994674360264950082874192246603776, 232, 1, 726838724295606890549323807888004534353641360687318060281490199180639288113397923326191050713763565560762521606266177933534601628614656, 240, 1, 13407807929942597099574024998205846127479365820592393377723561443721764030073546976801874298166903427690031858186486050853753882811946569946433649006084096, 248, 1, 247330401473104534060502521019647190035131349101211839914063056092897225106531867170316401061243044989597671426016139339351365034306751209967546155101893167916606772148699136, 260, 1, 4562440617622195218641171605700291324893228507248559930579192517899275167208677386505912811317371399778642309573594407310688704721375437998252661319722214188251994674360264950082874192246603776])), (7, (dd [1160, 1, 115792089237316195423570985008687907853269984665640564039457584007913129639936, 1176, 1, 2135987035920910082395021706169552114602704522356652769947041607822219725780640550022962086936576, 1192, 1, 39402006196394479212279040100143613805079739270465446667948293404245721771497210611414266254884915640806627990306816, 1201, 1, 13407807929942597099574024998205846127479365820592393377723561443721764030073546976801874298166903427690031858186486050853753882811946569946433649006084096, 1208, 1, 726838724295606890549323807888004534353641360687318060281490199180639288113397923326191050713763565560762521606266177933534601628614656])), (6, (dd [1160, 1, 2135987035920910082395021706169552114602704522356652769947041607822219725780640550022962086936576, 1176, 1, 39402006196394479212279040100143613805079739270465446667948293404245721771497210611414266254884915640806627990306816, 1192, 1, 726838724295606890549323807888004534353641360687318060281490199180639288113397923326191050713763565560762521606266177933534601628614656, 1201, 1, 247330401473104534060502521019647190035131349101211839914063056092897225106531867170316401061243044989597671426016139339351365034306751209967546155101893167916606772148699136, 1208, 1, 13407807929942597099574024998205846127479365820592393377723561443721764030073546976801874298166903427690031858186486050853753882811946569946433649006084096])), (5, (dd [1160, 1, 39402006196394479212279040100143613805079739270465446667948293404245721771497210611414266254884915640806627990306816, 1176, 1, 726838724295606890549323807888004534353641360687318060281490199180639288113397923326191050713763565560762521606266177933534601628614656, 1192, 1, 13407807929942597099574024998205846127479365820592393377723561443721764030073546976801874298166903427690031858186486050853753882811946569946433649006084096, 1201, 1, 4562440617622195218641171605700291324893228507248559930579192517899275167208677386505912811317371399778642309573594407310688704721375437998252661319722214188251994674360264950082874192246603776, 1208, 1, 247330401473104534060502521019647190035131349101211839914063056092897225106531867170316401061243044989597671426016139339351365034306751209967546155101893167916606772148699136])), (4, (dd [1160, 1, 726838724295606890549323807888004534353641360687318060281490199180639288113397923326191050713763565560762521606266177933534601628614656, 1176, 1, 13407807929942597099574024998205846127479365820592393377723561443721764030073546976801874298166903427690031858186486050853753882811946569946433649006084096, 1192, 1, 247330401473104534060502521019647190035131349101211839914063056092897225106531867170316401061243044989597671426016139339351365034306751209967546155101893167916606772148699136, 1201, 1, 84162174424773976115855838126082058648805436845170781751972494449099714468753293153818664580441415219631727501698851483408310916002940861810045036330430093599283578738055113571066620126149163476340692027772502016, 1208, 1, 4562440617622195218641171605700291324893228507248559930579192517899275167208677386505912811317371399778642309573594407310688704721375437998252661319722214188251994674360264950082874192246603776])), (3, (dd [0, 0, 1552518092300708935148979488462502555256886017116696611139052038026050952686376886330878408828646477950487730697131073206171580044114814391444287275041181139204454976020849905550265285631598444825262999193716468750892846853816057856])), (2, (dd [0, 1, 1552518092300708935148979488462502555256886017116696611139052038026050952686363478522948466231546903925489524851003593840350987650737090830000565511011107592227653101722683002122575253773411958774409245310904522180946413204809973760])), (1, (dd [0, 0, 179769313486231590772930519078902473361797697894230657273430081157732675805499410614616176613472387041631651377316136471641673072203277570454821379686787747491437015016036838798351731870548963046246911372040890954446706395067421700334708655564806387257800245398954699795121982939285999836084463482770408079360])), (0, (dd [0, 0, 1552518092300708935148979488462502555256886017116696611139052038026050952686376886330878408828646477950487730697131073206171580044114814391444287275041181139204454976020849905550265285631598444825262999193716468750892846853816057856]))] = true := by decide +kernel

def C.mul_bmi2 : Cert where
  S := ⟨[31, 43], [24, 12, 12], [.arr 0, .arr 1, .arr 2], 0⟩
  anns := [a0, a0, a0, a0, a0, a0, a0, a0, a2, a2, a2, a2, a1, a0, a0, a0, a0, a0, a0, a0, a0, a0, a2, a2, a2, a2, a1, a0, a0, a0, a0, a0, a0, a0, a0, a0, a0, a0, a0, a0, a0, a0, a0, a0, a0, a0, a0, a0, a0, a0, a0, a0, a0, a0, a0, a0, a0, a0, a1, a0, a0, a0, a0, a0, a0, a0, a1, a0, a0, a0, a0, a0, a0, a0, a0, a0, a0, a0, a0, a0, a0, a0, a1, a0, a0, a0, a0, a0, a0, a0, a0, a0, a0, a0, a0, a0, a1, a0, a0, a0, a0, a0, a0, a0, a0, a0, a0, a0, a0, a0, a0, a0, a0, a0, a0, a0, a0, a1, a0, a0, a0, a0, a0, a0, a0, a1, a0, a0, a0, a0, a0, a0, a0, a0, a0, a0, a0, a0, a0, a0, a0, a1, a0, a0, a0, a0, a0, a0, a0, a0, a0, a0, a0, a0, a0, a1, a0, a0, a0, a0, a0, a0, a0, a0, a0, a0, a0, a0, a0, a0, a0, a0, a0, a0, a0, a0, a1, a0, a0, a0, a0, a0, a0, a0, a1, a0, a0, a0, a0, a0, a0, a0, a0, a0, a0, a0, a0, a0, a0, a0, a1, a0, a0, a0, a0, a0, a0, a0, a0, a0, a0, a0, a0, a0, a1, a0, a0, a0, a0, a0, a0, a0, a0, a0, a0, a0, a0, a0, a0, a0, a0, a0, a0, a0, a0, a0, a0, a0, a0, a0, a0, a0, a0, a0, a0, a0, a0, a0, a0, a0, a0, a0, a0, a0, a0, a0, a0, a0, a0, a0, a0, a0, a0, a0, a0, a0, a0, a0, a0, a0, a0, a0, a0, a0, a0, a0, a0, a0, a0, a0, a0, a0, a0, a0, a0, a0, a0, a0, a0, a0]
  hints := [⟨[154, 153, 152], (dd [2193, 0, 1]), []⟩, ⟨[142, 141, 140, 139], (dd [2433, 0, 1]), [(0, (dd [0, 0, 6277101735386680763835789423207666416102355444464034512896]))]⟩, ⟨[130, 129, 128, 127, 126], (dd [2705, 0, 1]), [(1, (dd [0, 0, 6277101735386680763835789423207666416102355444464034512896])), (0, (dd [0, 0, 115792089237316195423570985008687907853269984665640564039457584007913129639936]))]⟩, ⟨[107, 106, 105], (dd [3137, 0, 1]), []⟩, ⟨[95, 94, 93, 92], (dd [3377, 0, 1]), [(0, (dd [0, 0, 6277101735386680763835789423207666416102355444464034512896]))]⟩, ⟨[83, 82, 81, 80, 79], (dd [3649, 0, 1]), [(1, (dd [0, 0, 6277101735386680763835789423207666416102355444464034512896])), (0, (dd [0, 0, 115792089237316195423570985008687907853269984665640564039457584007913129639936]))]⟩, ⟨[59, 58], (dd [4081, 0, 1]), []⟩, ⟨[46, 45], (dd [4321, 0, 1]), [(0, (dd [0, 0, 18446744073709551616]))]⟩, ⟨[33, 32], (dd [4593, 0, 1]), [(0, (dd [0, 0, 18446744073709551616]))]⟩, ⟨[19, 18, 17, 16, 15, 14, 13, 12], (dd [1697, 0, 1, 4817, 0, 1, 5009, 1, 1, 5137, 1, 1, 78710161, 0, 1]), [(16, (dd [296, 1, 1, 304, 1, 18446744073709551616, 312, 1, 340282366920938463463374607431768211456, 320, 1, 6277101735386680763835789423207666416102355444464034512896, 328, 1, 1, 336, 1, 18446744073709551616, 344, 1, 340282366920938463463374607431768211456, 356, 1, 6277101735386680763835789423207666416102355444464034512896])), (15, (dd [296, 1, 18446744073709551616, 304, 1, 340282366920938463463374607431768211456, 312, 1, 6277101735386680763835789423207666416102355444464034512896, 320, 1, 115792089237316195423570985008687907853269984665640564039457584007913129639936, 328, 1, 18446744073709551616, 336, 1, 340282366920938463463374607431768211456, 344, 1, 6277101735386680763835789423207666416102355444464034512896, 356, 1, 115792089237316195423570985008687907853269984665640564039457584007913129639936])), (14, (dd [296, 1, 340282366920938463463374607431768211456, 304, 1, 6277101735386680763835789423207666416102355444464034512896, 312, 1, 115792089237316195423570985008687907853269984665640564039457584007913129639936, 320, 1, 2135987035920910082395021706169552114602704522356652769947041607822219725780640550022962086936576, 328, 1, 340282366920938463463374607431768211456, 336, 1, 6277101735386680763835789423207666416102355444464034512896, 344, 1, 115792089237316195423570985008687907853269984665640564039457584007913129639936, 356, 1, 2135987035920910082395021706169552114602704522356652769947041607822219725780640550022962086936576])), (13, (dd [296, 1, 6277101735386680763835789423207666416102355444464034512896, 304, 1, 115792089237316195423570985008687907853269984665640564039457584007913129639936, 312, 1, 2135987035920910082395021706169552114602704522356652769947041607822219725780640550022962086936576, 320, 1, 39402006196394479212279040100143613805079739270465446667948293404245721771497210611414266254884915640806627990306816, 328, 1, 6277101735386680763835789423207666416102355444464034512896, 336, 1, 115792089237316195423570985008687907853269984665640564039457584007913129639936, 344, 1, 2135987035920910082395021706169552114602704522356652769947041607822219725780640550022962086936576, 356, 1, 39402006196394479212279040100143613805079739270465446667948293404245721771497210611414266254884915640806627990306816])), (12, (dd [1160, 1, 1, 1176, 1, 18446744073709551616, 1192, 1, 340282366920938463463374607431768211456, 1201, 1, 115792089237316195423570985008687907853269984665640564039457584007913129639936, 1208, 1, 6277101735386680763835789423207666416102355444464034512896])), (11, (dd [1160, 1, 18446744073709551616, 1176, 1, 340282366920938463463374607431768211456, 1192, 1, 6277101735386680763835789423207666416102355444464034512896, 1201, 1, 2135987035920910082395021706169552114602704522356652769947041607822219725780640550022962086936576, 1208, 1, 115792089237316195423570985008687907853269984665640564039457584007913129639936])), (10, (dd [1160, 1, 340282366920938463463374607431768211456, 1176, 1, 6277101735386680763835789423207666416102355444464034512896, 1192, 1, 115792089237316195423570985008687907853269984665640564039457584007913129639936, 1201, 1, 39402006196394479212279040100143613805079739270465446667948293404245721771497210611414266254884915640806627990306816, 1208, 1, 2135987035920910082395021706169552114602704522356652769947041607822219725780640550022962086936576])), (9, (dd [1160, 1, 6277101735386680763835789423207666416102355444464034512896, 1176, 1, 115792089237316195423570985008687907853269984665640564039457584007913129639936, 1192, 1, 2135987035920910082395021706169552114602704522356652769947041607822219725780640550022962086936576, 1201, 1, 726838724295606890549323807888004534353641360687318060281490199180639288113397923326191050713763565560762521606266177933534601628614656, 1208, 1, 39402006196394479212279040100143613805079739270465446667948293404245721771497210611414266254884915640806627990306816])), (8, (dd [0, 0, 39402006196394479212279040100143613805079739270465446667948293404245721771497210611414266254884915640806627990306816])), (7, (dd [0, 0, 726838724295606890549323807888004534353641360687318060281490199180639288113397923326191050713763565560762521606266177933534601628614656])), (6, (dd [0, 0, 13407807929942597099574024998205846127479365820592393377723561443721764030073546976801874298166903427690031858186486050853753882811946569946433649006084096])), (5, (dd [0, 1, 39402006196394479212279040100143613805079739270465446667948293404245721771497210611414266254884915640806627990306816])), (4, (dd [0, 1, 726838724295606890549323807888004534353641360687318060281490199180639288113397923326191050713763565560762521606266177933534601628614656])), (3, (dd [0, 1, 13407807929942597099574024998205846127479365820592393377723561443721764030073546976801874298166903427690031858186486050853753882811946569946433649006084096])), (2, (dd [0, 1, 39402006196394479212279040100143613805079739270465446667948293404245721771497210611414266254884915640806627990306816])), (1, (dd [0, 1, 726838724295606890549323807888004534353641360687318060281490199180639288113397923326191050713763565560762521606266177933534601628614656])), (0, (dd [0, 1, 13407807929942597099574024998205846127479365820592393377723561443721764030073546976801874298166903427690031858186486050853753882811946569946433649006084096]))]⟩]
  zb := 0
  scratch := []
  keepBP := true

theorem mul_bmi2_ok : mulChk Model.Asm503.mul_bmi2 C.mul_bmi2 8 1 2 [(17, (dd [296, 1, 115792089237316195423570985008687907853269984665640564039457584007913129639936, 304, 1, 2135987035920910082395021706169552114602704522356652769947041607822219725780640550022962086936576, 312, 1, 39402006196394479212279040100143613805079739270465446667948293404245721771497210611414266254884915640806627990306816, 320, 1, 726838724295606890549323807888004534353641360687318060281490199180639288113397923326191050713763565560762521606266177933534601628614656, 328, 1, 115792089237316195423570985008687907853269984665640564039457584007913129639936, 336, 1, 2135987035920910082395021706169552114602704522356652769947041607822219725780640550022962086936576, 344, 1, 39402006196394479212279040100143613805079739270465446667948293404245721771497210611414266254884915640806627990306816, 356, 1, 726838724295606890549323807888004534353641360687318060281490199180639288113397923326191050713763565560762521606266177933534601628614656])), (16, (dd [296, 1, 2135987035920910082395021706169552114602704522356652769947041607822219725780640550022962086936576, 304, 1, 39402006196394479212279040100143613805079739270465446667948293404245721771497210611414266254884915640806627990306816, 312, 1, 726838724295606890549323807888004534353641360687318060281490199180639288113397923326191050713763565560762521606266177933534601628614656, 320, 1, 13407807929942597099574024998205846127479365820592393377723561443721764030073546976801874298166903427690031858186486050853753882811946569946433649006084096, 328, 1, 2135987035920910082395021706169552114602704522356652769947041607822219725780640550022962086936576, 336, 1, 39402006196394479212279040100143613805079739270465446667948293404245721771497210611414266254884915640806627990306816, 344, 1, 726838724295606890549323807888004534353641360687318060281490199180639288113397923326191050713763565560762521606266177933534601628614656, 356, 1, 13407807929942597099574024998205846127479365820592393377723561443721764030073546976801874298166903427690031858186486050853753882811946569946433649006084096])), (15, (dd [296, 1, 39402006196394479212279040100143613805079739270465446667948293404245721771497210611414266254884915640806627990306816, 304, 1, 726838724295606890549323807888004534353641360687318060281490199180639288113397923326191050713763565560762521606266177933534601628614656, 312, 1, 13407807929942597099574024998205846127479365820592393377723561443721764030073546976801874298166903427690031858186486050853753882811946569946433649006084096, 320, 1, 247330401473104534060502521019647190035131349101211839914063056092897225106531867170316401061243044989597671426016139339351365034306751209967546155101893167916606772148699136, 328, 1, 39402006196394479212279040100143613805079739270465446667948293404245721771497210611414266254884915640806627990306816, 336, 1, 726838724295606890549323807888004534353641360687318060281490199180639288113397923326191050713763565560762521606266177933534601628614656, 344, 1, 13407807929942597099574024998205846127479365820592393377723561443721764030073546976801874298166903427690031858186486050853753882811946569946433649006084096, 356, 1, 247330401473104534060502521019647190035131349101211839914063056092897225106531867170316401061243044989597671426016139339351365034306751209967546155101893167916606772148699136])), (14, (dd [296, 1, 726838724295606890549323807888004534353641360687318060281490199180639288113397923326191050713763565560762521606266177933534601628614656, 304, 1, 13407807929942597099574024998205846127479365820592393377723561443721764030073546976801874298166903427690031858186486050853753882811946569946433649006084096, 312, 1, 247330401473104534060502521019647190035131349101211839914063056092897225106531867170316401061243044989597671426016139339351365034306751209967546155101893167916606772148699136, 320, 1, 4562440617622195218641171605700291324893228507248559930579192517899275167208677386505912811317371399778642309573594407310688704721375437998252661319722214188251994674360264950082874192246603776, 328, 1, 726838724295606890549323807888004534353641360687318060281490199180639288113397923326191050713763565560762521606266177933534601628614656, 336, 1, 13407807929942597099574024998205846127479365820592393377723561443721764030073546976801874298166903427690031858186486050853753882811946569946433649006084096, 344, 1, 247330401473104534060502521019647190035131349101211839914063056092897225106531867170316401061243044989597671426016139339351365034306751209967546155101893167916606772148699136, 356, 1, 4562440617622195218641171605700291324893228507248559930579192517899275167208677386505912811317371399778642309573594407310688704721375437998252661319722214188251994674360264950082874192246603776])), (13, (dd [1160, 1, 115792089237316195423570985008687907853269984665640564039457584007913129639936, 1176, 1, 2135987035920910082395021706169552114602704522356652769947041607822219725780640550022962086936576, 1192, 1, 39402006196394479212279040100143613805079739270465446667948293404245721771497210611414266254884915640806627990306816, 1201, 1, 13407807929942597099574024998205846127479365820592393377723561443721764030073546976801874298166903427690031858186486050853753882811946569946433649006084096, 1208, 1, 726838724295606890549323807888004534353641360687318060281490199180639288113397923326191050713763565560762521606266177933534601628614656])), (12, (dd [1160, 1, 2135987035920910082395021706169552114602704522356652769947041607822219725780640550022962086936576, 1176, 1, 39402006196394479212279040100143613805079739270465446667948293404245721771497210611414266254884915640806627990306816, 1192, 1, 726838724295606890549323807888004534353641360687318060281490199180639288113397923326191050713763565560762521606266177933534601628614656, 1201, 1, 247330401473104534060502521019647190035131349101211839914063056092897225106531867170316401061243044989597671426016139339351365034306751209967546155101893167916606772148699136, 1208, 1, 13407807929942597099574024998205846127479365820592393377723561443721764030073546976801874298166903427690031858186486050853753882811946569946433649006084096])), (11, (dd [1160, 1, 39402006196394479212279040100143613805079739270465446667948293404245721771497210611414266254884915640806627990306816, 1176, 1, 726838724295606890549323807888004534353641360687318060281490199180639288113397923326191050713763565560762521606266177933534601628614656, 1192, 1, 13407807929942597099574024998205846127479365820592393377723561443721764030073546976801874298166903427690031858186486050853753882811946569946433649006084096, 1201, 1, 4562440617622195218641171605700291324893228507248559930579192517899275167208677386505912811317371399778642309573594407310688704721375437998252661319722214188251994674360264950082874192246603776, 1208, 1, 247330401473104534060502521019647190035131349101211839914063056092897225106531867170316401061243044989597671426016139339351365034306751209967546155101893167916606772148699136])), (10, (dd [1160, 1, 726838724295606890549323807888004534353641360687318060281490199180639288113397923326191050713763565560762521606266177933534601628614656, 1176, 1, 13407807929942597099574024998205846127479365820592393377723561443721764030073546976801874298166903427690031858186486050853753882811946569946433649006084096, 1192, 1, 247330401473104534060502521019647190035131349101211839914063056092897225106531867170316401061243044989597671426016139339351365034306751209967546155101893167916606772148699136, 1201, 1, 84162174424773976115855838126082058648805436845170781751972494449099714468753293153818664580441415219631727501698851483408310916002940861810045036330430093599283578738055113571066620126149163476340692027772502016, 1208, 1, 4562440617622195218641171605700291324893228507248559930579192517899275167208677386505912811317371399778642309573594407310688704721375437998252661319722214188251994674360264950082874192246603776])), (9, (dd [0, 0, 4562440617622195218641171605700291324893228507248559930579192517899275167208677386505912811317371399778642309573594407310688704721375437998252661319722214188251994674360264950082874192246603776])), (8, (dd [0, 0, 84162174424773976115855838126082058648805436845170781751972494449099714468753293153818664580441415219631727501698851483408310916002940861810045036330430093599283578738055113571066620126149163476340692027772502016])), (7, (dd [0, 0, 1552518092300708935148979488462502555256886017116696611139052038026050952686376886330878408828646477950487730697131073206171580044114814391444287275041181139204454976020849905550265285631598444825262999193716468750892846853816057856])), (6, (dd [0, 1, 4562440617622195218641171605700291324893228507248559930579192517899275167208637984499716416838159120738542165959789327571418239274707489704848415597950716977640580408105380034442067564256296960])), (5, (dd [0, 1, 84162174424773976115855838126082058648805436845170781751972494449099714468752566315094368973550865895823839497164497842047623597942659371610864397042316695675957387687341350005505857604542897298407157426143887360])), (4, (dd [0, 1, 1552518092300708935148979488462502555256886017116696611139052038026050952686363478522948466231546903925489524851003593840350987650737090830000565511011107592227653101722683002122575253773411958774409245310904522180946413204809973760])), (3, (dd [0, 0, 528294531135665246352339784916516606518847326036121522127960709026673902556720297033799633692438546723068694701932235450375098999572106344732639703295730899521880771187687712768952875366852846645713544203489812966149775631431839524650144904092676211539455706705491394560])), (2, (dd [0, 0, 9745314011399999080353382387875188310876226857595007526867906457212948690766341940291190291905894403387178834172759862746613999083451121552128887581843900126377459035376031614651157927988354796869391282563215438011875552889064444852147080036730910499256672182978128383605487897964141608960])), (1, (dd [0, 0, 179769313486231590772930519078902473361797697894230657273430081157732675805499410614616176613472387041631651377316136471641673072203277570454821379686787747491437015016036838798351731870548963046246911372040890954446706395067421700334708655564806387257800245398954699795121982939285999836084463482770408079360])), (0, (dd [0, 0, 1552518092300708935148979488462502555256886017116696611139052038026050952686376886330878408828646477950487730697131073206171580044114814391444287275041181139204454976020849905550265285631598444825262999193716468750892846853816057856]))] = true := by decide +kernel

def C.mul_bmi2_xy : Cert where
  S := ⟨[31], [24, 12], [.arr 0, .arr 1, .arr 1], 0⟩
  anns := [a0, a0, a0, a0, a0, a0, a0, a0, a2, a2, a2, a2, a1, a0, a0, a0, a0, a0, a0, a0, a0, a0, a2, a2, a2, a2, a1, a0, a0, a0, a0, a0, a0, a0, a0, a0, a0, a0, a0, a0, a0, a0, a0, a0, a0, a0, a0, a0, a0, a0, a0, a0, a0, a0, a0, a0, a0, a0, a1, a0, a0, a0, a0, a0, a0, a0, a1, a0, a0, a0, a0, a0, a0, a0, a0, a0, a0, a0, a0, a0, a0, a0, a1, a0, a0, a0, a0, a0, a0, a0, a0, a0, a0, a0, a0, a0, a1, a0, a0, a0, a0, a0, a0, a0, a0, a0, a0, a0, a0, a0, a0, a0, a0, a0, a0, a0, a0, a1, a0, a0, a0, a0, a0, a0, a0, a1, a0, a0, a0, a0, a0, a0, a0, a0, a0, a0, a0, a0, a0, a0, a0, a1, a0, a0, a0, a0, a0, a0, a0, a0, a0, a0, a0, a0, a0, a1, a0, a0, a0, a0, a0, a0, a0, a0, a0, a0, a0, a0, a0, a0, a0, a0, a0, a0, a0, a0, a1, a0, a0, a0, a0, a0, a0, a0, a1, a0, a0, a0, a0, a0, a0, a0, a0, a0, a0, a0, a0, a0, a0, a0, a1, a0, a0, a0, a0, a0, a0, a0, a0, a0, a0, a0, a0, a0, a1, a0, a0, a0, a0, a0, a0, a0, a0, a0, a0, a0, a0, a0, a0, a0, a0, a0, a0, a0, a0, a0, a0, a0, a0, a0, a0, a0, a0, a0, a0, a0, a0, a0, a0, a0, a0, a0, a0, a0, a0, a0, a0, a0, a0, a0, a0, a0, a0, a0, a0, a0, a0, a0, a0, a0, a0, a0, a0, a0, a0, a0, a0, a0, a0, a0, a0, a0, a0, a0, a0, a0, a0, a0, a0, a0]
  hints := [⟨[154, 153, 152], (dd [2193, 0, 1]), []⟩, ⟨[142, 141, 140, 139], (dd [2433, 0, 1]), [(0, (dd [0, 0, 6277101735386680763835789423207666416102355444464034512896]))]⟩, ⟨[130, 129, 128, 127, 126], (dd [2705, 0, 1]), [(1, (dd [0, 0, 6277101735386680763835789423207666416102355444464034512896])), (0, (dd [0, 0, 115792089237316195423570985008687907853269984665640564039457584007913129639936]))]⟩, ⟨[107, 106, 105], (dd [3137, 0, 1]), []⟩, ⟨[95, 94, 93, 92], (dd [3377, 0, 1]), [(0, (dd [0, 0, 6277101735386680763835789423207666416102355444464034512896]))]⟩, ⟨[83, 82, 81, 80, 79], (dd [3649, 0, 1]), [(1, (dd [0, 0, 6277101735386680763835789423207666416102355444464034512896])), (0, (dd [0, 0, 115792089237316195423570985008687907853269984665640564039457584007913129639936]))]⟩, ⟨[59, 58], (dd [4081, 0, 1]), []⟩, ⟨[46, 45], (dd [4321, 0, 1]), [(0, (dd [0, 0, 18446744073709551616]))]⟩, ⟨[33, 32], (dd [4593, 0, 1]), [(0, (dd [0, 0, 18446744073709551616]))]⟩, ⟨[19, 18, 17, 16, 15, 14, 13, 12], (dd [1697, 0, 1, 4817, 0, 1, 5009, 1, 1, 5137, 1, 1, 78710161, 0, 1]), [(16, (dd [200, 1, 1, 208, 1, 18446744073709551616, 216, 1, 340282366920938463463374607431768211456, 224, 1, 6277101735386680763835789423207666416102355444464034512896, 232, 1, 1, 240, 1, 18446744073709551616, 248, 1, 340282366920938463463374607431768211456, 260, 1, 6277101735386680763835789423207666416102355444464034512896])), (15, (dd [200, 1, 18446744073709551616, 208, 1, 340282366920938463463374607431768211456, 216, 1, 6277101735386680763835789423207666416102355444464034512896, 224, 1, 115792089237316195423570985008687907853269984665640564039457584007913129639936, 232, 1, 18446744073709551616, 240, 1, 340282366920938463463374607431768211456, 248, 1, 6277101735386680763835789423207666416102355444464034512896, 260, 1, 115792089237316195423570985008687907853269984665640564039457584007913129639936])), (14, (dd [200, 1, 340282366920938463463374607431768211456, 208, 1, 6277101735386680763835789423207666416102355444464034512896, 216, 1, 115792089237316195423570985008687907853269984665640564039457584007913129639936, 224, 1, 2135987035920910082395021706169552114602704522356652769947041607822219725780640550022962086936576, 232, 1, 340282366920938463463374607431768211456, 240, 1, 6277101735386680763835789423207666416102355444464034512896, 248, 1, 115792089237316195423570985008687907853269984665640564039457584007913129639936, 260, 1, 2135987035920910082395021706169552114602704522356652769947041607822219725780640550022962086936576])), (13, (dd [200, 1, 6277101735386680763835789423207666416102355444464034512896, 208, 1, 115792089237316195423570985008687907853269984665640564039457584007913129639936, 216, 1, 2135987035920910082395021706169552114602704522356652769947041607822219725780640550022962086936576, 224, 1, 39402006196394479212279040100143613805079739270465446667948293404245721771497210611414266254884915640806627990306816, 232, 1, 6277101735386680763835789423207666416102355444464034512896, 240, 1, 115792089237316195423570985008687907853269984665640564039457584007913129639936, 248, 1, 2135987035920910082395021706169552114602704522356652769947041607822219725780640550022962086936576, 260, 1, 39402006196394479212279040100143613805079739270465446667948293404245721771497210611414266254884915640806627990306816])), (12, (dd [1160, 1, 1, 1176, 1, 18446744073709551616, 1192, 1, 340282366920938463463374607431768211456, 1201, 1, 115792089237316195423570985008687907853269984665640564039457584007913129639936, 1208, 1, 6277101735386680763835789423207666416102355444464034512896])), (11, (dd [1160, 1, 18446744073709551616, 1176, 1, 340282366920938463463374607431768211456, 1192, 1, 6277101735386680763835789423207666416102355444464034512896, 1201, 1, 2135987035920910082395021706169552114602704522356652769947041607822219725780640550022962086936576, 1208, 1, 115792089237316195423570985008687907853269984665640564039457584007913129639936])), (10, (dd [1160, 1, 340282366920938463463374607431768211456, 1176, 1, 6277101735386680763835789423207666416102355444464034512896, 1192, 1, 115792089237316195423570985008687907853269984665640564039457584007913129639936, 1201, 1, 39402006196394479212279040100143613805079739270465446667948293404245721771497210611414266254884915640806627990306816, 1208, 1, 2135987035920910082395021706169552114602704522356652769947041607822219725780640550022962086936576])), (9, (dd [1160, 1, 6277101735386680763835789423207666416102355444464034512896, 1176, 1, 115792089237316195423570985008687907853269984665640564039457584007913129639936, 1192, 1, 2135987035920910082395021706169552114602704522356652769947041607822219725780640550022962086936576, 1201, 1, 726838724295606890549323807888004534353641360687318060281490199180639288113397923326191050713763565560762521606266177933534601628614656, 1208, 1, 39402006196394479212279040100143613805079739270465446667948293404245721771497210611414266254884915640806627990306816])), (8, (dd [0, 0, 39402006196394479212279040100143613805079739270465446667948293404245721771497210611414266254884915640806627990306816])), (7, (dd [0, 0, 726838724295606890549323807888004534353641360687318060281490199180639288113397923326191050713763565560762521606266177933534601628614656])), (6, (dd [0, 0, 13407807929942597099574024998205846127479365820592393377723561443721764030073546976801874298166903427690031858186486050853753882811946569946433649006084096])), (5, (dd [0, 1, 39402006196394479212279040100143613805079739270465446667948293404245721771497210611414266254884915640806627990306816])), (4, (dd [0, 1, 726838724295606890549323807888004534353641360687318060281490199180639288113397923326191050713763565560762521606266177933534601628614656])), (3, (dd [0, 1, 13407807929942597099574024998205846127479365820592393377723561443721764030073546976801874298166903427690031858186486050853753882811946569946433649006084096])), (2, (dd [0, 1, 39402006196394479212279040100143613805079739270465446667948293404245721771497210611414266254884915640806627990306816])), (1, (dd [0, 1, 726838724295606890549323807888004534353641360687318060281490199180639288113397923326191050713763565560762521606266177933534601628614656])), (0, (dd [0, 1, 13407807929942597099574024998205846127479365820592393377723561443721764030073546976801874298166903427690031858186486050853753882811946569946433649006084096]))]⟩]
  zb := 0
  scratch := []
  keepBP := true

theorem mul_bmi2_xy_ok : mulChk Model.Asm503.mul_bmi2 C.mul_bmi2_xy 8 1 1 [(17, (dd [200, 1, 115792089237316195423570985008687907853269984665640564039457584007913129639936, 208, 1, 2135987035920910082395021706169552114602704522356652769947041607822219725780640550022962086936576, 216, 1, 39402006196394479212279040100143613805079739270465446667948293404245721771497210611414266254884915640806627990306816, 224, 1, 726838724295606890549323807888004534353641360687318060281490199180639288113397923326191050713763565560762521606266177933534601628614656, 232, 1, 115792089237316195423570985008687907853269984665640564039457584007913129639936, 240, 1, 2135987035920910082395021706169552114602704522356652769947041607822219725780640550022962086936576, 248, 1, 39402006196394479212279040100143613805079739270465446667948293404245721771497210611414266254884915640806627990306816, 260, 1, 726838724295606890549323807888004534353641360687318060281490199180639288113397923326191050713763565560762521606266177933534601628614656])), (16, (dd [200, 1, 2135987035920910082395021706169552114602704522356652769947041607822219725780640550022962086936576, 208, 1, 39402006196394479212279040100143613805079739270465446667948293404245721771497210611414266254884915640806627990306816, 216, 1, 726838724295606890549323807888004534353641360687318060281490199180639288113397923326191050713763565560762521606266177933534601628614656, 224, 1, 13407807929942597099574024998205846127479365820592393377723561443721764030073546976801874298166903427690031858186486050853753882811946569946433649006084096, 232, 1, 2135987035920910082395021706169552114602704522356652769947041607822219725780640550022962086936576, 240, 1, 39402006196394479212279040100143613805079739270465446667948293404245721771497210611414266254884915640806627990306816, 248, 1, 726838724295606890549323807888004534353641360687318060281490199180639288113397923326191050713763565560762521606266177933534601628614656, 260, 1, 13407807929942597099574024998205846127479365820592393377723561443721764030073546976801874298166903427690031858186486050853753882811946569946433649006084096])), (15, (dd [200, 1, 39402006196394479212279040100143613805079739270465446667948293404245721771497210611414266254884915640806627990306816, 208, 1, 726838724295606890549323807888004534353641360687318060281490199180639288113397923326191050713763565560762521606266177933534601628614656, 216, 1, 13407807929942597099574024998205846127479365820592393377723561443721764030073546976801874298166903427690031858186486050853753882811946569946433649006084096, 224, 1, 247330401473104534060502521019647190035131349101211839914063056092897225106531867170316401061243044989597671426016139339351365034306751209967546155101893167916606772148699136, 232, 1, 39402006196394479212279040100143613805079739270465446667948293404245721771497210611414266254884915640806627990306816, 240, 1, 726838724295606890549323807888004534353641360687318060281490199180639288113397923326191050713763565560762521606266177933534601628614656, 248, 1, 13407807929942597099574024998205846127479365820592393377723561443721764030073546976801874298166903427690031858186486050853753882811946569946433649006084096, 260, 1, 247330401473104534060502521019647190035131349101211839914063056092897225106531867170316401061243044989597671426016139339351365034306751209967546155101893167916606772148699136])), (14, (dd [200, 1, 726838724295606890549323807888004534353641360687318060281490199180639288113397923326191050713763565560762521606266177933534601628614656, 208, 1, 13407807929942597099574024998205846127479365820592393377723561443721764030073546976801874298166903427690031858186486050853753882811946569946433649006084096, 216, 1, 247330401473104534060502521019647190035131349101211839914063056092897225106531867170316401061243044989597671426016139339351365034306751209967546155101893167916606772148699136, 224, 1, 4562440617622195218641171605700291324893228507248559930579192517899275167208677386505912811317371399778642309573594407310688704721375437998252661319722214188251994674360264950082874192246603776, 232, 1, 726838724295606890549323807888004534353641360687318060281490199180639288113397923326191050713763565560762521606266177933534601628614656, 240, 1, 13407807929942597099574024998205846127479365820592393377723561443721764030073546976801874298166903427690031858186486050853753882811946569946433649006084096, 248, 1, 247330401473104534060502521019647190035131349101211839914063056092897225106531867170316401061243044989597671426016139339351365034306751209967546155101893167916606772148699136, 260, 1, 4562440617622195218641171605700291324893228507248559930579192517899275167208677386505912811317371399778642309573594407310688704721375437998252661319722214188251994674360264950082874192246603776])), (13, (dd [1160, 1, 115792089237316195423570985008687907853269984665640564039457584007913129639936, 1176, 1, 2135987035920910082395021706169552114602704522356652769947041607822219725780640550022962086936576, 1192, 1, 39402006196394479212279040100143613805079739270465446667948293404245721771497210611414266254884915640806627990306816, 1201, 1, 13407807929942597099574024998205846127479365820592393377723561443721764030073546976801874298166903427690031858186486050853753882811946569946433649006084096, 1208, 1, 726838724295606890549323807888004534353641360687318060281490199180639288113397923326191050713763565560762521606266177933534601628614656])), (12, (dd [1160, 1, 2135987035920910082395021706169552114602704522356652769947041607822219725780640550022962086936576, 1176, 1, 39402006196394479212279040100143613805079739270465446667948293404245721771497210611414266254884915640806627990306816, 1192, 1, 726838724295606890549323807888004534353641360687318060281490199180639288113397923326191050713763565560762521606266177933534601628614656, 1201, 1, 247330401473104534060502521019647190035131349101211839914063056092897225106531867170316401061243044989597671426016139339351365034306751209967546155101893167916606772148699136, 1208, 1, 13407807929942597099574024998205846127479365820592393377723561443721764030073546976801874298166903427690031858186486050853753882811946569946433649006084096])), (11, (dd [1160, 1, 39402006196394479212279040100143613805079739270465446667948293404245721771497210611414266254884915640806627990306816, 1176, 1, 726838724295606890549323807888004534353641360687318060281490199180639288113397923326191050713763565560762521606266177933534601628614656, 1192, 1, 13407807929942597099574024998205846127479365820592393377723561443721764030073546976801874298166903427690031858186486050853753882811946569946433649006084096, 1201, 1, 4562440617622195218641171605700291324893228507248559930579192517899275167208677386505912811317371399778642309573594407310688704721375437998252661319722214188251994674360264950082874192246603776, 1208, 1, 247330401473104534060502521019647190035131349101211839914063056092897225106531867170316401061243044989597671426016139339351365034306751209967546155101893167916606772148699136])), (10, (dd [1160, 1, 726838724295606890549323807888004534353641360687318060281490199180639288113397923326191050713763565560762521606266177933534601628614656, 1176, 1, 13407807929942597099574024998205846127479365820592393377723561443721764030073546976801874298166903427690031858186486050853753882811946569946433649006084096, 1192, 1, 247330401473104534060502521019647190035131349101211839914063056092897225106531867170316401061243044989597671426016139339351365034306751209967546155101893167916606772148699136, 1201, 1, 84162174424773976115855838126082058648805436845170781751972494449099714468753293153818664580441415219631727501698851483408310916002940861810045036330430093599283578738055113571066620126149163476340692027772502016, 1208, 1, 4562440617622195218641171605700291324893228507248559930579192517899275167208677386505912811317371399778642309573594407310688704721375437998252661319722214188251994674360264950082874192246603776])), (9, (dd [0, 0, 4562440617622195218641171605700291324893228507248559930579192517899275167208677386505912811317371399778642309573594407310688704721375437998252661319722214188251994674360264950082874192246603776])), (8, (dd [0, 0, 84162174424773976115855838126082058648805436845170781751972494449099714468753293153818664580441415219631727501698851483408310916002940861810045036330430093599283578738055113571066620126149163476340692027772502016])), (7, (dd [0, 0, 1552518092300708935148979488462502555256886017116696611139052038026050952686376886330878408828646477950487730697131073206171580044114814391444287275041181139204454976020849905550265285631598444825262999193716468750892846853816057856])), (6, (dd [0, 1, 4562440617622195218641171605700291324893228507248559930579192517899275167208637984499716416838159120738542165959789327571418239274707489704848415597950716977640580408105380034442067564256296960])), (5, (dd [0, 1, 84162174424773976115855838126082058648805436845170781751972494449099714468752566315094368973550865895823839497164497842047623597942659371610864397042316695675957387687341350005505857604542897298407157426143887360])), (4, (dd [0, 1, 1552518092300708935148979488462502555256886017116696611139052038026050952686363478522948466231546903925489524851003593840350987650737090830000565511011107592227653101722683002122575253773411958774409245310904522180946413204809973760])), (3, (dd [0, 0, 528294531135665246352339784916516606518847326036121522127960709026673902556720297033799633692438546723068694701932235450375098999572106344732639703295730899521880771187687712768952875366852846645713544203489812966149775631431839524650144904092676211539455706705491394560])), (2, (dd [0, 0, 9745314011399999080353382387875188310876226857595007526867906457212948690766341940291190291905894403387178834172759862746613999083451121552128887581843900126377459035376031614651157927988354796869391282563215438011875552889064444852147080036730910499256672182978128383605487897964141608960])), (1, (dd [0, 0, 179769313486231590772930519078902473361797697894230657273430081157732675805499410614616176613472387041631651377316136471641673072203277570454821379686787747491437015016036838798351731870548963046246911372040890954446706395067421700334708655564806387257800245398954699795121982939285999836084463482770408079360])), (0, (dd [0, 0, 1552518092300708935148979488462502555256886017116696611139052038026050952686376886330878408828646477950487730697131073206171580044114814391444287275041181139204454976020849905550265285631598444825262999193716468750892846853816057856]))] = true := by decide +kernel

def C.mul_adx : Cert where
  S := ⟨[31, 43], [24, 12, 12], [.arr 0, .arr 1, .arr 2], 0⟩
  anns := [a0, a0, a0, a0, a0, a0, a0, a0, a2, a2, a2, a2, a1, a0, a0, a0, a0, a0, a0, a0, a0, a0, a2, a2, a2, a2, a1, a0, a0, a0, a0, a0, a0, a0, a0, a0, a0, a0, a0, a0, a0, a0, a0, a0, a0, a0, a0, a0, a0, a0, a0, a0, a0, a0, a0, a0, a0, a0, a0, a0, a1, a0, a0, a0, a0, a0, a0, a0, a0, a0, a0, a1, a0, a0, a0, a0, a0, a0, a0, a0, a0, a0, a0, a0, a0, a0, a0, a0, a1, a0, a0, a0, a0, a0, a0, a0, a0, a0, a0, a0, a0, a0, a1, a0, a0, a0, a0, a0, a0, a0, a0, a0, a0, a0, a0, a0, a0, a0, a0, a0, a0, a0, a0, a1, a0, a0, a0, a0, a0, a0, a0, a0, a0, a0, a1, a0, a0, a0, a0, a0, a0, a0, a0, a0, a0, a0, a0, a0, a0, a0, a0, a1, a0, a0, a0, a0, a0, a0, a0, a0, a0, a0, a0, a0, a0, a1, a0, a0, a0, a0, a0, a0, a0, a0, a0, a0, a0, a0, a0, a0, a0, a0, a0, a0, a0, a0, a1, a0, a0, a0, a0, a0, a0, a0, a0, a0, a0, a1, a0, a0, a0, a0, a0, a0, a0, a0, a0, a0, a0, a0, a0, a0, a0, a0, a1, a0, a0, a0, a0, a0, a0, a0, a0, a0, a0, a0, a0, a0, a1, a0, a0, a0, a0, a0, a0, a0, a0, a0, a0, a0, a0, a0, a0, a0, a0, a0, a0, a0, a0, a0, a0, a0, a0, a0, a0, a0, a0, a0, a0, a0, a0, a0, a0, a0, a0, a0, a0, a0, a0, a0, a0, a0, a0, a0, a0, a0, a0, a0, a0, a0, a0, a0, a0, a0, a0, a0, a0, a0, a0, a0, a0, a0, a0, a0, a0, a0, a0, a0, a0, a0, a0, a0]
  hints := [⟨[154, 152, 151], (dd [2241, 0, 1]), []⟩, ⟨[145, 141, 140, 139], (dd [2481, 0, 1]), [(0, (dd [0, 0, 6277101735386680763835789423207666416102355444464034512896]))]⟩, ⟨[135, 132, 128, 127, 126], (dd [2705, 0, 1]), [(1, (dd [0, 0, 6277101735386680763835789423207666416102355444464034512896])), (0, (dd [0, 0, 115792089237316195423570985008687907853269984665640564039457584007913129639936]))]⟩, ⟨[107, 105, 104], (dd [3249, 0, 1]), []⟩, ⟨[98, 94, 93, 92], (dd [3489, 0, 1]), [(0, (dd [0, 0, 6277101735386680763835789423207666416102355444464034512896]))]⟩, ⟨[88, 85, 81, 80, 79], (dd [3713, 0, 1]), [(1, (dd [0, 0, 6277101735386680763835789423207666416102355444464034512896])), (0, (dd [0, 0, 115792089237316195423570985008687907853269984665640564039457584007913129639936]))]⟩, ⟨[58, 57], (dd [4257, 0, 1]), []⟩, ⟨[46, 45], (dd [4497, 0, 1]), [(0, (dd [0, 0, 18446744073709551616]))]⟩, ⟨[33, 32], (dd [4721, 0, 1]), [(0, (dd [0, 0, 18446744073709551616]))]⟩, ⟨[19, 18, 17, 16, 15, 14, 13, 12], (dd [1697, 0, 1, 5009, 0, 1, 5201, 1, 1, 5329, 1, 1, 78710161, 0, 1]), [(16, (dd [296, 1, 1, 304, 1, 18446744073709551616, 312, 1, 340282366920938463463374607431768211456, 320, 1, 6277101735386680763835789423207666416102355444464034512896, 328, 1, 1, 336, 1, 18446744073709551616, 344, 1, 340282366920938463463374607431768211456, 356, 1, 6277101735386680763835789423207666416102355444464034512896])), (15, (dd [296, 1, 18446744073709551616, 304, 1, 340282366920938463463374607431768211456, 312, 1, 6277101735386680763835789423207666416102355444464034512896, 320, 1, 115792089237316195423570985008687907853269984665640564039457584007913129639936, 328, 1, 18446744073709551616, 336, 1, 340282366920938463463374607431768211456, 344, 1, 6277101735386680763835789423207666416102355444464034512896, 356, 1, 115792089237316195423570985008687907853269984665640564039457584007913129639936])), (14, (dd [296, 1, 340282366920938463463374607431768211456, 304, 1, 6277101735386680763835789423207666416102355444464034512896, 312, 1, 115792089237316195423570985008687907853269984665640564039457584007913129639936, 320, 1, 2135987035920910082395021706169552114602704522356652769947041607822219725780640550022962086936576, 328, 1, 340282366920938463463374607431768211456, 336, 1, 6277101735386680763835789423207666416102355444464034512896, 344, 1, 115792089237316195423570985008687907853269984665640564039457584007913129639936, 356, 1, 2135987035920910082395021706169552114602704522356652769947041607822219725780640550022962086936576])), (13, (dd [296, 1, 6277101735386680763835789423207666416102355444464034512896, 304, 1, 115792089237316195423570985008687907853269984665640564039457584007913129639936, 312, 1, 2135987035920910082395021706169552114602704522356652769947041607822219725780640550022962086936576, 320, 1, 39402006196394479212279040100143613805079739270465446667948293404245721771497210611414266254884915640806627990306816, 328, 1, 6277101735386680763835789423207666416102355444464034512896, 336, 1, 115792089237316195423570985008687907853269984665640564039457584007913129639936, 344, 1, 2135987035920910082395021706169552114602704522356652769947041607822219725780640550022962086936576, 356, 1, 39402006196394479212279040100143613805079739270465446667948293404245721771497210611414266254884915640806627990306816])), (12, (dd [1160, 1, 1, 1176, 1, 18446744073709551616, 1192, 1, 340282366920938463463374607431768211456, 1201, 1, 115792089237316195423570985008687907853269984665640564039457584007913129639936, 1208, 1, 6277101735386680763835789423207666416102355444464034512896])), (11, (dd [1160, 1, 18446744073709551616, 1176, 1, 340282366920938463463374607431768211456, 1192, 1, 6277101735386680763835789423207666416102355444464034512896, 1201, 1, 2135987035920910082395021706169552114602704522356652769947041607822219725780640550022962086936576, 1208, 1, 115792089237316195423570985008687907853269984665640564039457584007913129639936])), (10, (dd [1160, 1, 340282366920938463463374607431768211456, 1176, 1, 6277101735386680763835789423207666416102355444464034512896, 1192, 1, 115792089237316195423570985008687907853269984665640564039457584007913129639936, 1201, 1, 39402006196394479212279040100143613805079739270465446667948293404245721771497210611414266254884915640806627990306816, 1208, 1, 2135987035920910082395021706169552114602704522356652769947041607822219725780640550022962086936576])), (9, (dd [1160, 1, 6277101735386680763835789423207666416102355444464034512896, 1176, 1, 115792089237316195423570985008687907853269984665640564039457584007913129639936, 1192, 1, 2135987035920910082395021706169552114602704522356652769947041607822219725780640550022962086936576, 1201, 1, 726838724295606890549323807888004534353641360687318060281490199180639288113397923326191050713763565560762521606266177933534601628614656, 1208, 1, 39402006196394479212279040100143613805079739270465446667948293404245721771497210611414266254884915640806627990306816])), (8, (dd [0, 0, 39402006196394479212279040100143613805079739270465446667948293404245721771497210611414266254884915640806627990306816])), (7, (dd [0, 0, 726838724295606890549323807888004534353641360687318060281490199180639288113397923326191050713763565560762521606266177933534601628614656])), (6, (dd [0, 0, 13407807929942597099574024998205846127479365820592393377723561443721764030073546976801874298166903427690031858186486050853753882811946569946433649006084096])), (5, (dd [0, 1, 39402006196394479212279040100143613805079739270465446667948293404245721771497210611414266254884915640806627990306816])), (4, (dd [0, 1, 726838724295606890549323807888004534353641360687318060281490199180639288113397923326191050713763565560762521606266177933534601628614656])), (3, (dd [0, 1, 13407807929942597099574024998205846127479365820592393377723561443721764030073546976801874298166903427690031858186486050853753882811946569946433649006084096])), (2, (dd [0, 1, 39402006196394479212279040100143613805079739270465446667948293404245721771497210611414266254884915640806627990306816])), (1, (dd [0, 1, 726838724295606890549323807888004534353641360687318060281490199180639288113397923326191050713763565560762521606266177933534601628614656])), (0, (dd [0, 1, 13407807929942597099574024998205846127479365820592393377723561443721764030073546976801874298166903427690031858186486050853753882811946569946433649006084096]))]⟩]
  zb := 0
  scratch := []
  keepBP := true

theorem mul_adx_ok : mulChk Model.Asm503.mul_adx C.mul_adx 8 1 2 [(17, (dd [296, 1, 115792089237316195423570985008687907853269984665640564039457584007913129639936, 304, 1, 2135987035920910082395021706169552114602704522356652769947041607822219725780640550022962086936576, 312, 1, 39402006196394479212279040100143613805079739270465446667948293404245721771497210611414266254884915640806627990306816, 320, 1, 726838724295606890549323807888004534353641360687318060281490199180639288113397923326191050713763565560762521606266177933534601628614656, 328, 1, 115792089237316195423570985008687907853269984665640564039457584007913129639936, 336, 1, 2135987035920910082395021706169552114602704522356652769947041607822219725780640550022962086936576, 344, 1, 39402006196394479212279040100143613805079739270465446667948293404245721771497210611414266254884915640806627990306816, 356, 1, 726838724295606890549323807888004534353641360687318060281490199180639288113397923326191050713763565560762521606266177933534601628614656])), (16, (dd [296, 1, 2135987035920910082395021706169552114602704522356652769947041607822219725780640550022962086936576, 304, 1, 39402006196394479212279040100143613805079739270465446667948293404245721771497210611414266254884915640806627990306816, 312, 1, 726838724295606890549323807888004534353641360687318060281490199180639288113397923326191050713763565560762521606266177933534601628614656, 320, 1, 13407807929942597099574024998205846127479365820592393377723561443721764030073546976801874298166903427690031858186486050853753882811946569946433649006084096, 328, 1, 2135987035920910082395021706169552114602704522356652769947041607822219725780640550022962086936576, 336, 1, 39402006196394479212279040100143613805079739270465446667948293404245721771497210611414266254884915640806627990306816, 344, 1, 726838724295606890549323807888004534353641360687318060281490199180639288113397923326191050713763565560762521606266177933534601628614656, 356, 1, 13407807929942597099574024998205846127479365820592393377723561443721764030073546976801874298166903427690031858186486050853753882811946569946433649006084096])), (15, (dd [296, 1, 39402006196394479212279040100143613805079739270465446667948293404245721771497210611414266254884915640806627990306816, 304, 1, 726838724295606890549323807888004534353641360687318060281490199180639288113397923326191050713763565560762521606266177933534601628614656, 312, 1, 13407807929942597099574024998205846127479365820592393377723561443721764030073546976801874298166903427690031858186486050853753882811946569946433649006084096, 320, 1, 247330401473104534060502521019647190035131349101211839914063056092897225106531867170316401061243044989597671426016139339351365034306751209967546155101893167916606772148699136, 328, 1, 39402006196394479212279040100143613805079739270465446667948293404245721771497210611414266254884915640806627990306816, 336, 1, 726838724295606890549323807888004534353641360687318060281490199180639288113397923326191050713763565560762521606266177933534601628614656, 344, 1, 13407807929942597099574024998205846127479365820592393377723561443721764030073546976801874298166903427690031858186486050853753882811946569946433649006084096, 356, 1, 247330401473104534060502521019647190035131349101211839914063056092897225106531867170316401061243044989597671426016139339351365034306751209967546155101893167916606772148699136])), (14, (dd [296, 1, 726838724295606890549323807888004534353641360687318060281490199180639288113397923326191050713763565560762521606266177933534601628614656, 304, 1, 13407807929942597099574024998205846127479365820592393377723561443721764030073546976801874298166903427690031858186486050853753882811946569946433649006084096, 312, 1, 247330401473104534060502521019647190035131349101211839914063056092897225106531867170316401061243044989597671426016139339351365034306751209967546155101893167916606772148699136, 320, 1, 4562440617622195218641171605700291324893228507248559930579192517899275167208677386505912811317371399778642309573594407310688704721375437998252661319722214188251994674360264950082874192246603776, 328, 1, 726838724295606890549323807888004534353641360687318060281490199180639288113397923326191050713763565560762521606266177933534601628614656, 336, 1, 13407807929942597099574024998205846127479365820592393377723561443721764030073546976801874298166903427690031858186486050853753882811946569946433649006084096, 344, 1, 247330401473104534060502521019647190035131349101211839914063056092897225106531867170316401061243044989597671426016139339351365034306751209967546155101893167916606772148699136, 356, 1, 4562440617622195218641171605700291324893228507248559930579192517899275167208677386505912811317371399778642309573594407310688704721375437998252661319722214188251994674360264950082874192246603776])), (13, (dd [1160, 1, 115792089237316195423570985008687907853269984665640564039457584007913129639936, 1176, 1, 2135987035920910082395021706169552114602704522356652769947041607822219725780640550022962086936576, 1192, 1, 39402006196394479212279040100143613805079739270465446667948293404245721771497210611414266254884915640806627990306816, 1201, 1, 13407807929942597099574024998205846127479365820592393377723561443721764030073546976801874298166903427690031858186486050853753882811946569946433649006084096, 1208, 1, 726838724295606890549323807888004534353641360687318060281490199180639288113397923326191050713763565560762521606266177933534601628614656])), (12, (dd [1160, 1, 2135987035920910082395021706169552114602704522356652769947041607822219725780640550022962086936576, 1176, 1, 39402006196394479212279040100143613805079739270465446667948293404245721771497210611414266254884915640806627990306816, 1192, 1, 726838724295606890549323807888004534353641360687318060281490199180639288113397923326191050713763565560762521606266177933534601628614656, 1201, 1, 247330401473104534060502521019647190035131349101211839914063056092897225106531867170316401061243044989597671426016139339351365034306751209967546155101893167916606772148699136, 1208, 1, 13407807929942597099574024998205846127479365820592393377723561443721764030073546976801874298166903427690031858186486050853753882811946569946433649006084096])), (11, (dd [1160, 1, 39402006196394479212279040100143613805079739270465446667948293404245721771497210611414266254884915640806627990306816, 1176, 1, 726838724295606890549323807888004534353641360687318060281490199180639288113397923326191050713763565560762521606266177933534601628614656, 1192, 1, 13407807929942597099574024998205846127479365820592393377723561443721764030073546976801874298166903427690031858186486050853753882811946569946433649006084096, 1201, 1, 4562440617622195218641171605700291324893228507248559930579192517899275167208677386505912811317371399778642309573594407310688704721375437998252661319722214188251994674360264950082874192246603776, 1208, 1, 247330401473104534060502521019647190035131349101211839914063056092897225106531867170316401061243044989597671426016139339351365034306751209967546155101893167916606772148699136])), (10, (dd [1160, 1, 726838724295606890549323807888004534353641360687318060281490199180639288113397923326191050713763565560762521606266177933534601628614656, 1176, 1, 13407807929942597099574024998205846127479365820592393377723561443721764030073546976801874298166903427690031858186486050853753882811946569946433649006084096, 1192, 1, 247330401473104534060502521019647190035131349101211839914063056092897225106531867170316401061243044989597671426016139339351365034306751209967546155101893167916606772148699136, 1201, 1, 84162174424773976115855838126082058648805436845170781751972494449099714468753293153818664580441415219631727501698851483408310916002940861810045036330430093599283578738055113571066620126149163476340692027772502016, 1208, 1, 4562440617622195218641171605700291324893228507248559930579192517899275167208677386505912811317371399778642309573594407310688704721375437998252661319722214188251994674360264950082874192246603776])), (9, (dd [0, 0, 4562440617622195218641171605700291324893228507248559930579192517899275167208677386505912811317371399778642309573594407310688704721375437998252661319722214188251994674360264950082874192246603776])), (8, (dd [0, 0, 84162174424773976115855838126082058648805436845170781751972494449099714468753293153818664580441415219631727501698851483408310916002940861810045036330430093599283578738055113571066620126149163476340692027772502016])), (7, (dd [0, 0, 1552518092300708935148979488462502555256886017116696611139052038026050952686376886330878408828646477950487730697131073206171580044114814391444287275041181139204454976020849905550265285631598444825262999193716468750892846853816057856])), (6, (dd [0, 1, 4562440617622195218641171605700291324893228507248559930579192517899275167208637984499716416838159120738542165959789327571418239274707489704848415597950716977640580408105380034442067564256296960])), (5, (dd [0, 1, 84162174424773976115855838126082058648805436845170781751972494449099714468752566315094368973550865895823839497164497842047623597942659371610864397042316695675957387687341350005505857604542897298407157426143887360])), (4, (dd [0, 1, 1552518092300708935148979488462502555256886017116696611139052038026050952686363478522948466231546903925489524851003593840350987650737090830000565511011107592227653101722683002122575253773411958774409245310904522180946413204809973760])), (3, (dd [0, 0, 528294531135665246352339784916516606518847326036121522127960709026673902556720297033799633692438546723068694701932235450375098999572106344732639703295730899521880771187687712768952875366852846645713544203489812966149775631431839524650144904092676211539455706705491394560])), (2, (dd [0, 0, 9745314011399999080353382387875188310876226857595007526867906457212948690766341940291190291905894403387178834172759862746613999083451121552128887581843900126377459035376031614651157927988354796869391282563215438011875552889064444852147080036730910499256672182978128383605487897964141608960])), (1, (dd [0, 0, 179769313486231590772930519078902473361797697894230657273430081157732675805499410614616176613472387041631651377316136471641673072203277570454821379686787747491437015016036838798351731870548963046246911372040890954446706395067421700334708655564806387257800245398954699795121982939285999836084463482770408079360])), (0, (dd [0, 0, 1552518092300708935148979488462502555256886017116696611139052038026050952686376886330878408828646477950487730697131073206171580044114814391444287275041181139204454976020849905550265285631598444825262999193716468750892846853816057856]))] = true := by decide +kernel

def C.mul_adx_xy : Cert where
  S := ⟨[31], [24, 12], [.arr 0, .arr 1, .arr 1], 0⟩
  anns := [a0, a0, a0, a0, a0, a0, a0, a0, a2, a2, a2, a2, a1, a0, a0, a0, a0, a0, a0, a0, a0, a0, a2, a2, a2, a2, a1, a0, a0, a0, a0, a0, a0, a0, a0, a0, a0, a0, a0, a0, a0, a0, a0, a0, a0, a0, a0, a0, a0, a0, a0, a0, a0, a0, a0, a0, a0, a0, a0, a0, a1, a0, a0, a0, a0, a0, a0, a0, a0, a0, a0, a1, a0, a0, a0, a0, a0, a0, a0, a0, a0, a0, a0, a0, a0, a0, a0, a0, a1, a0, a0, a0, a0, a0, a0, a0, a0, a0, a0, a0, a0, a0, a1, a0, a0, a0, a0, a0, a0, a0, a0, a0, a0, a0, a0, a0, a0, a0, a0, a0, a0, a0, a0, a1, a0, a0, a0, a0, a0, a0, a0, a0, a0, a0, a1, a0, a0, a0, a0, a0, a0, a0, a0, a0, a0, a0, a0, a0, a0, a0, a0, a1, a0, a0, a0, a0, a0, a0, a0, a0, a0, a0, a0, a0, a0, a1, a0, a0, a0, a0, a0, a0, a0, a0, a0, a0, a0, a0, a0, a0, a0, a0, a0, a0, a0, a0, a1, a0, a0, a0, a0, a0, a0, a0, a0, a0, a0, a1, a0, a0, a0, a0, a0, a0, a0, a0, a0, a0, a0, a0, a0, a0, a0, a0, a1, a0, a0, a0, a0, a0, a0, a0, a0, a0, a0, a0, a0, a0, a1, a0, a0, a0, a0, a0, a0, a0, a0, a0, a0, a0, a0, a0, a0, a0, a0, a0, a0, a0, a0, a0, a0, a0, a0, a0, a0, a0, a0, a0, a0, a0, a0, a0, a0, a0, a0, a0, a0, a0, a0, a0, a0, a0, a0, a0, a0, a0, a0, a0, a0, a0, a0, a0, a0, a0, a0, a0, a0, a0, a0, a0, a0, a0, a0, a0, a0, a0, a0, a0, a0, a0, a0, a0]
  hints := [⟨[154, 152, 151], (dd [2241, 0, 1]), []⟩, ⟨[145, 141, 140, 139], (dd [2481, 0, 1]), [(0, (dd [0, 0, 6277101735386680763835789423207666416102355444464034512896]))]⟩, ⟨[135, 132, 128, 127, 126], (dd [2705, 0, 1]), [(1, (dd [0, 0, 6277101735386680763835789423207666416102355444464034512896])), (0, (dd [0, 0, 115792089237316195423570985008687907853269984665640564039457584007913129639936]))]⟩, ⟨[107, 105, 104], (dd [3249, 0, 1]), []⟩, ⟨[98, 94, 93, 92], (dd [3489, 0, 1]), [(0, (dd [0, 0, 6277101735386680763835789423207666416102355444464034512896]))]⟩, ⟨[88, 85, 81, 80, 79], (dd [3713, 0, 1]), [(1, (dd [0, 0, 6277101735386680763835789423207666416102355444464034512896])), (0, (dd [0, 0, 115792089237316195423570985008687907853269984665640564039457584007913129639936]))]⟩, ⟨[58, 57], (dd [4257, 0, 1]), []⟩, ⟨[46, 45], (dd [4497, 0, 1]), [(0, (dd [0, 0, 18446744073709551616]))]⟩, ⟨[33, 32], (dd [4721, 0, 1]), [(0, (dd [0, 0, 18446744073709551616]))]⟩, ⟨[19, 18, 17, 16, 15, 14, 13, 12], (dd [1697, 0, 1, 5009, 0, 1, 5201, 1, 1, 5329, 1, 1, 78710161, 0, 1]), [(16, (dd [200, 1, 1, 208, 1, 18446744073709551616, 216, 1, 340282366920938463463374607431768211456, 224, 1, 6277101735386680763835789423207666416102355444464034512896, 232, 1, 1, 240, 1, 18446744073709551616, 248, 1, 340282366920938463463374607431768211456, 260, 1, 6277101735386680763835789423207666416102355444464034512896])), (15, (dd [200, 1, 18446744073709551616, 208, 1, 340282366920938463463374607431768211456, 216, 1, 6277101735386680763835789423207666416102355444464034512896, 224, 1, 115792089237316195423570985008687907853269984665640564039457584007913129639936, 232, 1, 18446744073709551616, 240, 1, 340282366920938463463374607431768211456, 248, 1, 6277101735386680763835789423207666416102355444464034512896, 260, 1, 115792089237316195423570985008687907853269984665640564039457584007913129639936])), (14, (dd [200, 1, 340282366920938463463374607431768211456, 208, 1, 6277101735386680763835789423207666416102355444464034512896, 216, 1, 115792089237316195423570985008687907853269984665640564039457584007913129639936, 224, 1, 2135987035920910082395021706169552114602704522356652769947041607822219725780640550022962086936576, 232, 1, 340282366920938463463374607431768211456, 240, 1, 6277101735386680763835789423207666416102355444464034512896, 248, 1, 115792089237316195423570985008687907853269984665640564039457584007913129639936, 260, 1, 2135987035920910082395021706169552114602704522356652769947041607822219725780640550022962086936576])), (13, (dd [200, 1, 6277101735386680763835789423207666416102355444464034512896, 208, 1, 115792089237316195423570985008687907853269984665640564039457584007913129639936, 216, 1, 2135987035920910082395021706169552114602704522356652769947041607822219725780640550022962086936576, 224, 1, 39402006196394479212279040100143613805079739270465446667948293404245721771497210611414266254884915640806627990306816, 232, 1, 6277101735386680763835789423207666416102355444464034512896, 240, 1, 115792089237316195423570985008687907853269984665640564039457584007913129639936, 248, 1, 2135987035920910082395021706169552114602704522356652769947041607822219725780640550022962086936576, 260, 1, 39402006196394479212279040100143613805079739270465446667948293404245721771497210611414266254884915640806627990306816])), (12, (dd [1160, 1, 1, 1176, 1, 18446744073709551616, 1192, 1, 340282366920938463463374607431768211456, 1201, 1, 115792089237316195423570985008687907853269984665640564039457584007913129639936, 1208, 1, 6277101735386680763835789423207666416102355444464034512896])), (11, (dd [1160, 1, 18446744073709551616, 1176, 1, 340282366920938463463374607431768211456, 1192, 1, 6277101735386680763835789423207666416102355444464034512896, 1201, 1, 2135987035920910082395021706169552114602704522356652769947041607822219725780640550022962086936576, 1208, 1, 115792089237316195423570985008687907853269984665640564039457584007913129639936])), (10, (dd [1160, 1, 340282366920938463463374607431768211456, 1176, 1, 6277101735386680763835789423207666416102355444464034512896, 1192, 1, 115792089237316195423570985008687907853269984665640564039457584007913129639936, 1201, 1, 39402006196394479212279040100143613805079739270465446667948293404245721771497210611414266254884915640806627990306816, 1208, 1, 2135987035920910082395021706169552114602704522356652769947041607822219725780640550022962086936576])), (9, (dd [1160, 1, 6277101735386680763835789423207666416102355444464034512896, 1176, 1, 115792089237316195423570985008687907853269984665640564039457584007913129639936, 1192, 1, 2135987035920910082395021706169552114602704522356652769947041607822219725780640550022962086936576, 1201, 1, 726838724295606890549323807888004534353641360687318060281490199180639288113397923326191050713763565560762521606266177933534601628614656, 1208, 1, 39402006196394479212279040100143613805079739270465446667948293404245721771497210611414266254884915640806627990306816])), (8, (dd [0, 0, 39402006196394479212279040100143613805079739270465446667948293404245721771497210611414266254884915640806627990306816])), (7, (dd [0, 0, 726838724295606890549323807888004534353641360687318060281490199180639288113397923326191050713763565560762521606266177933534601628614656])), (6, (dd [0, 0, 13407807929942597099574024998205846127479365820592393377723561443721764030073546976801874298166903427690031858186486050853753882811946569946433649006084096])), (5, (dd [0, 1, 39402006196394479212279040100143613805079739270465446667948293404245721771497210611414266254884915640806627990306816])), (4, (dd [0, 1, 726838724295606890549323807888004534353641360687318060281490199180639288113397923326191050713763565560762521606266177933534601628614656])), (3, (dd [0, 1, 13407807929942597099574024998205846127479365820592393377723561443721764030073546976801874298166903427690031858186486050853753882811946569946433649006084096])), (2, (dd [0, 1, 39402006196394479212279040100143613805079739270465446667948293404245721771497210611414266254884915640806627990306816])), (1, (dd [0, 1, 726838724295606890549323807888004534353641360687318060281490199180639288113397923326191050713763565560762521606266177933534601628614656])), (0, (dd [0, 1, 13407807929942597099574024998205846127479365820592393377723561443721764030073546976801874298166903427690031858186486050853753882811946569946433649006084096]))]⟩]
  zb := 0
  scratch := []
  keepBP := true

theorem mul_adx_xy_ok : mulChk Model.Asm503.mul_adx C.mul_adx_xy 8 1 1 [(17, (dd [200, 1, 115792089237316195423570985008687907853269984665640564039457584007913129639936, 208, 1, 2135987035920910082395021706169552114602704522356652769947041607822219725780640550022962086936576, 216, 1, 39402006196394479212279040100143613805079739270465446667948293404245721771497210611414266254884915640806627990306816, 224, 1, 726838724295606890549323807888004534353641360687318060281490199180639288113397923326191050713763565560762521606266177933534601628614656, 232, 1, 115792089237316195423570985008687907853269984665640564039457584007913129639936, 240, 1, 2135987035920910082395021706169552114602704522356652769947041607822219725780640550022962086936576, 248, 1, 39402006196394479212279040100143613805079739270465446667948293404245721771497210611414266254884915640806627990306816, 260, 1, 726838724295606890549323807888004534353641360687318060281490199180639288113397923326191050713763565560762521606266177933534601628614656])), (16, (dd [200, 1, 2135987035920910082395021706169552114602704522356652769947041607822219725780640550022962086936576, 208, 1, 39402006196394479212279040100143613805079739270465446667948293404245721771497210611414266254884915640806627990306816, 216, 1, 726838724295606890549323807888004534353641360687318060281490199180639288113397923326191050713763565560762521606266177933534601628614656, 224, 1, 13407807929942597099574024998205846127479365820592393377723561443721764030073546976801874298166903427690031858186486050853753882811946569946433649006084096, 232, 1, 2135987035920910082395021706169552114602704522356652769947041607822219725780640550022962086936576, 240, 1, 39402006196394479212279040100143613805079739270465446667948293404245721771497210611414266254884915640806627990306816, 248, 1, 726838724295606890549323807888004534353641360687318060281490199180639288113397923326191050713763565560762521606266177933534601628614656, 260, 1, 13407807929942597099574024998205846127479365820592393377723561443721764030073546976801874298166903427690031858186486050853753882811946569946433649006084096])), (15, (dd [200, 1, 39402006196394479212279040100143613805079739270465446667948293404245721771497210611414266254884915640806627990306816, 208, 1, 726838724295606890549323807888004534353641360687318060281490199180639288113397923326191050713763565560762521606266177933534601628614656, 216, 1, 13407807929942597099574024998205846127479365820592393377723561443721764030073546976801874298166903427690031858186486050853753882811946569946433649006084096, 224, 1, 247330401473104534060502521019647190035131349101211839914063056092897225106531867170316401061243044989597671426016139339351365034306751209967546155101893167916606772148699136, 232, 1, 39402006196394479212279040100143613805079739270465446667948293404245721771497210611414266254884915640806627990306816, 240, 1, 726838724295606890549323807888004534353641360687318060281490199180639288113397923326191050713763565560762521606266177933534601628614656, 248, 1, 13407807929942597099574024998205846127479365820592393377723561443721764030073546976801874298166903427690031858186486050853753882811946569946433649006084096, 260, 1, 247330401473104534060502521019647190035131349101211839914063056092897225106531867170316401061243044989597671426016139339351365034306751209967546155101893167916606772148699136])), (14, (dd [200, 1, 726838724295606890549323807888004534353641360687318060281490199180639288113397923326191050713763565560762521606266177933534601628614656, 208, 1, 13407807929942597099574024998205846127479365820592393377723561443721764030073546976801874298166903427690031858186486050853753882811946569946433649006084096, 216, 1, 247330401473104534060502521019647190035131349101211839914063056092897225106531867170316401061243044989597671426016139339351365034306751209967546155101893167916606772148699136, 224, 1, 4562440617622195218641171605700291324893228507248559930579192517899275167208677386505912811317371399778642309573594407310688704721375437998252661319722214188251994674360264950082874192246603776, 232, 1, 726838724295606890549323807888004534353641360687318060281490199180639288113397923326191050713763565560762521606266177933534601628614656, 240, 1, 13407807929942597099574024998205846127479365820592393377723561443721764030073546976801874298166903427690031858186486050853753882811946569946433649006084096, 248, 1, 247330401473104534060502521019647190035131349101211839914063056092897225106531867170316401061243044989597671426016139339351365034306751209967546155101893167916606772148699136, 260, 1, 4562440617622195218641171605700291324893228507248559930579192517899275167208677386505912811317371399778642309573594407310688704721375437998252661319722214188251994674360264950082874192246603776])), (13, (dd [1160, 1, 115792089237316195423570985008687907853269984665640564039457584007913129639936, 1176, 1, 2135987035920910082395021706169552114602704522356652769947041607822219725780640550022962086936576, 1192, 1, 39402006196394479212279040100143613805079739270465446667948293404245721771497210611414266254884915640806627990306816, 1201, 1, 13407807929942597099574024998205846127479365820592393377723561443721764030073546976801874298166903427690031858186486050853753882811946569946433649006084096, 1208, 1, 726838724295606890549323807888004534353641360687318060281490199180639288113397923326191050713763565560762521606266177933534601628614656])), (12, (dd [1160, 1, 2135987035920910082395021706169552114602704522356652769947041607822219725780640550022962086936576, 1176, 1, 39402006196394479212279040100143613805079739270465446667948293404245721771497210611414266254884915640806627990306816, 1192, 1, 726838724295606890549323807888004534353641360687318060281490199180639288113397923326191050713763565560762521606266177933534601628614656, 1201, 1, 247330401473104534060502521019647190035131349101211839914063056092897225106531867170316401061243044989597671426016139339351365034306751209967546155101893167916606772148699136, 1208, 1, 13407807929942597099574024998205846127479365820592393377723561443721764030073546976801874298166903427690031858186486050853753882811946569946433649006084096])), (11, (dd [1160, 1, 39402006196394479212279040100143613805079739270465446667948293404245721771497210611414266254884915640806627990306816, 1176, 1, 726838724295606890549323807888004534353641360687318060281490199180639288113397923326191050713763565560762521606266177933534601628614656, 1192, 1, 13407807929942597099574024998205846127479365820592393377723561443721764030073546976801874298166903427690031858186486050853753882811946569946433649006084096, 1201, 1, 4562440617622195218641171605700291324893228507248559930579192517899275167208677386505912811317371399778642309573594407310688704721375437998252661319722214188251994674360264950082874192246603776, 1208, 1, 247330401473104534060502521019647190035131349101211839914063056092897225106531867170316401061243044989597671426016139339351365034306751209967546155101893167916606772148699136])), (10, (dd [1160, 1, 726838724295606890549323807888004534353641360687318060281490199180639288113397923326191050713763565560762521606266177933534601628614656, 1176, 1, 13407807929942597099574024998205846127479365820592393377723561443721764030073546976801874298166903427690031858186486050853753882811946569946433649006084096, 1192, 1, 247330401473104534060502521019647190035131349101211839914063056092897225106531867170316401061243044989597671426016139339351365034306751209967546155101893167916606772148699136, 1201, 1, 84162174424773976115855838126082058648805436845170781751972494449099714468753293153818664580441415219631727501698851483408310916002940861810045036330430093599283578738055113571066620126149163476340692027772502016, 1208, 1, 4562440617622195218641171605700291324893228507248559930579192517899275167208677386505912811317371399778642309573594407310688704721375437998252661319722214188251994674360264950082874192246603776])), (9, (dd [0, 0, 4562440617622195218641171605700291324893228507248559930579192517899275167208677386505912811317371399778642309573594407310688704721375437998252661319722214188251994674360264950082874192246603776])), (8, (dd [0, 0, 84162174424773976115855838126082058648805436845170781751972494449099714468753293153818664580441415219631727501698851483408310916002940861810045036330430093599283578738055113571066620126149163476340692027772502016])), (7, (dd [0, 0, 1552518092300708935148979488462502555256886017116696611139052038026050952686376886330878408828646477950487730697131073206171580044114814391444287275041181139204454976020849905550265285631598444825262999193716468750892846853816057856])), (6, (dd [0, 1, 4562440617622195218641171605700291324893228507248559930579192517899275167208637984499716416838159120738542165959789327571418239274707489704848415597950716977640580408105380034442067564256296960])), (5, (dd [0, 1, 84162174424773976115855838126082058648805436845170781751972494449099714468752566315094368973550865895823839497164497842047623597942659371610864397042316695675957387687341350005505857604542897298407157426143887360])), (4, (dd [0, 1, 1552518092300708935148979488462502555256886017116696611139052038026050952686363478522948466231546903925489524851003593840350987650737090830000565511011107592227653101722683002122575253773411958774409245310904522180946413204809973760])), (3, (dd [0, 0, 528294531135665246352339784916516606518847326036121522127960709026673902556720297033799633692438546723068694701932235450375098999572106344732639703295730899521880771187687712768952875366852846645713544203489812966149775631431839524650144904092676211539455706705491394560])), (2, (dd [0, 0, 9745314011399999080353382387875188310876226857595007526867906457212948690766341940291190291905894403387178834172759862746613999083451121552128887581843900126377459035376031614651157927988354796869391282563215438011875552889064444852147080036730910499256672182978128383605487897964141608960])), (1, (dd [0, 0, 179769313486231590772930519078902473361797697894230657273430081157732675805499410614616176613472387041631651377316136471641673072203277570454821379686787747491437015016036838798351731870548963046246911372040890954446706395067421700334708655564806387257800245398954699795121982939285999836084463482770408079360])), (0, (dd [0, 0, 1552518092300708935148979488462502555256886017116696611139052038026050952686376886330878408828646477950487730697131073206171580044114814391444287275041181139204454976020849905550265285631598444825262999193716468750892846853816057856]))] = true := by decide +kernel

def C.rdc : Cert where
  S := ⟨[], [12, 24], [.arr 0, .arr 1], 0⟩
  anns := [a0, a0, a0, a0, a0, a0, a2, a0, a1, a0, a0, a0, a0, a0, a1, a0, a0, a0, a0, a0, a1, a2, a0, a0, a1, a0, a0, a0, a0, a0, a1, a0, a0, a0, a0, a1, a0, a0, a0, a0, a0, a1, a2, a0, a0, a1, a0, a0, a0, a0, a0, a1, a0, a0, a0, a0, a1, a0, a0, a0, a0, a1, a0, a0, a0, a0, a0, a1, a2, a0, a0, a1, a0, a0, a0, a0, a0, a1, a0, a0, a0, a0, a1, a0, a0, a0, a0, a1, a0, a0, a0, a0, a1, a0, a0, a0, a0, a0, a1, a2, a0, a0, a1, a0, a0, a0, a0, a0, a1, a0, a0, a0, a0, a1, a0, a0, a0, a0, a1, a0, a0, a0, a0, a1, a0, a0, a0, a0, a0, a1, a0, a0, a0, a1, a0, a0, a0, a0, a0, a1, a0, a0, a0, a0, a1, a0, a0, a0, a0, a1, a0, a0, a0, a0, a1, a0, a0, a0, a0, a0, a1, a0, a0, a0, a1, a0, a0, a0, a0, a0, a1, a0, a0, a0, a0, a1, a0, a0, a0, a0, a1, a0, a0, a0, a0, a1, a0, a0, a0, a0, a0, a1, a0, a0, a0, a1, a0, a0, a0, a0, a0, a1, a0, a0, a0, a0, a1, a0, a0, a0, a0, a1, a0, a0, a0, a0, a1, a0, a0, a0, a1, a0, a0, a0, a0, a0, a1, a0, a0, a0, a0, a1, a0, a0, a0, a0, a1, a0, a0, a0, a1, a0, a0, a0, a0, a0, a1, a0, a0, a0, a0, a1, a0, a0, a0, a1, a0, a0, a0, a0, a0, a0, a0, a0, a0]
  hints := []
  zb := 0
  scratch := []
  keepBP := true

theorem rdc_ok : rdcChk Model.Asm503.rdc C.rdc 8 13175843156907117380839252916199345042492186767578363998445663477035843932020761233518914911546024351608607150390087656982982306331019593961154237431807 1 (dd [104, 0, 1, 112, 0, 18446744073709551616, 120, 0, 340282366920938463463374607431768211456, 1128, 0, 6277101735386680763835789423207666416102355444464034512896, 1368, 0, 115792089237316195423570985008687907853269984665640564039457584007913129639936, 1704, 0, 2135987035920910082395021706169552114602704522356652769947041607822219725780640550022962086936576, 2120, 0, 39402006196394479212279040100143613805079739270465446667948293404245721771497210611414266254884915640806627990306816, 2616, 0, 726838724295606890549323807888004534353641360687318060281490199180639288113397923326191050713763565560762521606266177933534601628614656]) [(4, (dd [0, 1, 6277101735386680763835789423207666416102355444464034512896])), (3, (dd [0, 1, 115792089237316195423570985008687907853269984665640564039457584007913129639936])), (2, (dd [0, 1, 2135987035920910082395021706169552114602704522356652769947041607822219725780640550022962086936576])), (1, (dd [0, 1, 39402006196394479212279040100143613805079739270465446667948293404245721771497210611414266254884915640806627990306816])), (0, (dd [0, 1, 726838724295606890549323807888004534353641360687318060281490199180639288113397923326191050713763565560762521606266177933534601628614656]))] = true := by decide +kernel

def C.rdc_bmi2 : Cert where
  S := ⟨[], [12, 24], [.arr 0, .arr 1], 0⟩
  anns := [a0, a0, a0, a0, a0, a0, a0, a0, a0, a0, a0, a0, a0, a1, a0, a0, a0, a0, a0, a0, a0, a0, a0, a0, a0, a1, a0, a0, a0, a0, a0, a0, a0, a2, a2, a0, a0, a0, a0, a0, a0, a0, a0, a0, a0, a0, a0, a0, a0, a0, a0, a0, a0, a0, a0, a0, a0, a0, a0, a0, a0, a0, a0, a0, a0, a0, a0, a0, a0, a0, a0, a0, a0, a0, a0, a1, a0, a0, a0, a0, a0, a0, a0, a0, a0, a0, a0, a1, a0, a0, a0, a0, a0, a0, a0, a2, a2, a0, a0, a0, a0, a0, a0, a0, a0, a0, a0, a0, a0, a0, a0, a0, a0, a0, a0, a0, a0, a0, a0, a0, a0, a0, a0, a0, a0, a0, a0, a0, a0, a0, a0, a1, a0, a0, a0, a0, a0, a0, a0, a0, a0, a0, a0, a1, a0, a0, a0, a0, a0, a0, a0, a0, a2, a0, a0, a0, a0, a0, a0, a0, a0, a0, a0, a0, a0, a0, a0, a0, a0, a0, a0, a0, a0, a0, a0, a0, a0, a0, a0, a0, a0, a1, a0, a0, a0, a0, a0, a0, a0, a0, a0, a0, a0, a1, a0, a0, a0, a0, a0, a0, a0, a0, a0, a0, a0, a0, a0, a0, a0, a0, a0, a0, a0, a0]
  hints := [⟨[119, 118], (dd [1521, 0, 1]), []⟩, ⟨[80, 79], (dd [2513, 0, 1]), []⟩, ⟨[43, 42], (dd [3409, 0, 1]), []⟩]
  zb := 0
  scratch := [1]
  keepBP := true

theorem rdc_bmi2_ok : rdcChk Model.Asm503.rdc_bmi2 C.rdc_bmi2 8 13175843156907117380839252916199345042492186767578363998445663477035843932020761233518914911546024351608607150390087656982982306331019593961154237431807 1 (dd [104, 0, 1, 112, 0, 18446744073709551616, 120, 0, 340282366920938463463374607431768211456, 1560, 0, 6277101735386680763835789423207666416102355444464034512896, 1576, 0, 115792089237316195423570985008687907853269984665640564039457584007913129639936, 2552, 0, 2135987035920910082395021706169552114602704522356652769947041607822219725780640550022962086936576, 2568, 0, 39402006196394479212279040100143613805079739270465446667948293404245721771497210611414266254884915640806627990306816, 3464, 0, 726838724295606890549323807888004534353641360687318060281490199180639288113397923326191050713763565560762521606266177933534601628614656]) [(7, (dd [0, 1, 6277101735386680763835789423207666416102355444464034512896])), (6, (dd [0, 1, 115792089237316195423570985008687907853269984665640564039457584007913129639936])), (5, (dd [0, 1, 2135987035920910082395021706169552114602704522356652769947041607822219725780640550022962086936576])), (4, (dd [0, 1, 39402006196394479212279040100143613805079739270465446667948293404245721771497210611414266254884915640806627990306816])), (3, (dd [0, 1, 726838724295606890549323807888004534353641360687318060281490199180639288113397923326191050713763565560762521606266177933534601628614656])), (2, (dd [0, 0, 4562440617622195218641171605700291324893228507248559930579192517899275167208677386505912811317371399778642309573594407310688704721375437998252661319722214188251994674360264950082874192246603776])), (1, (dd [0, 0, 1552518092300708935148979488462502555256886017116696611139052038026050952686376886330878408828646477950487730697131073206171580044114814391444287275041181139204454976020849905550265285631598444825262999193716468750892846853816057856])), (0, (dd [0, 0, 528294531135665246352339784916516606518847326036121522127960709026673902556724859474417255887657187894674394993257128678882347559502685537250538978462939576908386683999005084168731517676426441053024232908211188404148028292751561738838396898767036476489538580897737998336]))] = true := by decide +kernel

def C.rdc_adx : Cert where
  S := ⟨[], [12, 24], [.arr 0, .arr 1], 0⟩
  anns := [a0, a0, a0, a0, a0, a0, a0, a0, a0, a0, a0, a0, a0, a1, a0, a0, a0, a0, a0, a0, a0, a0, a0, a0, a0, a1, a0, a0, a0, a0, a0, a0, a0, a2, a2, a0, a0, a0, a0, a0, a0, a0, a0, a0, a0, a0, a0, a0, a0, a0, a0, a0, a0, a0, a0, a0, a0, a0, a0, a0, a0, a0, a0, a0, a0, a0, a0, a0, a0, a0, a0, a0, a0, a0, a0, a1, a0, a0, a0, a0, a0, a0, a0, a0, a0, a0, a0, a1, a0, a0, a0, a0, a0, a0, a0, a2, a2, a0, a0, a0, a0, a0, a0, a0, a0, a0, a0, a0, a0, a0, a0, a0, a0, a0, a0, a0, a0, a0, a0, a0, a0, a0, a0, a0, a0, a0, a0, a0, a0, a0, a0, a1, a0, a0, a0, a0, a0, a0, a0, a0, a0, a0, a0, a1, a0, a0, a0, a0, a0, a0, a0, a0, a2, a0, a0, a0, a0, a0, a0, a0, a0, a0, a0, a0, a0, a0, a0, a0, a0, a0, a0, a0, a0, a0, a0, a0, a0, a0, a0, a0, a0, a1, a0, a0, a0, a0, a0, a0, a0, a0, a0, a0, a0, a1, a0, a0, a0, a0, a0, a0, a0, a0, a0, a0, a0, a0, a0, a0, a0, a0, a0, a0, a0, a0]
  hints := [⟨[119, 118], (dd [1521, 0, 1]), []⟩, ⟨[80, 79], (dd [2513, 0, 1]), []⟩, ⟨[43, 42], (dd [3409, 0, 1]), []⟩]
  zb := 0
  scratch := [1]
  keepBP := true

theorem rdc_adx_ok : rdcChk Model.Asm503.rdc_adx C.rdc_adx 8 13175843156907117380839252916199345042492186767578363998445663477035843932020761233518914911546024351608607150390087656982982306331019593961154237431807 1 (dd [104, 0, 1, 112, 0, 18446744073709551616, 120, 0, 340282366920938463463374607431768211456, 1560, 0, 6277101735386680763835789423207666416102355444464034512896, 1576, 0, 115792089237316195423570985008687907853269984665640564039457584007913129639936, 2552, 0, 2135987035920910082395021706169552114602704522356652769947041607822219725780640550022962086936576, 2568, 0, 39402006196394479212279040100143613805079739270465446667948293404245721771497210611414266254884915640806627990306816, 3464, 0, 726838724295606890549323807888004534353641360687318060281490199180639288113397923326191050713763565560762521606266177933534601628614656]) [(7, (dd [0, 1, 6277101735386680763835789423207666416102355444464034512896])), (6, (dd [0, 1, 115792089237316195423570985008687907853269984665640564039457584007913129639936])), (5, (dd [0, 1, 2135987035920910082395021706169552114602704522356652769947041607822219725780640550022962086936576])), (4, (dd [0, 1, 39402006196394479212279040100143613805079739270465446667948293404245721771497210611414266254884915640806627990306816])), (3, (dd [0, 1, 726838724295606890549323807888004534353641360687318060281490199180639288113397923326191050713763565560762521606266177933534601628614656])), (2, (dd [0, 0, 4562440617622195218641171605700291324893228507248559930579192517899275167208677386505912811317371399778642309573594407310688704721375437998252661319722214188251994674360264950082874192246603776])), (1, (dd [0, 0, 1552518092300708935148979488462502555256886017116696611139052038026050952686376886330878408828646477950487730697131073206171580044114814391444287275041181139204454976020849905550265285631598444825262999193716468750892846853816057856])), (0, (dd [0, 0, 528294531135665246352339784916516606518847326036121522127960709026673902556724859474417255887657187894674394993257128678882347559502685537250538978462939576908386683999005084168731517676426441053024232908211188404148028292751561738838396898767036476489538580897737998336]))] = true := by decide +kernel

end Lemmas.AsmCert503
