import Verif.Lemmas.AsmFam
import Verif.Model.AsmP434
/- Certificates for `mul` and `rdc` of p434/arith_amd64.s, printed by gen/asmgen.py. -/
set_option maxRecDepth 100000
namespace Lemmas.AsmCert434
open Model.Asm Lemmas.AsmSym Lemmas.AsmPoly Lemmas.AsmSound Lemmas.AsmCall Lemmas.AsmFam

def C.mul : Cert where
  S := ⟨[], [24, 12, 12], [.arr 0, .arr 1, .arr 2], 0⟩
  anns := [a0, a0, a0, a0, a0, a0, a0, a0, a2, a2, a2, a2, a1, a0, a0, a0, a0, a0, a0, a0, a0, a0, a0, a2, a2, a2, a2, a1, a0, a0, a0, a0, a0, a0, a0, a0, a0, a1, a0, a0, a0, a0, a0, a0, a1, a0, a0, a0, a0, a0, a1, a0, a0, a0, a0, a1, a0, a0, a0, a0, a0, a1, a0, a0, a0, a0, a0, a1, a0, a0, a0, a0, a1, a0, a0, a0, a0, a1, a0, a0, a0, a0, a0, a1, a0, a0, a0, a0, a0, a1, a0, a0, a0, a0, a1, a0, a0, a0, a0, a0, a1, a0, a0, a0, a0, a0, a1, a0, a0, a0, a0, a0, a1, a0, a0, a0, a0, a0, a0, a0, a0, a0, a0, a0, a0, a0, a0, a0, a0, a0, a0, a0, a0, a0, a0, a0, a0, a0, a0, a0, a0, a0, a0, a0, a0, a0, a0, a0, a0, a0, a0, a0, a0, a0, a0, a0, a0, a0, a0, a0, a1, a0, a0, a0, a0, a0, a0, a1, a0, a0, a0, a0, a0, a1, a0, a0, a0, a0, a0, a1, a0, a0, a0, a0, a0, a1, a0, a0, a0, a0, a0, a0, a1, a0, a0, a0, a0, a1, a0, a0, a0, a0, a1, a0, a0, a0, a0, a0, a1, a0, a0, a0, a0, a0, a1, a0, a0, a0, a0, a1, a0, a0, a0, a0, a0, a1, a0, a0, a0, a0, a0, a1, a0, a0, a0, a0, a0, a1, a0, a0, a0, a0, a0, a0, a0, a0, a0, a0, a0, a0, a0, a0, a0, a0, a0, a1, a0, a0, a0, a0, a0, a0, a1, a0, a0, a0, a0, a0, a1, a0, a0, a0, a0, a0, a1, a0, a0, a0, a0, a0, a1, a0, a0, a0, a0, a0, a1, a0, a0, a0, a0, a1, a0, a0, a0, a0, a1, a0, a0, a0, a0, a0, a0, a0, a0, a0, a0, a0, a0, a0, a0, a0, a0, a0, a0, a0, a0, a0, a0, a0, a0, a0, a0, a0, a0, a0, a0, a0, a0, a0, a0, a0, a0, a0, a0, a0, a0, a0, a0, a0, a0, a0, a0, a0, a0, a0, a0, a0, a0]
  hints := [⟨[150, 138, 130, 126, 125], (dd [2897, 0, 1]), []⟩, ⟨[83, 71, 63, 59, 58], (dd [4897, 0, 1]), []⟩, ⟨[40, 32, 28, 26], (dd [5793, 0, 1]), []⟩, ⟨[17, 16, 15, 14, 13, 12, 11, 10], (dd [3201, 0, 1, 3329, 0, 1, 6049, 1, 1, 6257, 1, 1, 78710177, 0, 1]), [(10, (dd [296, 1, 1, 304, 1, 18446744073709551616, 312, 1, 340282366920938463463374607431768211456, 320, 1, 6277101735386680763835789423207666416102355444464034512896, 328, 1, 1, 336, 1, 18446744073709551616, 344, 1, 340282366920938463463374607431768211456])), (9, (dd [296, 1, 18446744073709551616, 304, 1, 340282366920938463463374607431768211456, 312, 1, 6277101735386680763835789423207666416102355444464034512896, 320, 1, 115792089237316195423570985008687907853269984665640564039457584007913129639936, 328, 1, 18446744073709551616, 336, 1, 340282366920938463463374607431768211456, 344, 1, 6277101735386680763835789423207666416102355444464034512896])), (8, (dd [296, 1, 340282366920938463463374607431768211456, 304, 1, 6277101735386680763835789423207666416102355444464034512896, 312, 1, 115792089237316195423570985008687907853269984665640564039457584007913129639936, 320, 1, 2135987035920910082395021706169552114602704522356652769947041607822219725780640550022962086936576, 328, 1, 340282366920938463463374607431768211456, 336, 1, 6277101735386680763835789423207666416102355444464034512896, 344, 1, 115792089237316195423570985008687907853269984665640564039457584007913129639936])), (7, (dd [296, 1, 6277101735386680763835789423207666416102355444464034512896, 304, 1, 115792089237316195423570985008687907853269984665640564039457584007913129639936, 312, 1, 2135987035920910082395021706169552114602704522356652769947041607822219725780640550022962086936576, 320, 1, 39402006196394479212279040100143613805079739270465446667948293404245721771497210611414266254884915640806627990306816, 328, 1, 6277101735386680763835789423207666416102355444464034512896, 336, 1, 115792089237316195423570985008687907853269984665640564039457584007913129639936, 344, 1, 2135987035920910082395021706169552114602704522356652769947041607822219725780640550022962086936576])), (6, (dd [1160, 1, 1, 1176, 1, 18446744073709551616, 1192, 1, 340282366920938463463374607431768211456, 1201, 1, 115792089237316195423570985008687907853269984665640564039457584007913129639936, 1208, 1, 6277101735386680763835789423207666416102355444464034512896])), (5, (dd [1160, 1, 18446744073709551616, 1176, 1, 340282366920938463463374607431768211456, 1192, 1, 6277101735386680763835789423207666416102355444464034512896, 1201, 1, 2135987035920910082395021706169552114602704522356652769947041607822219725780640550022962086936576, 1208, 1, 115792089237316195423570985008687907853269984665640564039457584007913129639936])), (4, (dd [1160, 1, 340282366920938463463374607431768211456, 1176, 1, 6277101735386680763835789423207666416102355444464034512896, 1192, 1, 115792089237316195423570985008687907853269984665640564039457584007913129639936, 1201, 1, 39402006196394479212279040100143613805079739270465446667948293404245721771497210611414266254884915640806627990306816, 1208, 1, 2135987035920910082395021706169552114602704522356652769947041607822219725780640550022962086936576])), (3, (dd [1160, 1, 6277101735386680763835789423207666416102355444464034512896, 1176, 1, 115792089237316195423570985008687907853269984665640564039457584007913129639936, 1192, 1, 2135987035920910082395021706169552114602704522356652769947041607822219725780640550022962086936576, 1201, 1, 726838724295606890549323807888004534353641360687318060281490199180639288113397923326191050713763565560762521606266177933534601628614656, 1208, 1, 39402006196394479212279040100143613805079739270465446667948293404245721771497210611414266254884915640806627990306816])), (2, (dd [0, 0, 13407807929942597099574024998205846127479365820592393377723561443721764030073546976801874298166903427690031858186486050853753882811946569946433649006084096])), (1, (dd [0, 1, 13407807929942597099574024998205846127479365820592393377723561443721764030073546976801874298166903427690031858186486050853753882811946569946433649006084096])), (0, (dd [0, 1, 39402006196394479212279040100143613805079739270465446667948293404245721771497210611414266254884915640806627990306816]))]⟩]
  zb := 0
  scratch := []
  keepBP := true

theorem mul_ok : mulChk Model.Asm434.mul C.mul 7 1 2 [(11, (dd [296, 1, 115792089237316195423570985008687907853269984665640564039457584007913129639936, 304, 1, 2135987035920910082395021706169552114602704522356652769947041607822219725780640550022962086936576, 312, 1, 39402006196394479212279040100143613805079739270465446667948293404245721771497210611414266254884915640806627990306816, 320, 1, 726838724295606890549323807888004534353641360687318060281490199180639288113397923326191050713763565560762521606266177933534601628614656, 328, 1, 115792089237316195423570985008687907853269984665640564039457584007913129639936, 336, 1, 2135987035920910082395021706169552114602704522356652769947041607822219725780640550022962086936576, 344, 1, 39402006196394479212279040100143613805079739270465446667948293404245721771497210611414266254884915640806627990306816])), (10, (dd [296, 1, 2135987035920910082395021706169552114602704522356652769947041607822219725780640550022962086936576, 304, 1, 39402006196394479212279040100143613805079739270465446667948293404245721771497210611414266254884915640806627990306816, 312, 1, 726838724295606890549323807888004534353641360687318060281490199180639288113397923326191050713763565560762521606266177933534601628614656, 320, 1, 13407807929942597099574024998205846127479365820592393377723561443721764030073546976801874298166903427690031858186486050853753882811946569946433649006084096, 328, 1, 2135987035920910082395021706169552114602704522356652769947041607822219725780640550022962086936576, 336, 1, 39402006196394479212279040100143613805079739270465446667948293404245721771497210611414266254884915640806627990306816, 344, 1, 726838724295606890549323807888004534353641360687318060281490199180639288113397923326191050713763565560762521606266177933534601628614656])), (9, (dd [296, 1, 39402006196394479212279040100143613805079739270465446667948293404245721771497210611414266254884915640806627990306816, 304, 1, 726838724295606890549323807888004534353641360687318060281490199180639288113397923326191050713763565560762521606266177933534601628614656, 312, 1, 13407807929942597099574024998205846127479365820592393377723561443721764030073546976801874298166903427690031858186486050853753882811946569946433649006084096, 320, 1, 247330401473104534060502521019647190035131349101211839914063056092897225106531867170316401061243044989597671426016139339351365034306751209967546155101893167916606772148699136, 328, 1, 39402006196394479212279040100143613805079739270465446667948293404245721771497210611414266254884915640806627990306816, 336, 1, 726838724295606890549323807888004534353641360687318060281490199180639288113397923326191050713763565560762521606266177933534601628614656, 344, 1, 13407807929942597099574024998205846127479365820592393377723561443721764030073546976801874298166903427690031858186486050853753882811946569946433649006084096])), (8, (dd [296, 1, 726838724295606890549323807888004534353641360687318060281490199180639288113397923326191050713763565560762521606266177933534601628614656, 304, 1, 13407807929942597099574024998205846127479365820592393377723561443721764030073546976801874298166903427690031858186486050853753882811946569946433649006084096, 312, 1, 247330401473104534060502521019647190035131349101211839914063056092897225106531867170316401061243044989597671426016139339351365034306751209967546155101893167916606772148699136, 320, 1, 4562440617622195218641171605700291324893228507248559930579192517899275167208677386505912811317371399778642309573594407310688704721375437998252661319722214188251994674360264950082874192246603776, 328, 1, 726838724295606890549323807888004534353641360687318060281490199180639288113397923326191050713763565560762521606266177933534601628614656, 336, 1, 13407807929942597099574024998205846127479365820592393377723561443721764030073546976801874298166903427690031858186486050853753882811946569946433649006084096, 344, 1, 247330401473104534060502521019647190035131349101211839914063056092897225106531867170316401061243044989597671426016139339351365034306751209967546155101893167916606772148699136])), (7, (dd [1160, 1, 115792089237316195423570985008687907853269984665640564039457584007913129639936, 1176, 1, 2135987035920910082395021706169552114602704522356652769947041607822219725780640550022962086936576, 1192, 1, 39402006196394479212279040100143613805079739270465446667948293404245721771497210611414266254884915640806627990306816, 1201, 1, 13407807929942597099574024998205846127479365820592393377723561443721764030073546976801874298166903427690031858186486050853753882811946569946433649006084096, 1208, 1, 726838724295606890549323807888004534353641360687318060281490199180639288113397923326191050713763565560762521606266177933534601628614656])), (6, (dd [1160, 1, 2135987035920910082395021706169552114602704522356652769947041607822219725780640550022962086936576, 1176, 1, 39402006196394479212279040100143613805079739270465446667948293404245721771497210611414266254884915640806627990306816, 1192, 1, 726838724295606890549323807888004534353641360687318060281490199180639288113397923326191050713763565560762521606266177933534601628614656, 1201, 1, 247330401473104534060502521019647190035131349101211839914063056092897225106531867170316401061243044989597671426016139339351365034306751209967546155101893167916606772148699136, 1208, 1, 13407807929942597099574024998205846127479365820592393377723561443721764030073546976801874298166903427690031858186486050853753882811946569946433649006084096])), (5, (dd [1160, 1, 39402006196394479212279040100143613805079739270465446667948293404245721771497210611414266254884915640806627990306816, 1176, 1, 726838724295606890549323807888004534353641360687318060281490199180639288113397923326191050713763565560762521606266177933534601628614656, 1192, 1, 13407807929942597099574024998205846127479365820592393377723561443721764030073546976801874298166903427690031858186486050853753882811946569946433649006084096, 1201, 1, 4562440617622195218641171605700291324893228507248559930579192517899275167208677386505912811317371399778642309573594407310688704721375437998252661319722214188251994674360264950082874192246603776, 1208, 1, 247330401473104534060502521019647190035131349101211839914063056092897225106531867170316401061243044989597671426016139339351365034306751209967546155101893167916606772148699136])), (4, (dd [1160, 1, 726838724295606890549323807888004534353641360687318060281490199180639288113397923326191050713763565560762521606266177933534601628614656, 1176, 1, 13407807929942597099574024998205846127479365820592393377723561443721764030073546976801874298166903427690031858186486050853753882811946569946433649006084096, 1192, 1, 247330401473104534060502521019647190035131349101211839914063056092897225106531867170316401061243044989597671426016139339351365034306751209967546155101893167916606772148699136, 1201, 1, 84162174424773976115855838126082058648805436845170781751972494449099714468753293153818664580441415219631727501698851483408310916002940861810045036330430093599283578738055113571066620126149163476340692027772502016, 1208, 1, 4562440617622195218641171605700291324893228507248559930579192517899275167208677386505912811317371399778642309573594407310688704721375437998252661319722214188251994674360264950082874192246603776])), (3, (dd [0, 0, 1552518092300708935148979488462502555256886017116696611139052038026050952686376886330878408828646477950487730697131073206171580044114814391444287275041181139204454976020849905550265285631598444825262999193716468750892846853816057856])), (2, (dd [0, 1, 1552518092300708935148979488462502555256886017116696611139052038026050952686363478522948466231546903925489524851003593840350987650737090830000565511011107592227653101722683002122575253773411958774409245310904522180946413204809973760])), (1, (dd [0, 0, 528294531135665246352339784916516606518847326036121522127960709026673902556720297033799633692438546723068694701932235450375098999572106344732639703295730899521880771187687712768952875366852846645713544203489812966149775631431839524650144904092676211539455706705491394560])), (0, (dd [0, 0, 1552518092300708935148979488462502555256886017116696611139052038026050952686376886330878408828646477950487730697131073206171580044114814391444287275041181139204454976020849905550265285631598444825262999193716468750892846853816057856]))] = true := by decide +kernel

def C.mul_xy : Cert where
  S := ⟨[], [24, 12], [.arr 0, .arr 1, .arr 1], 0⟩
  anns := [a0, a0, a0, a0, a0, a0, a0, a0, a2, a2, a2, a2, a1, a0, a0, a0, a0, a0, a0, a0, a0, a0, a0, a2, a2, a2, a2, a1, a0, a0, a0, a0, a0, a0, a0, a0, a0, a1, a0, a0, a0, a0, a0, a0, a1, a0, a0, a0, a0, a0, a1, a0, a0, a0, a0, a1, a0, a0, a0, a0, a0, a1, a0, a0, a0, a0, a0, a1, a0, a0, a0, a0, a1, a0, a0, a0, a0, a1, a0, a0, a0, a0, a0, a1, a0, a0, a0, a0, a0, a1, a0, a0, a0, a0, a1, a0, a0, a0, a0, a0, a1, a0, a0, a0, a0, a0, a1, a0, a0, a0, a0, a0, a1, a0, a0, a0, a0, a0, a0, a0, a0, a0, a0, a0, a0, a0, a0, a0, a0, a0, a0, a0, a0, a0, a0, a0, a0, a0, a0, a0, a0, a0, a0, a0, a0, a0, a0, a0, a0, a0, a0, a0, a0, a0, a0, a0, a0, a0, a0, a0, a1, a0, a0, a0, a0, a0, a0, a1, a0, a0, a0, a0, a0, a1, a0, a0, a0, a0, a0, a1, a0, a0, a0, a0, a0, a1, a0, a0, a0, a0, a0, a0, a1, a0, a0, a0, a0, a1, a0, a0, a0, a0, a1, a0, a0, a0, a0, a0, a1, a0, a0, a0, a0, a0, a1, a0, a0, a0, a0, a1, a0, a0, a0, a0, a0, a1, a0, a0, a0, a0, a0, a1, a0, a0, a0, a0, a0, a1, a0, a0, a0, a0, a0, a0, a0, a0, a0, a0, a0, a0, a0, a0, a0, a0, a0, a1, a0, a0, a0, a0, a0, a0, a1, a0, a0, a0, a0, a0, a1, a0, a0, a0, a0, a0, a1, a0, a0, a0, a0, a0, a1, a0, a0, a0, a0, a0, a1, a0, a0, a0, a0, a1, a0, a0, a0, a0, a1, a0, a0, a0, a0, a0, a0, a0, a0, a0, a0, a0, a0, a0, a0, a0, a0, a0, a0, a0, a0, a0, a0, a0, a0, a0, a0, a0, a0, a0, a0, a0, a0, a0, a0, a0, a0, a0, a0, a0, a0, a0, a0, a0, a0, a0, a0, a0, a0, a0, a0, a0, a0]
  hints := [⟨[150, 138, 130, 126, 125], (dd [2897, 0, 1]), []⟩, ⟨[83, 71, 63, 59, 58], (dd [4897, 0, 1]), []⟩, ⟨[40, 32, 28, 26], (dd [5793, 0, 1]), []⟩, ⟨[17, 16, 15, 14, 13, 12, 11, 10], (dd [3201, 0, 1, 3329, 0, 1, 6049, 1, 1, 6257, 1, 1, 78710177, 0, 1]), [(10, (dd [200, 1, 1, 208, 1, 18446744073709551616, 216, 1, 340282366920938463463374607431768211456, 224, 1, 6277101735386680763835789423207666416102355444464034512896, 232, 1, 1, 240, 1, 18446744073709551616, 248, 1, 340282366920938463463374607431768211456])), (9, (dd [200, 1, 18446744073709551616, 208, 1, 340282366920938463463374607431768211456, 216, 1, 6277101735386680763835789423207666416102355444464034512896, 224, 1, 115792089237316195423570985008687907853269984665640564039457584007913129639936, 232, 1, 18446744073709551616, 240, 1, 340282366920938463463374607431768211456, 248, 1, 6277101735386680763835789423207666416102355444464034512896])), (8, (dd [200, 1, 340282366920938463463374607431768211456, 208, 1, 6277101735386680763835789423207666416102355444464034512896, 216, 1, 115792089237316195423570985008687907853269984665640564039457584007913129639936, 224, 1, 2135987035920910082395021706169552114602704522356652769947041607822219725780640550022962086936576, 232, 1, 340282366920938463463374607431768211456, 240, 1, 6277101735386680763835789423207666416102355444464034512896, 248, 1, 115792089237316195423570985008687907853269984665640564039457584007913129639936])), (7, (dd [200, 1, 6277101735386680763835789423207666416102355444464034512896, 208, 1, 115792089237316195423570985008687907853269984665640564039457584007913129639936, 216, 1, 2135987035920910082395021706169552114602704522356652769947041607822219725780640550022962086936576, 224, 1, 39402006196394479212279040100143613805079739270465446667948293404245721771497210611414266254884915640806627990306816, 232, 1, 6277101735386680763835789423207666416102355444464034512896, 240, 1, 115792089237316195423570985008687907853269984665640564039457584007913129639936, 248, 1, 2135987035920910082395021706169552114602704522356652769947041607822219725780640550022962086936576])), (6, (dd [1160, 1, 1, 1176, 1, 18446744073709551616, 1192, 1, 340282366920938463463374607431768211456, 1201, 1, 115792089237316195423570985008687907853269984665640564039457584007913129639936, 1208, 1, 6277101735386680763835789423207666416102355444464034512896])), (5, (dd [1160, 1, 18446744073709551616, 1176, 1, 340282366920938463463374607431768211456, 1192, 1, 6277101735386680763835789423207666416102355444464034512896, 1201, 1, 2135987035920910082395021706169552114602704522356652769947041607822219725780640550022962086936576, 1208, 1, 115792089237316195423570985008687907853269984665640564039457584007913129639936])), (4, (dd [1160, 1, 340282366920938463463374607431768211456, 1176, 1, 6277101735386680763835789423207666416102355444464034512896, 1192, 1, 115792089237316195423570985008687907853269984665640564039457584007913129639936, 1201, 1, 39402006196394479212279040100143613805079739270465446667948293404245721771497210611414266254884915640806627990306816, 1208, 1, 2135987035920910082395021706169552114602704522356652769947041607822219725780640550022962086936576])), (3, (dd [1160, 1, 6277101735386680763835789423207666416102355444464034512896, 1176, 1, 115792089237316195423570985008687907853269984665640564039457584007913129639936, 1192, 1, 2135987035920910082395021706169552114602704522356652769947041607822219725780640550022962086936576, 1201, 1, 726838724295606890549323807888004534353641360687318060281490199180639288113397923326191050713763565560762521606266177933534601628614656, 1208, 1, 39402006196394479212279040100143613805079739270465446667948293404245721771497210611414266254884915640806627990306816])), (2, (dd [0, 0, 13407807929942597099574024998205846127479365820592393377723561443721764030073546976801874298166903427690031858186486050853753882811946569946433649006084096])), (1, (dd [0, 1, 13407807929942597099574024998205846127479365820592393377723561443721764030073546976801874298166903427690031858186486050853753882811946569946433649006084096])), (0, (dd [0, 1, 39402006196394479212279040100143613805079739270465446667948293404245721771497210611414266254884915640806627990306816]))]⟩]
  zb := 0
  scratch := []
  keepBP := true

theorem mul_xy_ok : mulChk Model.Asm434.mul C.mul_xy 7 1 1 [(11, (dd [200, 1, 115792089237316195423570985008687907853269984665640564039457584007913129639936, 208, 1, 2135987035920910082395021706169552114602704522356652769947041607822219725780640550022962086936576, 216, 1, 39402006196394479212279040100143613805079739270465446667948293404245721771497210611414266254884915640806627990306816, 224, 1, 726838724295606890549323807888004534353641360687318060281490199180639288113397923326191050713763565560762521606266177933534601628614656, 232, 1, 115792089237316195423570985008687907853269984665640564039457584007913129639936, 240, 1, 2135987035920910082395021706169552114602704522356652769947041607822219725780640550022962086936576, 248, 1, 39402006196394479212279040100143613805079739270465446667948293404245721771497210611414266254884915640806627990306816])), (10, (dd [200, 1, 2135987035920910082395021706169552114602704522356652769947041607822219725780640550022962086936576, 208, 1, 39402006196394479212279040100143613805079739270465446667948293404245721771497210611414266254884915640806627990306816, 216, 1, 726838724295606890549323807888004534353641360687318060281490199180639288113397923326191050713763565560762521606266177933534601628614656, 224, 1, 13407807929942597099574024998205846127479365820592393377723561443721764030073546976801874298166903427690031858186486050853753882811946569946433649006084096, 232, 1, 2135987035920910082395021706169552114602704522356652769947041607822219725780640550022962086936576, 240, 1, 39402006196394479212279040100143613805079739270465446667948293404245721771497210611414266254884915640806627990306816, 248, 1, 726838724295606890549323807888004534353641360687318060281490199180639288113397923326191050713763565560762521606266177933534601628614656])), (9, (dd [200, 1, 39402006196394479212279040100143613805079739270465446667948293404245721771497210611414266254884915640806627990306816, 208, 1, 726838724295606890549323807888004534353641360687318060281490199180639288113397923326191050713763565560762521606266177933534601628614656, 216, 1, 13407807929942597099574024998205846127479365820592393377723561443721764030073546976801874298166903427690031858186486050853753882811946569946433649006084096, 224, 1, 247330401473104534060502521019647190035131349101211839914063056092897225106531867170316401061243044989597671426016139339351365034306751209967546155101893167916606772148699136, 232, 1, 39402006196394479212279040100143613805079739270465446667948293404245721771497210611414266254884915640806627990306816, 240, 1, 726838724295606890549323807888004534353641360687318060281490199180639288113397923326191050713763565560762521606266177933534601628614656, 248, 1, 13407807929942597099574024998205846127479365820592393377723561443721764030073546976801874298166903427690031858186486050853753882811946569946433649006084096])), (8, (dd [200, 1, 726838724295606890549323807888004534353641360687318060281490199180639288113397923326191050713763565560762521606266177933534601628614656, 208, 1, 13407807929942597099574024998205846127479365820592393377723561443721764030073546976801874298166903427690031858186486050853753882811946569946433649006084096, 216, 1, 247330401473104534060502521019647190035131349101211839914063056092897225106531867170316401061243044989597671426016139339351365034306751209967546155101893167916606772148699136, 224, 1, 4562440617622195218641171605700291324893228507248559930579192517899275167208677386505912811317371399778642309573594407310688704721375437998252661319722214188251994674360264950082874192246603776, 232, 1, 726838724295606890549323807888004534353641360687318060281490199180639288113397923326191050713763565560762521606266177933534601628614656, 240, 1, 13407807929942597099574024998205846127479365820592393377723561443721764030073546976801874298166903427690031858186486050853753882811946569946433649006084096, 248, 1, 247330401473104534060502521019647190035131349101211839914063056092897225106531867170316401061243044989597671426016139339351365034306751209967546155101893167916606772148699136])), (7, (dd [1160, 1, 115792089237316195423570985008687907853269984665640564039457584007913129639936, 1176, 1, 2135987035920910082395021706169552114602704522356652769947041607822219725780640550022962086936576, 1192, 1, 39402006196394479212279040100143613805079739270465446667948293404245721771497210611414266254884915640806627990306816, 1201, 1, 13407807929942597099574024998205846127479365820592393377723561443721764030073546976801874298166903427690031858186486050853753882811946569946433649006084096, 1208, 1, 726838724295606890549323807888004534353641360687318060281490199180639288113397923326191050713763565560762521606266177933534601628614656])), (6, (dd [1160, 1, 2135987035920910082395021706169552114602704522356652769947041607822219725780640550022962086936576, 1176, 1, 39402006196394479212279040100143613805079739270465446667948293404245721771497210611414266254884915640806627990306816, 1192, 1, 726838724295606890549323807888004534353641360687318060281490199180639288113397923326191050713763565560762521606266177933534601628614656, 1201, 1, 247330401473104534060502521019647190035131349101211839914063056092897225106531867170316401061243044989597671426016139339351365034306751209967546155101893167916606772148699136, 1208, 1, 13407807929942597099574024998205846127479365820592393377723561443721764030073546976801874298166903427690031858186486050853753882811946569946433649006084096])), (5, (dd [1160, 1, 39402006196394479212279040100143613805079739270465446667948293404245721771497210611414266254884915640806627990306816, 1176, 1, 726838724295606890549323807888004534353641360687318060281490199180639288113397923326191050713763565560762521606266177933534601628614656, 1192, 1, 13407807929942597099574024998205846127479365820592393377723561443721764030073546976801874298166903427690031858186486050853753882811946569946433649006084096, 1201, 1, 4562440617622195218641171605700291324893228507248559930579192517899275167208677386505912811317371399778642309573594407310688704721375437998252661319722214188251994674360264950082874192246603776, 1208, 1, 247330401473104534060502521019647190035131349101211839914063056092897225106531867170316401061243044989597671426016139339351365034306751209967546155101893167916606772148699136])), (4, (dd [1160, 1, 726838724295606890549323807888004534353641360687318060281490199180639288113397923326191050713763565560762521606266177933534601628614656, 1176, 1, 13407807929942597099574024998205846127479365820592393377723561443721764030073546976801874298166903427690031858186486050853753882811946569946433649006084096, 1192, 1, 247330401473104534060502521019647190035131349101211839914063056092897225106531867170316401061243044989597671426016139339351365034306751209967546155101893167916606772148699136, 1201, 1, 84162174424773976115855838126082058648805436845170781751972494449099714468753293153818664580441415219631727501698851483408310916002940861810045036330430093599283578738055113571066620126149163476340692027772502016, 1208, 1, 4562440617622195218641171605700291324893228507248559930579192517899275167208677386505912811317371399778642309573594407310688704721375437998252661319722214188251994674360264950082874192246603776])), (3, (dd [0, 0, 1552518092300708935148979488462502555256886017116696611139052038026050952686376886330878408828646477950487730697131073206171580044114814391444287275041181139204454976020849905550265285631598444825262999193716468750892846853816057856])), (2, (dd [0, 1, 1552518092300708935148979488462502555256886017116696611139052038026050952686363478522948466231546903925489524851003593840350987650737090830000565511011107592227653101722683002122575253773411958774409245310904522180946413204809973760])), (1, (dd [0, 0, 528294531135665246352339784916516606518847326036121522127960709026673902556720297033799633692438546723068694701932235450375098999572106344732639703295730899521880771187687712768952875366852846645713544203489812966149775631431839524650144904092676211539455706705491394560])), (0, (dd [0, 0, 1552518092300708935148979488462502555256886017116696611139052038026050952686376886330878408828646477950487730697131073206171580044114814391444287275041181139204454976020849905550265285631598444825262999193716468750892846853816057856]))] = true := by decide +kernel

def C.mul_adx : Cert where
  S := ⟨[], [24, 12, 12], [.arr 0, .arr 1, .arr 2], 0⟩
  anns := [a0, a0, a0, a0, a0, a0, a0, a0, a0, a2, a2, a2, a2, a1, a0, a0, a0, a0, a0, a0, a0, a0, a0, a2, a2, a2, a2, a1, a0, a0, a0, a0, a0, a0, a0, a0, a0, a0, a0, a0, a0, a0, a0, a0, a0, a0, a0, a0, a0, a0, a0, a0, a0, a0, a0, a0, a0, a0, a0, a0, a1, a0, a0, a0, a0, a0, a0, a0, a0, a0, a0, a1, a0, a0, a0, a0, a0, a0, a0, a0, a0, a0, a0, a0, a0, a0, a0, a1, a0, a0, a0, a0, a0, a0, a0, a0, a0, a0, a0, a0, a0, a0, a1, a0, a0, a0, a0, a0, a0, a0, a0, a0, a0, a0, a0, a0, a0, a0, a0, a0, a0, a0, a0, a1, a0, a0, a0, a0, a0, a0, a0, a0, a0, a0, a1, a0, a0, a0, a0, a0, a0, a0, a0, a0, a0, a0, a0, a0, a0, a0, a1, a0, a0, a0, a0, a0, a0, a0, a0, a0, a0, a0, a0, a0, a0, a1, a0, a0, a0, a0, a0, a0, a0, a0, a0, a0, a0, a0, a0, a0, a0, a0, a0, a0, a1, a0, a0, a0, a0, a0, a0, a0, a0, a1, a0, a0, a0, a0, a0, a0, a0, a0, a0, a0, a0, a1, a0, a0, a0, a0, a0, a0, a0, a0, a0, a0, a0, a0, a0, a0, a0, a0, a0, a0, a0, a0, a0, a0, a0, a0, a0, a0, a0, a0, a0, a0, a0, a0, a0, a0, a0, a0, a0, a0, a0, a0, a0, a0, a0, a0, a0, a0, a0, a0, a0, a0, a0, a0, a0, a0, a0, a0, a0, a0, a0, a0, a0]
  hints := [⟨[131, 129, 128], (dd [2241, 0, 1]), []⟩, ⟨[122, 118, 117, 116], (dd [2465, 0, 1]), [(0, (dd [0, 0, 6277101735386680763835789423207666416102355444464034512896]))]⟩, ⟨[112, 109, 105, 104, 103], (dd [2705, 0, 1]), [(1, (dd [0, 0, 6277101735386680763835789423207666416102355444464034512896])), (0, (dd [0, 0, 115792089237316195423570985008687907853269984665640564039457584007913129639936]))]⟩, ⟨[84, 82, 81], (dd [3249, 0, 1]), []⟩, ⟨[75, 71, 70, 69], (dd [3473, 0, 1]), [(0, (dd [0, 0, 6277101735386680763835789423207666416102355444464034512896]))]⟩, ⟨[65, 62, 58, 57, 56], (dd [3713, 0, 1]), [(1, (dd [0, 0, 6277101735386680763835789423207666416102355444464034512896])), (0, (dd [0, 0, 115792089237316195423570985008687907853269984665640564039457584007913129639936]))]⟩, ⟨[44, 41, 39], (dd [4177, 0, 1]), []⟩, ⟨[37, 32, 31, 30], (dd [4353, 0, 1]), [(0, (dd [0, 0, 6277101735386680763835789423207666416102355444464034512896]))]⟩, ⟨[17, 16, 15, 14, 13, 12, 11, 10], (dd [1713, 0, 1, 4593, 0, 1, 4785, 1, 1, 4913, 1, 1, 79758753, 0, 1]), [(15, (dd [296, 1, 1, 304, 1, 18446744073709551616, 312, 1, 340282366920938463463374607431768211456, 320, 1, 6277101735386680763835789423207666416102355444464034512896, 328, 1, 1, 336, 1, 18446744073709551616, 344, 1, 340282366920938463463374607431768211456])), (14, (dd [296, 1, 18446744073709551616, 304, 1, 340282366920938463463374607431768211456, 312, 1, 6277101735386680763835789423207666416102355444464034512896, 320, 1, 115792089237316195423570985008687907853269984665640564039457584007913129639936, 328, 1, 18446744073709551616, 336, 1, 340282366920938463463374607431768211456, 344, 1, 6277101735386680763835789423207666416102355444464034512896])), (13, (dd [296, 1, 340282366920938463463374607431768211456, 304, 1, 6277101735386680763835789423207666416102355444464034512896, 312, 1, 115792089237316195423570985008687907853269984665640564039457584007913129639936, 320, 1, 2135987035920910082395021706169552114602704522356652769947041607822219725780640550022962086936576, 328, 1, 340282366920938463463374607431768211456, 336, 1, 6277101735386680763835789423207666416102355444464034512896, 344, 1, 115792089237316195423570985008687907853269984665640564039457584007913129639936])), (12, (dd [296, 1, 6277101735386680763835789423207666416102355444464034512896, 304, 1, 115792089237316195423570985008687907853269984665640564039457584007913129639936, 312, 1, 2135987035920910082395021706169552114602704522356652769947041607822219725780640550022962086936576, 320, 1, 39402006196394479212279040100143613805079739270465446667948293404245721771497210611414266254884915640806627990306816, 328, 1, 6277101735386680763835789423207666416102355444464034512896, 336, 1, 115792089237316195423570985008687907853269984665640564039457584007913129639936, 344, 1, 2135987035920910082395021706169552114602704522356652769947041607822219725780640550022962086936576])), (11, (dd [1176, 1, 1, 1192, 1, 18446744073709551616, 1208, 1, 340282366920938463463374607431768211456, 1217, 1, 115792089237316195423570985008687907853269984665640564039457584007913129639936, 1224, 1, 6277101735386680763835789423207666416102355444464034512896])), (10, (dd [1176, 1, 18446744073709551616, 1192, 1, 340282366920938463463374607431768211456, 1208, 1, 6277101735386680763835789423207666416102355444464034512896, 1217, 1, 2135987035920910082395021706169552114602704522356652769947041607822219725780640550022962086936576, 1224, 1, 115792089237316195423570985008687907853269984665640564039457584007913129639936])), (9, (dd [1176, 1, 340282366920938463463374607431768211456, 1192, 1, 6277101735386680763835789423207666416102355444464034512896, 1208, 1, 115792089237316195423570985008687907853269984665640564039457584007913129639936, 1217, 1, 39402006196394479212279040100143613805079739270465446667948293404245721771497210611414266254884915640806627990306816, 1224, 1, 2135987035920910082395021706169552114602704522356652769947041607822219725780640550022962086936576])), (8, (dd [1176, 1, 6277101735386680763835789423207666416102355444464034512896, 1192, 1, 115792089237316195423570985008687907853269984665640564039457584007913129639936, 1208, 1, 2135987035920910082395021706169552114602704522356652769947041607822219725780640550022962086936576, 1217, 1, 726838724295606890549323807888004534353641360687318060281490199180639288113397923326191050713763565560762521606266177933534601628614656, 1224, 1, 39402006196394479212279040100143613805079739270465446667948293404245721771497210611414266254884915640806627990306816])), (7, (dd [0, 0, 39402006196394479212279040100143613805079739270465446667948293404245721771497210611414266254884915640806627990306816])), (6, (dd [0, 0, 726838724295606890549323807888004534353641360687318060281490199180639288113397923326191050713763565560762521606266177933534601628614656])), (5, (dd [0, 0, 13407807929942597099574024998205846127479365820592393377723561443721764030073546976801874298166903427690031858186486050853753882811946569946433649006084096])), (4, (dd [0, 1, 39402006196394479212279040100143613805079739270465446667948293404245721771497210611414266254884915640806627990306816])), (3, (dd [0, 1, 726838724295606890549323807888004534353641360687318060281490199180639288113397923326191050713763565560762521606266177933534601628614656])), (2, (dd [0, 1, 13407807929942597099574024998205846127479365820592393377723561443721764030073546976801874298166903427690031858186486050853753882811946569946433649006084096])), (1, (dd [0, 1, 2135987035920910082395021706169552114602704522356652769947041607822219725780640550022962086936576])), (0, (dd [0, 1, 39402006196394479212279040100143613805079739270465446667948293404245721771497210611414266254884915640806627990306816]))]⟩]
  zb := 0
  scratch := []
  keepBP := false

theorem mul_adx_ok : mulChk Model.Asm434.mul_adx C.mul_adx 7 1 2 [(16, (dd [296, 1, 115792089237316195423570985008687907853269984665640564039457584007913129639936, 304, 1, 2135987035920910082395021706169552114602704522356652769947041607822219725780640550022962086936576, 312, 1, 39402006196394479212279040100143613805079739270465446667948293404245721771497210611414266254884915640806627990306816, 320, 1, 726838724295606890549323807888004534353641360687318060281490199180639288113397923326191050713763565560762521606266177933534601628614656, 328, 1, 115792089237316195423570985008687907853269984665640564039457584007913129639936, 336, 1, 2135987035920910082395021706169552114602704522356652769947041607822219725780640550022962086936576, 344, 1, 39402006196394479212279040100143613805079739270465446667948293404245721771497210611414266254884915640806627990306816])), (15, (dd [296, 1, 2135987035920910082395021706169552114602704522356652769947041607822219725780640550022962086936576, 304, 1, 39402006196394479212279040100143613805079739270465446667948293404245721771497210611414266254884915640806627990306816, 312, 1, 726838724295606890549323807888004534353641360687318060281490199180639288113397923326191050713763565560762521606266177933534601628614656, 320, 1, 13407807929942597099574024998205846127479365820592393377723561443721764030073546976801874298166903427690031858186486050853753882811946569946433649006084096, 328, 1, 2135987035920910082395021706169552114602704522356652769947041607822219725780640550022962086936576, 336, 1, 39402006196394479212279040100143613805079739270465446667948293404245721771497210611414266254884915640806627990306816, 344, 1, 726838724295606890549323807888004534353641360687318060281490199180639288113397923326191050713763565560762521606266177933534601628614656])), (14, (dd [296, 1, 39402006196394479212279040100143613805079739270465446667948293404245721771497210611414266254884915640806627990306816, 304, 1, 726838724295606890549323807888004534353641360687318060281490199180639288113397923326191050713763565560762521606266177933534601628614656, 312, 1, 13407807929942597099574024998205846127479365820592393377723561443721764030073546976801874298166903427690031858186486050853753882811946569946433649006084096, 320, 1, 247330401473104534060502521019647190035131349101211839914063056092897225106531867170316401061243044989597671426016139339351365034306751209967546155101893167916606772148699136, 328, 1, 39402006196394479212279040100143613805079739270465446667948293404245721771497210611414266254884915640806627990306816, 336, 1, 726838724295606890549323807888004534353641360687318060281490199180639288113397923326191050713763565560762521606266177933534601628614656, 344, 1, 13407807929942597099574024998205846127479365820592393377723561443721764030073546976801874298166903427690031858186486050853753882811946569946433649006084096])), (13, (dd [296, 1, 726838724295606890549323807888004534353641360687318060281490199180639288113397923326191050713763565560762521606266177933534601628614656, 304, 1, 13407807929942597099574024998205846127479365820592393377723561443721764030073546976801874298166903427690031858186486050853753882811946569946433649006084096, 312, 1, 247330401473104534060502521019647190035131349101211839914063056092897225106531867170316401061243044989597671426016139339351365034306751209967546155101893167916606772148699136, 320, 1, 4562440617622195218641171605700291324893228507248559930579192517899275167208677386505912811317371399778642309573594407310688704721375437998252661319722214188251994674360264950082874192246603776, 328, 1, 726838724295606890549323807888004534353641360687318060281490199180639288113397923326191050713763565560762521606266177933534601628614656, 336, 1, 13407807929942597099574024998205846127479365820592393377723561443721764030073546976801874298166903427690031858186486050853753882811946569946433649006084096, 344, 1, 247330401473104534060502521019647190035131349101211839914063056092897225106531867170316401061243044989597671426016139339351365034306751209967546155101893167916606772148699136])), (12, (dd [1176, 1, 115792089237316195423570985008687907853269984665640564039457584007913129639936, 1192, 1, 2135987035920910082395021706169552114602704522356652769947041607822219725780640550022962086936576, 1208, 1, 39402006196394479212279040100143613805079739270465446667948293404245721771497210611414266254884915640806627990306816, 1217, 1, 13407807929942597099574024998205846127479365820592393377723561443721764030073546976801874298166903427690031858186486050853753882811946569946433649006084096, 1224, 1, 726838724295606890549323807888004534353641360687318060281490199180639288113397923326191050713763565560762521606266177933534601628614656])), (11, (dd [1176, 1, 2135987035920910082395021706169552114602704522356652769947041607822219725780640550022962086936576, 1192, 1, 39402006196394479212279040100143613805079739270465446667948293404245721771497210611414266254884915640806627990306816, 1208, 1, 726838724295606890549323807888004534353641360687318060281490199180639288113397923326191050713763565560762521606266177933534601628614656, 1217, 1, 247330401473104534060502521019647190035131349101211839914063056092897225106531867170316401061243044989597671426016139339351365034306751209967546155101893167916606772148699136, 1224, 1, 13407807929942597099574024998205846127479365820592393377723561443721764030073546976801874298166903427690031858186486050853753882811946569946433649006084096])), (10, (dd [1176, 1, 39402006196394479212279040100143613805079739270465446667948293404245721771497210611414266254884915640806627990306816, 1192, 1, 726838724295606890549323807888004534353641360687318060281490199180639288113397923326191050713763565560762521606266177933534601628614656, 1208, 1, 13407807929942597099574024998205846127479365820592393377723561443721764030073546976801874298166903427690031858186486050853753882811946569946433649006084096, 1217, 1, 4562440617622195218641171605700291324893228507248559930579192517899275167208677386505912811317371399778642309573594407310688704721375437998252661319722214188251994674360264950082874192246603776, 1224, 1, 247330401473104534060502521019647190035131349101211839914063056092897225106531867170316401061243044989597671426016139339351365034306751209967546155101893167916606772148699136])), (9, (dd [1176, 1, 726838724295606890549323807888004534353641360687318060281490199180639288113397923326191050713763565560762521606266177933534601628614656, 1192, 1, 13407807929942597099574024998205846127479365820592393377723561443721764030073546976801874298166903427690031858186486050853753882811946569946433649006084096, 1208, 1, 247330401473104534060502521019647190035131349101211839914063056092897225106531867170316401061243044989597671426016139339351365034306751209967546155101893167916606772148699136, 1217, 1, 84162174424773976115855838126082058648805436845170781751972494449099714468753293153818664580441415219631727501698851483408310916002940861810045036330430093599283578738055113571066620126149163476340692027772502016, 1224, 1, 4562440617622195218641171605700291324893228507248559930579192517899275167208677386505912811317371399778642309573594407310688704721375437998252661319722214188251994674360264950082874192246603776])), (8, (dd [0, 0, 4562440617622195218641171605700291324893228507248559930579192517899275167208677386505912811317371399778642309573594407310688704721375437998252661319722214188251994674360264950082874192246603776])), (7, (dd [0, 0, 84162174424773976115855838126082058648805436845170781751972494449099714468753293153818664580441415219631727501698851483408310916002940861810045036330430093599283578738055113571066620126149163476340692027772502016])), (6, (dd [0, 0, 1552518092300708935148979488462502555256886017116696611139052038026050952686376886330878408828646477950487730697131073206171580044114814391444287275041181139204454976020849905550265285631598444825262999193716468750892846853816057856])), (5, (dd [0, 1, 4562440617622195218641171605700291324893228507248559930579192517899275167208637984499716416838159120738542165959789327571418239274707489704848415597950716977640580408105380034442067564256296960])), (4, (dd [0, 1, 84162174424773976115855838126082058648805436845170781751972494449099714468752566315094368973550865895823839497164497842047623597942659371610864397042316695675957387687341350005505857604542897298407157426143887360])), (3, (dd [0, 1, 1552518092300708935148979488462502555256886017116696611139052038026050952686363478522948466231546903925489524851003593840350987650737090830000565511011107592227653101722683002122575253773411958774409245310904522180946413204809973760])), (2, (dd [0, 0, 28638903918474961204418783933674838490721739172170652529441449702311064005352656828943811161290567872908339862028964588725295648917159313644352128816458047753342557906917969057277203590052962636905688643197438496265963007451635690447442180334325596160])), (1, (dd [0, 0, 528294531135665246352339784916516606518847326036121522127960709026673902556720297033799633692438546723068694701932235450375098999572106344732639703295730899521880771187687712768952875366852846645713544203489812966149775631431839524650144904092676211539455706705491394560])), (0, (dd [0, 0, 1552518092300708935148979488462502555256886017116696611139052038026050952686376886330878408828646477950487730697131073206171580044114814391444287275041181139204454976020849905550265285631598444825262999193716468750892846853816057856]))] = true := by decide +kernel

def C.mul_adx_xy : Cert where
  S := ⟨[], [24, 12], [.arr 0, .arr 1, .arr 1], 0⟩
  anns := [a0, a0, a0, a0, a0, a0, a0, a0, a0, a2, a2, a2, a2, a1, a0, a0, a0, a0, a0, a0, a0, a0, a0, a2, a2, a2, a2, a1, a0, a0, a0, a0, a0, a0, a0, a0, a0, a0, a0, a0, a0, a0, a0, a0, a0, a0, a0, a0, a0, a0, a0, a0, a0, a0, a0, a0, a0, a0, a0, a0, a1, a0, a0, a0, a0, a0, a0, a0, a0, a0, a0, a1, a0, a0, a0, a0, a0, a0, a0, a0, a0, a0, a0, a0, a0, a0, a0, a1, a0, a0, a0, a0, a0, a0, a0, a0, a0, a0, a0, a0, a0, a0, a1, a0, a0, a0, a0, a0, a0, a0, a0, a0, a0, a0, a0, a0, a0, a0, a0, a0, a0, a0, a0, a1, a0, a0, a0, a0, a0, a0, a0, a0, a0, a0, a1, a0, a0, a0, a0, a0, a0, a0, a0, a0, a0, a0, a0, a0, a0, a0, a1, a0, a0, a0, a0, a0, a0, a0, a0, a0, a0, a0, a0, a0, a0, a1, a0, a0, a0, a0, a0, a0, a0, a0, a0, a0, a0, a0, a0, a0, a0, a0, a0, a0, a1, a0, a0, a0, a0, a0, a0, a0, a0, a1, a0, a0, a0, a0, a0, a0, a0, a0, a0, a0, a0, a1, a0, a0, a0, a0, a0, a0, a0, a0, a0, a0, a0, a0, a0, a0, a0, a0, a0, a0, a0, a0, a0, a0, a0, a0, a0, a0, a0, a0, a0, a0, a0, a0, a0, a0, a0, a0, a0, a0, a0, a0, a0, a0, a0, a0, a0, a0, a0, a0, a0, a0, a0, a0, a0, a0, a0, a0, a0, a0, a0, a0, a0]
  hints := [⟨[131, 129, 128], (dd [2241, 0, 1]), []⟩, ⟨[122, 118, 117, 116], (dd [2465, 0, 1]), [(0, (dd [0, 0, 6277101735386680763835789423207666416102355444464034512896]))]⟩, ⟨[112, 109, 105, 104, 103], (dd [2705, 0, 1]), [(1, (dd [0, 0, 6277101735386680763835789423207666416102355444464034512896])), (0, (dd [0, 0, 115792089237316195423570985008687907853269984665640564039457584007913129639936]))]⟩, ⟨[84, 82, 81], (dd [3249, 0, 1]), []⟩, ⟨[75, 71, 70, 69], (dd [3473, 0, 1]), [(0, (dd [0, 0, 6277101735386680763835789423207666416102355444464034512896]))]⟩, ⟨[65, 62, 58, 57, 56], (dd [3713, 0, 1]), [(1, (dd [0, 0, 6277101735386680763835789423207666416102355444464034512896])), (0, (dd [0, 0, 115792089237316195423570985008687907853269984665640564039457584007913129639936]))]⟩, ⟨[44, 41, 39], (dd [4177, 0, 1]), []⟩, ⟨[37, 32, 31, 30], (dd [4353, 0, 1]), [(0, (dd [0, 0, 6277101735386680763835789423207666416102355444464034512896]))]⟩, ⟨[17, 16, 15, 14, 13, 12, 11, 10], (dd [1713, 0, 1, 4593, 0, 1, 4785, 1, 1, 4913, 1, 1, 79758753, 0, 1]), [(15, (dd [200, 1, 1, 208, 1, 18446744073709551616, 216, 1, 340282366920938463463374607431768211456, 224, 1, 6277101735386680763835789423207666416102355444464034512896, 232, 1, 1, 240, 1, 18446744073709551616, 248, 1, 340282366920938463463374607431768211456])), (14, (dd [200, 1, 18446744073709551616, 208, 1, 340282366920938463463374607431768211456, 216, 1, 6277101735386680763835789423207666416102355444464034512896, 224, 1, 115792089237316195423570985008687907853269984665640564039457584007913129639936, 232, 1, 18446744073709551616, 240, 1, 340282366920938463463374607431768211456, 248, 1, 6277101735386680763835789423207666416102355444464034512896])), (13, (dd [200, 1, 340282366920938463463374607431768211456, 208, 1, 6277101735386680763835789423207666416102355444464034512896, 216, 1, 115792089237316195423570985008687907853269984665640564039457584007913129639936, 224, 1, 2135987035920910082395021706169552114602704522356652769947041607822219725780640550022962086936576, 232, 1, 340282366920938463463374607431768211456, 240, 1, 6277101735386680763835789423207666416102355444464034512896, 248, 1, 115792089237316195423570985008687907853269984665640564039457584007913129639936])), (12, (dd [200, 1, 6277101735386680763835789423207666416102355444464034512896, 208, 1, 115792089237316195423570985008687907853269984665640564039457584007913129639936, 216, 1, 2135987035920910082395021706169552114602704522356652769947041607822219725780640550022962086936576, 224, 1, 39402006196394479212279040100143613805079739270465446667948293404245721771497210611414266254884915640806627990306816, 232, 1, 6277101735386680763835789423207666416102355444464034512896, 240, 1, 115792089237316195423570985008687907853269984665640564039457584007913129639936, 248, 1, 2135987035920910082395021706169552114602704522356652769947041607822219725780640550022962086936576])), (11, (dd [1176, 1, 1, 1192, 1, 18446744073709551616, 1208, 1, 340282366920938463463374607431768211456, 1217, 1, 115792089237316195423570985008687907853269984665640564039457584007913129639936, 1224, 1, 6277101735386680763835789423207666416102355444464034512896])), (10, (dd [1176, 1, 18446744073709551616, 1192, 1, 340282366920938463463374607431768211456, 1208, 1, 6277101735386680763835789423207666416102355444464034512896, 1217, 1, 2135987035920910082395021706169552114602704522356652769947041607822219725780640550022962086936576, 1224, 1, 115792089237316195423570985008687907853269984665640564039457584007913129639936])), (9, (dd [1176, 1, 340282366920938463463374607431768211456, 1192, 1, 6277101735386680763835789423207666416102355444464034512896, 1208, 1, 115792089237316195423570985008687907853269984665640564039457584007913129639936, 1217, 1, 39402006196394479212279040100143613805079739270465446667948293404245721771497210611414266254884915640806627990306816, 1224, 1, 2135987035920910082395021706169552114602704522356652769947041607822219725780640550022962086936576])), (8, (dd [1176, 1, 6277101735386680763835789423207666416102355444464034512896, 1192, 1, 115792089237316195423570985008687907853269984665640564039457584007913129639936, 1208, 1, 2135987035920910082395021706169552114602704522356652769947041607822219725780640550022962086936576, 1217, 1, 726838724295606890549323807888004534353641360687318060281490199180639288113397923326191050713763565560762521606266177933534601628614656, 1224, 1, 39402006196394479212279040100143613805079739270465446667948293404245721771497210611414266254884915640806627990306816])), (7, (dd [0, 0, 39402006196394479212279040100143613805079739270465446667948293404245721771497210611414266254884915640806627990306816])), (6, (dd [0, 0, 726838724295606890549323807888004534353641360687318060281490199180639288113397923326191050713763565560762521606266177933534601628614656])), (5, (dd [0, 0, 13407807929942597099574024998205846127479365820592393377723561443721764030073546976801874298166903427690031858186486050853753882811946569946433649006084096])), (4, (dd [0, 1, 39402006196394479212279040100143613805079739270465446667948293404245721771497210611414266254884915640806627990306816])), (3, (dd [0, 1, 726838724295606890549323807888004534353641360687318060281490199180639288113397923326191050713763565560762521606266177933534601628614656])), (2, (dd [0, 1, 13407807929942597099574024998205846127479365820592393377723561443721764030073546976801874298166903427690031858186486050853753882811946569946433649006084096])), (1, (dd [0, 1, 2135987035920910082395021706169552114602704522356652769947041607822219725780640550022962086936576])), (0, (dd [0, 1, 39402006196394479212279040100143613805079739270465446667948293404245721771497210611414266254884915640806627990306816]))]⟩]
  zb := 0
  scratch := []
  keepBP := false

theorem mul_adx_xy_ok : mulChk Model.Asm434.mul_adx C.mul_adx_xy 7 1 1 [(16, (dd [200, 1, 115792089237316195423570985008687907853269984665640564039457584007913129639936, 208, 1, 2135987035920910082395021706169552114602704522356652769947041607822219725780640550022962086936576, 216, 1, 39402006196394479212279040100143613805079739270465446667948293404245721771497210611414266254884915640806627990306816, 224, 1, 726838724295606890549323807888004534353641360687318060281490199180639288113397923326191050713763565560762521606266177933534601628614656, 232, 1, 115792089237316195423570985008687907853269984665640564039457584007913129639936, 240, 1, 2135987035920910082395021706169552114602704522356652769947041607822219725780640550022962086936576, 248, 1, 39402006196394479212279040100143613805079739270465446667948293404245721771497210611414266254884915640806627990306816])), (15, (dd [200, 1, 2135987035920910082395021706169552114602704522356652769947041607822219725780640550022962086936576, 208, 1, 39402006196394479212279040100143613805079739270465446667948293404245721771497210611414266254884915640806627990306816, 216, 1, 726838724295606890549323807888004534353641360687318060281490199180639288113397923326191050713763565560762521606266177933534601628614656, 224, 1, 13407807929942597099574024998205846127479365820592393377723561443721764030073546976801874298166903427690031858186486050853753882811946569946433649006084096, 232, 1, 2135987035920910082395021706169552114602704522356652769947041607822219725780640550022962086936576, 240, 1, 39402006196394479212279040100143613805079739270465446667948293404245721771497210611414266254884915640806627990306816, 248, 1, 726838724295606890549323807888004534353641360687318060281490199180639288113397923326191050713763565560762521606266177933534601628614656])), (14, (dd [200, 1, 39402006196394479212279040100143613805079739270465446667948293404245721771497210611414266254884915640806627990306816, 208, 1, 726838724295606890549323807888004534353641360687318060281490199180639288113397923326191050713763565560762521606266177933534601628614656, 216, 1, 13407807929942597099574024998205846127479365820592393377723561443721764030073546976801874298166903427690031858186486050853753882811946569946433649006084096, 224, 1, 247330401473104534060502521019647190035131349101211839914063056092897225106531867170316401061243044989597671426016139339351365034306751209967546155101893167916606772148699136, 232, 1, 39402006196394479212279040100143613805079739270465446667948293404245721771497210611414266254884915640806627990306816, 240, 1, 726838724295606890549323807888004534353641360687318060281490199180639288113397923326191050713763565560762521606266177933534601628614656, 248, 1, 13407807929942597099574024998205846127479365820592393377723561443721764030073546976801874298166903427690031858186486050853753882811946569946433649006084096])), (13, (dd [200, 1, 726838724295606890549323807888004534353641360687318060281490199180639288113397923326191050713763565560762521606266177933534601628614656, 208, 1, 13407807929942597099574024998205846127479365820592393377723561443721764030073546976801874298166903427690031858186486050853753882811946569946433649006084096, 216, 1, 247330401473104534060502521019647190035131349101211839914063056092897225106531867170316401061243044989597671426016139339351365034306751209967546155101893167916606772148699136, 224, 1, 4562440617622195218641171605700291324893228507248559930579192517899275167208677386505912811317371399778642309573594407310688704721375437998252661319722214188251994674360264950082874192246603776, 232, 1, 726838724295606890549323807888004534353641360687318060281490199180639288113397923326191050713763565560762521606266177933534601628614656, 240, 1, 13407807929942597099574024998205846127479365820592393377723561443721764030073546976801874298166903427690031858186486050853753882811946569946433649006084096, 248, 1, 247330401473104534060502521019647190035131349101211839914063056092897225106531867170316401061243044989597671426016139339351365034306751209967546155101893167916606772148699136])), (12, (dd [1176, 1, 115792089237316195423570985008687907853269984665640564039457584007913129639936, 1192, 1, 2135987035920910082395021706169552114602704522356652769947041607822219725780640550022962086936576, 1208, 1, 39402006196394479212279040100143613805079739270465446667948293404245721771497210611414266254884915640806627990306816, 1217, 1, 13407807929942597099574024998205846127479365820592393377723561443721764030073546976801874298166903427690031858186486050853753882811946569946433649006084096, 1224, 1, 726838724295606890549323807888004534353641360687318060281490199180639288113397923326191050713763565560762521606266177933534601628614656])), (11, (dd [1176, 1, 2135987035920910082395021706169552114602704522356652769947041607822219725780640550022962086936576, 1192, 1, 39402006196394479212279040100143613805079739270465446667948293404245721771497210611414266254884915640806627990306816, 1208, 1, 726838724295606890549323807888004534353641360687318060281490199180639288113397923326191050713763565560762521606266177933534601628614656, 1217, 1, 247330401473104534060502521019647190035131349101211839914063056092897225106531867170316401061243044989597671426016139339351365034306751209967546155101893167916606772148699136, 1224, 1, 13407807929942597099574024998205846127479365820592393377723561443721764030073546976801874298166903427690031858186486050853753882811946569946433649006084096])), (10, (dd [1176, 1, 39402006196394479212279040100143613805079739270465446667948293404245721771497210611414266254884915640806627990306816, 1192, 1, 726838724295606890549323807888004534353641360687318060281490199180639288113397923326191050713763565560762521606266177933534601628614656, 1208, 1, 13407807929942597099574024998205846127479365820592393377723561443721764030073546976801874298166903427690031858186486050853753882811946569946433649006084096, 1217, 1, 4562440617622195218641171605700291324893228507248559930579192517899275167208677386505912811317371399778642309573594407310688704721375437998252661319722214188251994674360264950082874192246603776, 1224, 1, 247330401473104534060502521019647190035131349101211839914063056092897225106531867170316401061243044989597671426016139339351365034306751209967546155101893167916606772148699136])), (9, (dd [1176, 1, 726838724295606890549323807888004534353641360687318060281490199180639288113397923326191050713763565560762521606266177933534601628614656, 1192, 1, 13407807929942597099574024998205846127479365820592393377723561443721764030073546976801874298166903427690031858186486050853753882811946569946433649006084096, 1208, 1, 247330401473104534060502521019647190035131349101211839914063056092897225106531867170316401061243044989597671426016139339351365034306751209967546155101893167916606772148699136, 1217, 1, 84162174424773976115855838126082058648805436845170781751972494449099714468753293153818664580441415219631727501698851483408310916002940861810045036330430093599283578738055113571066620126149163476340692027772502016, 1224, 1, 4562440617622195218641171605700291324893228507248559930579192517899275167208677386505912811317371399778642309573594407310688704721375437998252661319722214188251994674360264950082874192246603776])), (8, (dd [0, 0, 4562440617622195218641171605700291324893228507248559930579192517899275167208677386505912811317371399778642309573594407310688704721375437998252661319722214188251994674360264950082874192246603776])), (7, (dd [0, 0, 84162174424773976115855838126082058648805436845170781751972494449099714468753293153818664580441415219631727501698851483408310916002940861810045036330430093599283578738055113571066620126149163476340692027772502016])), (6, (dd [0, 0, 1552518092300708935148979488462502555256886017116696611139052038026050952686376886330878408828646477950487730697131073206171580044114814391444287275041181139204454976020849905550265285631598444825262999193716468750892846853816057856])), (5, (dd [0, 1, 4562440617622195218641171605700291324893228507248559930579192517899275167208637984499716416838159120738542165959789327571418239274707489704848415597950716977640580408105380034442067564256296960])), (4, (dd [0, 1, 84162174424773976115855838126082058648805436845170781751972494449099714468752566315094368973550865895823839497164497842047623597942659371610864397042316695675957387687341350005505857604542897298407157426143887360])), (3, (dd [0, 1, 1552518092300708935148979488462502555256886017116696611139052038026050952686363478522948466231546903925489524851003593840350987650737090830000565511011107592227653101722683002122575253773411958774409245310904522180946413204809973760])), (2, (dd [0, 0, 28638903918474961204418783933674838490721739172170652529441449702311064005352656828943811161290567872908339862028964588725295648917159313644352128816458047753342557906917969057277203590052962636905688643197438496265963007451635690447442180334325596160])), (1, (dd [0, 0, 528294531135665246352339784916516606518847326036121522127960709026673902556720297033799633692438546723068694701932235450375098999572106344732639703295730899521880771187687712768952875366852846645713544203489812966149775631431839524650144904092676211539455706705491394560])), (0, (dd [0, 0, 1552518092300708935148979488462502555256886017116696611139052038026050952686376886330878408828646477950487730697131073206171580044114814391444287275041181139204454976020849905550265285631598444825262999193716468750892846853816057856]))] = true := by decide +kernel

def C.rdc : Cert where
  S := ⟨[], [12, 24], [.arr 0, .arr 1], 0⟩
  anns := [a0, a0, a0, a0, a0, a0, a0, a0, a0, a0, a0, a0, a1, a0, a0, a0, a0, a0, a1, a0, a0, a0, a0, a0, a1, a0, a0, a0, a0, a1, a0, a0, a0, a0, a0, a1, a0, a0, a0, a0, a1, a0, a0, a0, a0, a0, a2, a2, a0, a0, a0, a0, a0, a0, a0, a0, a0, a0, a0, a0, a0, a0, a0, a0, a0, a0, a0, a0, a0, a0, a0, a0, a0, a0, a0, a0, a0, a0, a0, a0, a0, a0, a1, a0, a0, a0, a0, a0, a1, a0, a0, a0, a0, a0, a1, a0, a0, a0, a0, a1, a0, a0, a0, a0, a0, a1, a0, a0, a0, a0, a1, a0, a0, a0, a0, a0, a2, a2, a0, a0, a0, a0, a0, a0, a0, a0, a0, a0, a0, a0, a0, a0, a0, a0, a0, a0, a0, a0, a0, a0, a0, a0, a0, a0, a0, a0, a1, a0, a0, a0, a0, a0, a1, a0, a0, a0, a0, a0, a1, a0, a0, a0, a0, a1, a0, a0, a0, a0, a0, a1, a0, a0, a0, a0, a1, a0, a0, a0, a0, a0, a0, a0, a0, a0, a0, a0, a0, a0, a0, a0, a0, a0, a0, a0, a0, a0, a0, a0, a0, a0, a0, a0, a0, a0, a1, a0, a0, a0, a0, a1, a0, a0, a0, a1, a0, a0, a0, a0, a0, a0, a0, a0, a0, a0]
  hints := [⟨[97, 96], (dd [1729, 0, 1]), []⟩, ⟨[59, 58], (dd [2849, 0, 1]), []⟩, ⟨[23, 22], (dd [3873, 0, 1]), []⟩]
  zb := 0
  scratch := [1]
  keepBP := true

theorem rdc_ok : rdcChk Model.Asm434.rdc C.rdc 7 24439423661345221551909145011457493619085780243761596511325807336205221239331976725970216671828618445898719026692884939342314733567 1 (dd [104, 0, 1, 112, 0, 18446744073709551616, 120, 0, 340282366920938463463374607431768211456, 1768, 0, 6277101735386680763835789423207666416102355444464034512896, 1784, 0, 115792089237316195423570985008687907853269984665640564039457584007913129639936, 2888, 0, 2135987035920910082395021706169552114602704522356652769947041607822219725780640550022962086936576, 2904, 0, 39402006196394479212279040100143613805079739270465446667948293404245721771497210611414266254884915640806627990306816]) [(6, (dd [0, 1, 6277101735386680763835789423207666416102355444464034512896])), (5, (dd [0, 1, 115792089237316195423570985008687907853269984665640564039457584007913129639936])), (4, (dd [0, 1, 2135987035920910082395021706169552114602704522356652769947041607822219725780640550022962086936576])), (3, (dd [0, 1, 39402006196394479212279040100143613805079739270465446667948293404245721771497210611414266254884915640806627990306816])), (2, (dd [0, 0, 247330401473104534060502521019647190035131349101211839914063056092897225106531867170316401061243044989597671426016139339351365034306751209967546155101893167916606772148699136])), (1, (dd [0, 0, 84162174424773976115855838126082058648805436845170781751972494449099714468753293153818664580441415219631727501698851483408310916002940861810045036330430093599283578738055113571066620126149163476340692027772502016])), (0, (dd [0, 0, 28638903918474961204418783933674838490721739172170652529441449702311064005352904159345284265824628375429359509218999720074396860757073376700445026041564579620512874307979212102266801261478978776245040008231745247475930553606737583615358787106474295296]))] = true := by decide +kernel

def C.rdc_adx : Cert where
  S := ⟨[], [12, 24], [.arr 0, .arr 1], 0⟩
  anns := [a0, a0, a0, a0, a0, a0, a0, a0, a0, a0, a0, a1, a0, a0, a0, a0, a0, a0, a0, a0, a0, a0, a0, a0, a1, a0, a0, a0, a2, a2, a0, a0, a0, a0, a0, a0, a0, a0, a0, a0, a0, a0, a0, a0, a0, a0, a0, a0, a0, a0, a0, a0, a0, a0, a0, a0, a0, a0, a0, a0, a0, a0, a0, a1, a0, a0, a0, a0, a0, a0, a0, a0, a0, a0, a0, a0, a1, a0, a0, a0, a2, a2, a0, a0, a0, a0, a0, a0, a0, a0, a0, a0, a0, a0, a0, a0, a0, a0, a0, a0, a0, a0, a0, a0, a0, a0, a0, a0, a0, a1, a0, a0, a0, a0, a0, a0, a0, a0, a0, a0, a0, a0, a1, a0, a0, a0, a0, a0, a0, a0, a0, a0, a0, a0, a0, a0, a0, a0, a0, a0, a0, a0, a0, a0, a0, a0, a0, a0, a0, a1, a0, a0, a0, a0, a0, a0, a0, a0, a0, a0]
  hints := [⟨[83, 82], (dd [1441, 0, 1]), []⟩, ⟨[51, 50], (dd [2273, 0, 1]), []⟩, ⟨[21, 20], (dd [3009, 0, 1]), []⟩]
  zb := 0
  scratch := [1]
  keepBP := true

theorem rdc_adx_ok : rdcChk Model.Asm434.rdc_adx C.rdc_adx 7 24439423661345221551909145011457493619085780243761596511325807336205221239331976725970216671828618445898719026692884939342314733567 1 (dd [104, 0, 1, 112, 0, 18446744073709551616, 120, 0, 340282366920938463463374607431768211456, 1480, 0, 6277101735386680763835789423207666416102355444464034512896, 1496, 0, 115792089237316195423570985008687907853269984665640564039457584007913129639936, 2312, 0, 2135987035920910082395021706169552114602704522356652769947041607822219725780640550022962086936576, 2328, 0, 39402006196394479212279040100143613805079739270465446667948293404245721771497210611414266254884915640806627990306816]) [(6, (dd [0, 1, 6277101735386680763835789423207666416102355444464034512896])), (5, (dd [0, 1, 115792089237316195423570985008687907853269984665640564039457584007913129639936])), (4, (dd [0, 1, 2135987035920910082395021706169552114602704522356652769947041607822219725780640550022962086936576])), (3, (dd [0, 1, 39402006196394479212279040100143613805079739270465446667948293404245721771497210611414266254884915640806627990306816])), (2, (dd [0, 0, 247330401473104534060502521019647190035131349101211839914063056092897225106531867170316401061243044989597671426016139339351365034306751209967546155101893167916606772148699136])), (1, (dd [0, 0, 84162174424773976115855838126082058648805436845170781751972494449099714468753293153818664580441415219631727501698851483408310916002940861810045036330430093599283578738055113571066620126149163476340692027772502016])), (0, (dd [0, 0, 28638903918474961204418783933674838490721739172170652529441449702311064005352904159345284265824628375429359509218999720074396860757073376700445026041564579620512874307979212102266801261478978776245040008231745247475930553606737583615358787106474295296]))] = true := by decide +kernel

end Lemmas.AsmCert434
