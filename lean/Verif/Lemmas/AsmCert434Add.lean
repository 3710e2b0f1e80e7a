import Verif.Lemmas.AsmFam
import Verif.Model.AsmP434
/- Certificates for additions and subtractions of p434/arith_amd64.s, printed by gen/asmgen.py. -/
set_option maxRecDepth 100000
namespace Lemmas.AsmCert434
open Model.Asm Lemmas.AsmSym Lemmas.AsmPoly Lemmas.AsmSound Lemmas.AsmCall Lemmas.AsmFam

def C.add : Cert where
  S := ⟨[], [12, 12, 12], [.arr 0, .arr 1, .arr 2], 0⟩
  anns := [a0, a0, a0, a0, a0, a0, a0, a0, a0, a0, a0, a0, a0, a0, a0, a0, a0, a0, a0, a0, a0, a0, a0, a0, a0, a0, a0, a0, a0, a0, a0, a0, a1, a0, a0, a0, a0, a0, a0, a0, a0, a0, a0, a1, a0, a0, a0, a0, a0, a0, a0, a0, a0, a0, a0, a0, a0, a0, a0, a0, a0]
  hints := []
  zb := 0
  scratch := []
  keepBP := true

theorem add_ok : addChk Model.Asm434.add C.add 7 24439423661345221551909145011457493619085780243761596511325807336205221239331976725970216671828618445898719026692884939342314733567 1 2 [22, 21, 20, 19, 18, 17, 16] [15, 14, 13, 12, 11, 10, 9] (dd [1521, 0, 1]) [] [] [] = true := by decide +kernel

def C.add_zx : Cert where
  S := ⟨[], [12, 12], [.arr 0, .arr 0, .arr 1], 0⟩
  anns := [a0, a0, a0, a0, a0, a0, a0, a0, a0, a0, a0, a0, a0, a0, a0, a0, a0, a0, a0, a0, a0, a0, a0, a0, a0, a0, a0, a0, a0, a0, a0, a0, a1, a0, a0, a0, a0, a0, a0, a0, a0, a0, a0, a1, a0, a0, a0, a0, a0, a0, a0, a0, a0, a0, a0, a0, a0, a0, a0, a0, a0]
  hints := []
  zb := 0
  scratch := []
  keepBP := true

theorem add_zx_ok : addChk Model.Asm434.add C.add_zx 7 24439423661345221551909145011457493619085780243761596511325807336205221239331976725970216671828618445898719026692884939342314733567 0 1 [22, 21, 20, 19, 18, 17, 16] [15, 14, 13, 12, 11, 10, 9] (dd [1521, 0, 1]) [] [] [] = true := by decide +kernel

def C.add_zy : Cert where
  S := ⟨[], [12, 12], [.arr 0, .arr 1, .arr 0], 0⟩
  anns := [a0, a0, a0, a0, a0, a0, a0, a0, a0, a0, a0, a0, a0, a0, a0, a0, a0, a0, a0, a0, a0, a0, a0, a0, a0, a0, a0, a0, a0, a0, a0, a0, a1, a0, a0, a0, a0, a0, a0, a0, a0, a0, a0, a1, a0, a0, a0, a0, a0, a0, a0, a0, a0, a0, a0, a0, a0, a0, a0, a0, a0]
  hints := []
  zb := 0
  scratch := []
  keepBP := true

theorem add_zy_ok : addChk Model.Asm434.add C.add_zy 7 24439423661345221551909145011457493619085780243761596511325807336205221239331976725970216671828618445898719026692884939342314733567 1 0 [22, 21, 20, 19, 18, 17, 16] [15, 14, 13, 12, 11, 10, 9] (dd [1521, 0, 1]) [] [] [] = true := by decide +kernel

def C.add_xy : Cert where
  S := ⟨[], [12, 12], [.arr 0, .arr 1, .arr 1], 0⟩
  anns := [a0, a0, a0, a0, a0, a0, a0, a0, a0, a0, a0, a0, a0, a0, a0, a0, a0, a0, a0, a0, a0, a0, a0, a0, a0, a0, a0, a0, a0, a0, a0, a0, a1, a0, a0, a0, a0, a0, a0, a0, a0, a0, a0, a1, a0, a0, a0, a0, a0, a0, a0, a0, a0, a0, a0, a0, a0, a0, a0, a0, a0]
  hints := []
  zb := 0
  scratch := []
  keepBP := true

theorem add_xy_ok : addChk Model.Asm434.add C.add_xy 7 24439423661345221551909145011457493619085780243761596511325807336205221239331976725970216671828618445898719026692884939342314733567 1 1 [22, 21, 20, 19, 18, 17, 16] [15, 14, 13, 12, 11, 10, 9] (dd [1521, 0, 1]) [] [] [] = true := by decide +kernel

def C.add_zxy : Cert where
  S := ⟨[], [12], [.arr 0, .arr 0, .arr 0], 0⟩
  anns := [a0, a0, a0, a0, a0, a0, a0, a0, a0, a0, a0, a0, a0, a0, a0, a0, a0, a0, a0, a0, a0, a0, a0, a0, a0, a0, a0, a0, a0, a0, a0, a0, a1, a0, a0, a0, a0, a0, a0, a0, a0, a0, a0, a1, a0, a0, a0, a0, a0, a0, a0, a0, a0, a0, a0, a0, a0, a0, a0, a0, a0]
  hints := []
  zb := 0
  scratch := []
  keepBP := true

theorem add_zxy_ok : addChk Model.Asm434.add C.add_zxy 7 24439423661345221551909145011457493619085780243761596511325807336205221239331976725970216671828618445898719026692884939342314733567 0 0 [22, 21, 20, 19, 18, 17, 16] [15, 14, 13, 12, 11, 10, 9] (dd [1521, 0, 1]) [] [] [] = true := by decide +kernel

def C.sub : Cert where
  S := ⟨[], [12, 12, 12], [.arr 0, .arr 1, .arr 2], 0⟩
  anns := [a0, a0, a0, a0, a0, a0, a0, a0, a0, a0, a0, a0, a0, a0, a0, a0, a0, a0, a1, a0, a0, a0, a0, a0, a0, a0, a0, a0, a0, a0, a0, a0, a0, a0, a1, a0, a0, a0, a0, a0, a0, a0, a0, a0, a0, a0, a0, a0]
  hints := []
  zb := 0
  scratch := []
  keepBP := true

theorem sub_ok : subChk Model.Asm434.sub C.sub 7 48878847322690443103818290022914987238171560487523193022651614672410442478663953451940433343657236891797438053385769878684629467134 1 2 [15, 14, 13, 12, 11, 10, 9] (dd [1297, 0, 1]) [] [] = true := by decide +kernel

def C.sub_zx : Cert where
  S := ⟨[], [12, 12], [.arr 0, .arr 0, .arr 1], 0⟩
  anns := [a0, a0, a0, a0, a0, a0, a0, a0, a0, a0, a0, a0, a0, a0, a0, a0, a0, a0, a1, a0, a0, a0, a0, a0, a0, a0, a0, a0, a0, a0, a0, a0, a0, a0, a1, a0, a0, a0, a0, a0, a0, a0, a0, a0, a0, a0, a0, a0]
  hints := []
  zb := 0
  scratch := []
  keepBP := true

theorem sub_zx_ok : subChk Model.Asm434.sub C.sub_zx 7 48878847322690443103818290022914987238171560487523193022651614672410442478663953451940433343657236891797438053385769878684629467134 0 1 [15, 14, 13, 12, 11, 10, 9] (dd [1297, 0, 1]) [] [] = true := by decide +kernel

def C.sub_zy : Cert where
  S := ⟨[], [12, 12], [.arr 0, .arr 1, .arr 0], 0⟩
  anns := [a0, a0, a0, a0, a0, a0, a0, a0, a0, a0, a0, a0, a0, a0, a0, a0, a0, a0, a1, a0, a0, a0, a0, a0, a0, a0, a0, a0, a0, a0, a0, a0, a0, a0, a1, a0, a0, a0, a0, a0, a0, a0, a0, a0, a0, a0, a0, a0]
  hints := []
  zb := 0
  scratch := []
  keepBP := true

theorem sub_zy_ok : subChk Model.Asm434.sub C.sub_zy 7 48878847322690443103818290022914987238171560487523193022651614672410442478663953451940433343657236891797438053385769878684629467134 1 0 [15, 14, 13, 12, 11, 10, 9] (dd [1297, 0, 1]) [] [] = true := by decide +kernel

def C.sub_xy : Cert where
  S := ⟨[], [12, 12], [.arr 0, .arr 1, .arr 1], 0⟩
  anns := [a0, a0, a0, a0, a0, a0, a0, a0, a0, a0, a0, a0, a0, a0, a0, a0, a0, a0, a1, a0, a0, a0, a0, a0, a0, a0, a0, a0, a0, a0, a0, a0, a0, a0, a1, a0, a0, a0, a0, a0, a0, a0, a0, a0, a0, a0, a0, a0]
  hints := []
  zb := 0
  scratch := []
  keepBP := true

theorem sub_xy_ok : subChk Model.Asm434.sub C.sub_xy 7 48878847322690443103818290022914987238171560487523193022651614672410442478663953451940433343657236891797438053385769878684629467134 1 1 [15, 14, 13, 12, 11, 10, 9] (dd [1297, 0, 1]) [] [] = true := by decide +kernel

def C.sub_zxy : Cert where
  S := ⟨[], [12], [.arr 0, .arr 0, .arr 0], 0⟩
  anns := [a0, a0, a0, a0, a0, a0, a0, a0, a0, a0, a0, a0, a0, a0, a0, a0, a0, a0, a1, a0, a0, a0, a0, a0, a0, a0, a0, a0, a0, a0, a0, a0, a0, a0, a1, a0, a0, a0, a0, a0, a0, a0, a0, a0, a0, a0, a0, a0]
  hints := []
  zb := 0
  scratch := []
  keepBP := true

theorem sub_zxy_ok : subChk Model.Asm434.sub C.sub_zxy 7 48878847322690443103818290022914987238171560487523193022651614672410442478663953451940433343657236891797438053385769878684629467134 0 0 [15, 14, 13, 12, 11, 10, 9] (dd [1297, 0, 1]) [] [] = true := by decide +kernel

def C.adl : Cert where
  S := ⟨[], [24, 24, 24], [.arr 0, .arr 1, .arr 2], 0⟩
  anns := [a0, a0, a0, a0, a0, a0, a0, a0, a0, a0, a0, a0, a0, a0, a0, a0, a0, a0, a0, a0, a0, a0, a0, a0, a0, a0, a0, a0, a0, a0, a0, a0, a0, a0, a0, a0, a0, a0, a0, a0, a0, a0, a0, a0, a0]
  hints := []
  zb := 0
  scratch := []
  keepBP := true

theorem adl_ok : adlChk Model.Asm434.adl C.adl 14 1 2 [] = true := by decide +kernel

def C.adl_zx : Cert where
  S := ⟨[], [24, 24], [.arr 0, .arr 0, .arr 1], 0⟩
  anns := [a0, a0, a0, a0, a0, a0, a0, a0, a0, a0, a0, a0, a0, a0, a0, a0, a0, a0, a0, a0, a0, a0, a0, a0, a0, a0, a0, a0, a0, a0, a0, a0, a0, a0, a0, a0, a0, a0, a0, a0, a0, a0, a0, a0, a0]
  hints := []
  zb := 0
  scratch := []
  keepBP := true

theorem adl_zx_ok : adlChk Model.Asm434.adl C.adl_zx 14 0 1 [] = true := by decide +kernel

def C.adl_zy : Cert where
  S := ⟨[], [24, 24], [.arr 0, .arr 1, .arr 0], 0⟩
  anns := [a0, a0, a0, a0, a0, a0, a0, a0, a0, a0, a0, a0, a0, a0, a0, a0, a0, a0, a0, a0, a0, a0, a0, a0, a0, a0, a0, a0, a0, a0, a0, a0, a0, a0, a0, a0, a0, a0, a0, a0, a0, a0, a0, a0, a0]
  hints := []
  zb := 0
  scratch := []
  keepBP := true

theorem adl_zy_ok : adlChk Model.Asm434.adl C.adl_zy 14 1 0 [] = true := by decide +kernel

def C.adl_xy : Cert where
  S := ⟨[], [24, 24], [.arr 0, .arr 1, .arr 1], 0⟩
  anns := [a0, a0, a0, a0, a0, a0, a0, a0, a0, a0, a0, a0, a0, a0, a0, a0, a0, a0, a0, a0, a0, a0, a0, a0, a0, a0, a0, a0, a0, a0, a0, a0, a0, a0, a0, a0, a0, a0, a0, a0, a0, a0, a0, a0, a0]
  hints := []
  zb := 0
  scratch := []
  keepBP := true

theorem adl_xy_ok : adlChk Model.Asm434.adl C.adl_xy 14 1 1 [] = true := by decide +kernel

def C.adl_zxy : Cert where
  S := ⟨[], [24], [.arr 0, .arr 0, .arr 0], 0⟩
  anns := [a0, a0, a0, a0, a0, a0, a0, a0, a0, a0, a0, a0, a0, a0, a0, a0, a0, a0, a0, a0, a0, a0, a0, a0, a0, a0, a0, a0, a0, a0, a0, a0, a0, a0, a0, a0, a0, a0, a0, a0, a0, a0, a0, a0, a0]
  hints := []
  zb := 0
  scratch := []
  keepBP := true

theorem adl_zxy_ok : adlChk Model.Asm434.adl C.adl_zxy 14 0 0 [] = true := by decide +kernel

def C.sul : Cert where
  S := ⟨[], [24, 24, 24], [.arr 0, .arr 1, .arr 2], 0⟩
  anns := [a0, a0, a0, a0, a0, a0, a0, a0, a0, a0, a0, a0, a0, a0, a0, a0, a0, a0, a0, a0, a0, a0, a0, a0, a0, a0, a0, a0, a0, a0, a0, a0, a0, a0, a0, a0, a0, a0, a0, a0, a0, a0, a1, a0, a0, a0, a0, a0, a0, a0, a0, a0, a0, a0, a0, a0, a0, a0, a0, a0, a0, a0, a0, a0, a0, a0, a0, a0, a0, a0, a0, a0, a0, a0, a0, a0, a0, a0]
  hints := []
  zb := 0
  scratch := []
  keepBP := true

theorem sul_ok : subChk Model.Asm434.sul C.sul 14 17763519516532030991634774151617920834147822586003566893760667283667385264127483910448516499595203794751073970758440041603775592248399742059681498166092785702074065606998074756887628575052548182421075760620522633986740471904511920144853450478334368140694251951357952 1 2 [21, 20, 19, 18, 17, 16, 15, 14, 13, 12, 11, 10, 9, 8] (dd [1681, 0, 1]) [] [] = true := by decide +kernel

def C.sul_zx : Cert where
  S := ⟨[], [24, 24], [.arr 0, .arr 0, .arr 1], 0⟩
  anns := [a0, a0, a0, a0, a0, a0, a0, a0, a0, a0, a0, a0, a0, a0, a0, a0, a0, a0, a0, a0, a0, a0, a0, a0, a0, a0, a0, a0, a0, a0, a0, a0, a0, a0, a0, a0, a0, a0, a0, a0, a0, a0, a1, a0, a0, a0, a0, a0, a0, a0, a0, a0, a0, a0, a0, a0, a0, a0, a0, a0, a0, a0, a0, a0, a0, a0, a0, a0, a0, a0, a0, a0, a0, a0, a0, a0, a0, a0]
  hints := []
  zb := 0
  scratch := []
  keepBP := true

theorem sul_zx_ok : subChk Model.Asm434.sul C.sul_zx 14 17763519516532030991634774151617920834147822586003566893760667283667385264127483910448516499595203794751073970758440041603775592248399742059681498166092785702074065606998074756887628575052548182421075760620522633986740471904511920144853450478334368140694251951357952 0 1 [21, 20, 19, 18, 17, 16, 15, 14, 13, 12, 11, 10, 9, 8] (dd [1681, 0, 1]) [] [] = true := by decide +kernel

def C.sul_zy : Cert where
  S := ⟨[], [24, 24], [.arr 0, .arr 1, .arr 0], 0⟩
  anns := [a0, a0, a0, a0, a0, a0, a0, a0, a0, a0, a0, a0, a0, a0, a0, a0, a0, a0, a0, a0, a0, a0, a0, a0, a0, a0, a0, a0, a0, a0, a0, a0, a0, a0, a0, a0, a0, a0, a0, a0, a0, a0, a1, a0, a0, a0, a0, a0, a0, a0, a0, a0, a0, a0, a0, a0, a0, a0, a0, a0, a0, a0, a0, a0, a0, a0, a0, a0, a0, a0, a0, a0, a0, a0, a0, a0, a0, a0]
  hints := []
  zb := 0
  scratch := []
  keepBP := true

theorem sul_zy_ok : subChk Model.Asm434.sul C.sul_zy 14 17763519516532030991634774151617920834147822586003566893760667283667385264127483910448516499595203794751073970758440041603775592248399742059681498166092785702074065606998074756887628575052548182421075760620522633986740471904511920144853450478334368140694251951357952 1 0 [21, 20, 19, 18, 17, 16, 15, 14, 13, 12, 11, 10, 9, 8] (dd [1681, 0, 1]) [] [] = true := by decide +kernel

def C.sul_xy : Cert where
  S := ⟨[], [24, 24], [.arr 0, .arr 1, .arr 1], 0⟩
  anns := [a0, a0, a0, a0, a0, a0, a0, a0, a0, a0, a0, a0, a0, a0, a0, a0, a0, a0, a0, a0, a0, a0, a0, a0, a0, a0, a0, a0, a0, a0, a0, a0, a0, a0, a0, a0, a0, a0, a0, a0, a0, a0, a1, a0, a0, a0, a0, a0, a0, a0, a0, a0, a0, a0, a0, a0, a0, a0, a0, a0, a0, a0, a0, a0, a0, a0, a0, a0, a0, a0, a0, a0, a0, a0, a0, a0, a0, a0]
  hints := []
  zb := 0
  scratch := []
  keepBP := true

theorem sul_xy_ok : subChk Model.Asm434.sul C.sul_xy 14 17763519516532030991634774151617920834147822586003566893760667283667385264127483910448516499595203794751073970758440041603775592248399742059681498166092785702074065606998074756887628575052548182421075760620522633986740471904511920144853450478334368140694251951357952 1 1 [21, 20, 19, 18, 17, 16, 15, 14, 13, 12, 11, 10, 9, 8] (dd [1681, 0, 1]) [] [] = true := by decide +kernel

def C.sul_zxy : Cert where
  S := ⟨[], [24], [.arr 0, .arr 0, .arr 0], 0⟩
  anns := [a0, a0, a0, a0, a0, a0, a0, a0, a0, a0, a0, a0, a0, a0, a0, a0, a0, a0, a0, a0, a0, a0, a0, a0, a0, a0, a0, a0, a0, a0, a0, a0, a0, a0, a0, a0, a0, a0, a0, a0, a0, a0, a1, a0, a0, a0, a0, a0, a0, a0, a0, a0, a0, a0, a0, a0, a0, a0, a0, a0, a0, a0, a0, a0, a0, a0, a0, a0, a0, a0, a0, a0, a0, a0, a0, a0, a0, a0]
  hints := []
  zb := 0
  scratch := []
  keepBP := true

theorem sul_zxy_ok : subChk Model.Asm434.sul C.sul_zxy 14 17763519516532030991634774151617920834147822586003566893760667283667385264127483910448516499595203794751073970758440041603775592248399742059681498166092785702074065606998074756887628575052548182421075760620522633986740471904511920144853450478334368140694251951357952 0 0 [21, 20, 19, 18, 17, 16, 15, 14, 13, 12, 11, 10, 9, 8] (dd [1681, 0, 1]) [] [] = true := by decide +kernel

def C.mod : Cert where
  S := ⟨[], [12], [.arr 0], 0⟩
  anns := [a0, a0, a0, a0, a0, a0, a0, a0, a0, a0, a0, a0, a0, a0, a1, a0, a0, a0, a0, a0, a0, a0, a0, a0, a0, a0, a0]
  hints := []
  zb := 0
  scratch := []
  keepBP := true

theorem mod_ok : modChk Model.Asm434.mod C.mod 7 24439423661345221551909145011457493619085780243761596511325807336205221239331976725970216671828618445898719026692884939342314733567 0 [14, 13, 12, 11, 10, 9, 8] (dd [1233, 0, 1]) [] [] = true := by decide +kernel

end Lemmas.AsmCert434
