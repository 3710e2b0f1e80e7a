import Verif.Lemmas.AsmFam
import Verif.Model.AsmP751
/- Certificates for additions and subtractions of p751/arith_amd64.s, printed by gen/asmgen.py. -/
set_option maxRecDepth 100000
namespace Lemmas.AsmCert751
open Model.Asm Lemmas.AsmSym Lemmas.AsmPoly Lemmas.AsmSound Lemmas.AsmCall Lemmas.AsmFam

def C.add : Cert where
  S := ⟨[], [12, 12, 12], [.arr 0, .arr 1, .arr 2], 0⟩
  anns := [a0, a0, a0, a0, a0, a0, a0, a0, a0, a0, a0, a0, a0, a0, a0, a0, a0, a0, a0, a0, a0, a0, a0, a0, a0, a0, a0, a0, a0, a0, a0, a0, a0, a0, a0, a0, a0, a0, a0, a0, a0, a0, a0, a0, a0, a0, a0, a0, a0, a0, a0, a0, a0, a0, a0, a0, a0, a0, a0, a0, a0, a0, a0, a0, a0, a0, a0, a1, a0, a0, a0, a0, a0, a0, a0, a0, a0, a0, a0, a0, a0, a0, a0, a0, a0, a0, a0, a0, a0, a0, a0, a0, a0, a0, a0, a0, a0, a0, a0, a0, a0, a0, a0, a0, a0, a0, a0, a0, a0, a0, a0, a0, a0, a0, a0, a0, a0, a0, a0, a0, a0, a0]
  hints := []
  zb := 0
  scratch := []
  keepBP := true

theorem add_ok : addChk Model.Asm751.add C.add 12 10354717741769305252977768237866805321427389645549071170116189679054678940682478846502882896561066713624553211618840202385203911976522554393044160468771151816976706840078913334358399730952774926980235086850991501872665651576831 1 2 [36, 35, 34, 33, 32, 31, 30, 29, 28, 27, 26, 25] [24, 23, 22, 21, 20, 19, 18, 17, 16, 15, 14, 13] (dd [2017, 0, 1]) [] [] [] = true := by decide +kernel

def C.add_zx : Cert where
  S := ⟨[], [12, 12], [.arr 0, .arr 0, .arr 1], 0⟩
  anns := [a0, a0, a0, a0, a0, a0, a0, a0, a0, a0, a0, a0, a0, a0, a0, a0, a0, a0, a0, a0, a0, a0, a0, a0, a0, a0, a0, a0, a0, a0, a0, a0, a0, a0, a0, a0, a0, a0, a0, a0, a0, a0, a0, a0, a0, a0, a0, a0, a0, a0, a0, a0, a0, a0, a0, a0, a0, a0, a0, a0, a0, a0, a0, a0, a0, a0, a0, a1, a0, a0, a0, a0, a0, a0, a0, a0, a0, a0, a0, a0, a0, a0, a0, a0, a0, a0, a0, a0, a0, a0, a0, a0, a0, a0, a0, a0, a0, a0, a0, a0, a0, a0, a0, a0, a0, a0, a0, a0, a0, a0, a0, a0, a0, a0, a0, a0, a0, a0, a0, a0, a0, a0]
  hints := []
  zb := 0
  scratch := []
  keepBP := true

theorem add_zx_ok : addChk Model.Asm751.add C.add_zx 12 10354717741769305252977768237866805321427389645549071170116189679054678940682478846502882896561066713624553211618840202385203911976522554393044160468771151816976706840078913334358399730952774926980235086850991501872665651576831 0 1 [36, 35, 34, 33, 32, 31, 30, 29, 28, 27, 26, 25] [24, 23, 22, 21, 20, 19, 18, 17, 16, 15, 14, 13] (dd [2017, 0, 1]) [] [] [] = true := by decide +kernel

def C.add_zy : Cert where
  S := ⟨[], [12, 12], [.arr 0, .arr 1, .arr 0], 0⟩
  anns := [a0, a0, a0, a0, a0, a0, a0, a0, a0, a0, a0, a0, a0, a0, a0, a0, a0, a0, a0, a0, a0, a0, a0, a0, a0, a0, a0, a0, a0, a0, a0, a0, a0, a0, a0, a0, a0, a0, a0, a0, a0, a0, a0, a0, a0, a0, a0, a0, a0, a0, a0, a0, a0, a0, a0, a0, a0, a0, a0, a0, a0, a0, a0, a0, a0, a0, a0, a1, a0, a0, a0, a0, a0, a0, a0, a0, a0, a0, a0, a0, a0, a0, a0, a0, a0, a0, a0, a0, a0, a0, a0, a0, a0, a0, a0, a0, a0, a0, a0, a0, a0, a0, a0, a0, a0, a0, a0, a0, a0, a0, a0, a0, a0, a0, a0, a0, a0, a0, a0, a0, a0, a0]
  hints := []
  zb := 0
  scratch := []
  keepBP := true

theorem add_zy_ok : addChk Model.Asm751.add C.add_zy 12 10354717741769305252977768237866805321427389645549071170116189679054678940682478846502882896561066713624553211618840202385203911976522554393044160468771151816976706840078913334358399730952774926980235086850991501872665651576831 1 0 [36, 35, 34, 33, 32, 31, 30, 29, 28, 27, 26, 25] [24, 23, 22, 21, 20, 19, 18, 17, 16, 15, 14, 13] (dd [2017, 0, 1]) [] [] [] = true := by decide +kernel

def C.add_xy : Cert where
  S := ⟨[], [12, 12], [.arr 0, .arr 1, .arr 1], 0⟩
  anns := [a0, a0, a0, a0, a0, a0, a0, a0, a0, a0, a0, a0, a0, a0, a0, a0, a0, a0, a0, a0, a0, a0, a0, a0, a0, a0, a0, a0, a0, a0, a0, a0, a0, a0, a0, a0, a0, a0, a0, a0, a0, a0, a0, a0, a0, a0, a0, a0, a0, a0, a0, a0, a0, a0, a0, a0, a0, a0, a0, a0, a0, a0, a0, a0, a0, a0, a0, a1, a0, a0, a0, a0, a0, a0, a0, a0, a0, a0, a0, a0, a0, a0, a0, a0, a0, a0, a0, a0, a0, a0, a0, a0, a0, a0, a0, a0, a0, a0, a0, a0, a0, a0, a0, a0, a0, a0, a0, a0, a0, a0, a0, a0, a0, a0, a0, a0, a0, a0, a0, a0, a0, a0]
  hints := []
  zb := 0
  scratch := []
  keepBP := true

theorem add_xy_ok : addChk Model.Asm751.add C.add_xy 12 10354717741769305252977768237866805321427389645549071170116189679054678940682478846502882896561066713624553211618840202385203911976522554393044160468771151816976706840078913334358399730952774926980235086850991501872665651576831 1 1 [36, 35, 34, 33, 32, 31, 30, 29, 28, 27, 26, 25] [24, 23, 22, 21, 20, 19, 18, 17, 16, 15, 14, 13] (dd [2017, 0, 1]) [] [] [] = true := by decide +kernel

def C.add_zxy : Cert where
  S := ⟨[], [12], [.arr 0, .arr 0, .arr 0], 0⟩
  anns := [a0, a0, a0, a0, a0, a0, a0, a0, a0, a0, a0, a0, a0, a0, a0, a0, a0, a0, a0, a0, a0, a0, a0, a0, a0, a0, a0, a0, a0, a0, a0, a0, a0, a0, a0, a0, a0, a0, a0, a0, a0, a0, a0, a0, a0, a0, a0, a0, a0, a0, a0, a0, a0, a0, a0, a0, a0, a0, a0, a0, a0, a0, a0, a0, a0, a0, a0, a1, a0, a0, a0, a0, a0, a0, a0, a0, a0, a0, a0, a0, a0, a0, a0, a0, a0, a0, a0, a0, a0, a0, a0, a0, a0, a0, a0, a0, a0, a0, a0, a0, a0, a0, a0, a0, a0, a0, a0, a0, a0, a0, a0, a0, a0, a0, a0, a0, a0, a0, a0, a0, a0, a0]
  hints := []
  zb := 0
  scratch := []
  keepBP := true

theorem add_zxy_ok : addChk Model.Asm751.add C.add_zxy 12 10354717741769305252977768237866805321427389645549071170116189679054678940682478846502882896561066713624553211618840202385203911976522554393044160468771151816976706840078913334358399730952774926980235086850991501872665651576831 0 0 [36, 35, 34, 33, 32, 31, 30, 29, 28, 27, 26, 25] [24, 23, 22, 21, 20, 19, 18, 17, 16, 15, 14, 13] (dd [2017, 0, 1]) [] [] [] = true := by decide +kernel

def C.sub : Cert where
  S := ⟨[], [12, 12, 12], [.arr 0, .arr 1, .arr 2], 0⟩
  anns := [a0, a0, a0, a0, a0, a0, a0, a0, a0, a0, a0, a0, a0, a0, a0, a0, a0, a0, a0, a0, a0, a0, a0, a0, a0, a0, a0, a0, a0, a0, a0, a0, a0, a0, a0, a0, a0, a0, a0, a0, a1, a0, a0, a0, a0, a0, a0, a0, a0, a0, a0, a0, a0, a0, a0, a0, a0, a0, a0, a0, a0, a0, a0, a0, a0, a0, a0, a0, a0, a0, a0, a0, a0, a0, a0, a0, a0, a0, a0, a0, a0, a0, a0, a0, a0, a0, a0, a0, a0, a0, a0, a0, a0, a0, a0]
  hints := []
  zb := 0
  scratch := []
  keepBP := true

theorem sub_ok : subChk Model.Asm751.sub C.sub 12 20709435483538610505955536475733610642854779291098142340232379358109357881364957693005765793122133427249106423237680404770407823953045108786088320937542303633953413680157826668716799461905549853960470173701983003745331303153662 1 2 [24, 23, 22, 21, 20, 19, 18, 17, 16, 15, 14, 13] (dd [1617, 0, 1]) [] [] = true := by decide +kernel

def C.sub_zx : Cert where
  S := ⟨[], [12, 12], [.arr 0, .arr 0, .arr 1], 0⟩
  anns := [a0, a0, a0, a0, a0, a0, a0, a0, a0, a0, a0, a0, a0, a0, a0, a0, a0, a0, a0, a0, a0, a0, a0, a0, a0, a0, a0, a0, a0, a0, a0, a0, a0, a0, a0, a0, a0, a0, a0, a0, a1, a0, a0, a0, a0, a0, a0, a0, a0, a0, a0, a0, a0, a0, a0, a0, a0, a0, a0, a0, a0, a0, a0, a0, a0, a0, a0, a0, a0, a0, a0, a0, a0, a0, a0, a0, a0, a0, a0, a0, a0, a0, a0, a0, a0, a0, a0, a0, a0, a0, a0, a0, a0, a0, a0]
  hints := []
  zb := 0
  scratch := []
  keepBP := true

theorem sub_zx_ok : subChk Model.Asm751.sub C.sub_zx 12 20709435483538610505955536475733610642854779291098142340232379358109357881364957693005765793122133427249106423237680404770407823953045108786088320937542303633953413680157826668716799461905549853960470173701983003745331303153662 0 1 [24, 23, 22, 21, 20, 19, 18, 17, 16, 15, 14, 13] (dd [1617, 0, 1]) [] [] = true := by decide +kernel

def C.sub_zy : Cert where
  S := ⟨[], [12, 12], [.arr 0, .arr 1, .arr 0], 0⟩
  anns := [a0, a0, a0, a0, a0, a0, a0, a0, a0, a0, a0, a0, a0, a0, a0, a0, a0, a0, a0, a0, a0, a0, a0, a0, a0, a0, a0, a0, a0, a0, a0, a0, a0, a0, a0, a0, a0, a0, a0, a0, a1, a0, a0, a0, a0, a0, a0, a0, a0, a0, a0, a0, a0, a0, a0, a0, a0, a0, a0, a0, a0, a0, a0, a0, a0, a0, a0, a0, a0, a0, a0, a0, a0, a0, a0, a0, a0, a0, a0, a0, a0, a0, a0, a0, a0, a0, a0, a0, a0, a0, a0, a0, a0, a0, a0]
  hints := []
  zb := 0
  scratch := []
  keepBP := true

theorem sub_zy_ok : subChk Model.Asm751.sub C.sub_zy 12 20709435483538610505955536475733610642854779291098142340232379358109357881364957693005765793122133427249106423237680404770407823953045108786088320937542303633953413680157826668716799461905549853960470173701983003745331303153662 1 0 [24, 23, 22, 21, 20, 19, 18, 17, 16, 15, 14, 13] (dd [1617, 0, 1]) [] [] = true := by decide +kernel

def C.sub_xy : Cert where
  S := ⟨[], [12, 12], [.arr 0, .arr 1, .arr 1], 0⟩
  anns := [a0, a0, a0, a0, a0, a0, a0, a0, a0, a0, a0, a0, a0, a0, a0, a0, a0, a0, a0, a0, a0, a0, a0, a0, a0, a0, a0, a0, a0, a0, a0, a0, a0, a0, a0, a0, a0, a0, a0, a0, a1, a0, a0, a0, a0, a0, a0, a0, a0, a0, a0, a0, a0, a0, a0, a0, a0, a0, a0, a0, a0, a0, a0, a0, a0, a0, a0, a0, a0, a0, a0, a0, a0, a0, a0, a0, a0, a0, a0, a0, a0, a0, a0, a0, a0, a0, a0, a0, a0, a0, a0, a0, a0, a0, a0]
  hints := []
  zb := 0
  scratch := []
  keepBP := true

theorem sub_xy_ok : subChk Model.Asm751.sub C.sub_xy 12 20709435483538610505955536475733610642854779291098142340232379358109357881364957693005765793122133427249106423237680404770407823953045108786088320937542303633953413680157826668716799461905549853960470173701983003745331303153662 1 1 [24, 23, 22, 21, 20, 19, 18, 17, 16, 15, 14, 13] (dd [1617, 0, 1]) [] [] = true := by decide +kernel

def C.sub_zxy : Cert where
  S := ⟨[], [12], [.arr 0, .arr 0, .arr 0], 0⟩
  anns := [a0, a0, a0, a0, a0, a0, a0, a0, a0, a0, a0, a0, a0, a0, a0, a0, a0, a0, a0, a0, a0, a0, a0, a0, a0, a0, a0, a0, a0, a0, a0, a0, a0, a0, a0, a0, a0, a0, a0, a0, a1, a0, a0, a0, a0, a0, a0, a0, a0, a0, a0, a0, a0, a0, a0, a0, a0, a0, a0, a0, a0, a0, a0, a0, a0, a0, a0, a0, a0, a0, a0, a0, a0, a0, a0, a0, a0, a0, a0, a0, a0, a0, a0, a0, a0, a0, a0, a0, a0, a0, a0, a0, a0, a0, a0]
  hints := []
  zb := 0
  scratch := []
  keepBP := true

theorem sub_zxy_ok : subChk Model.Asm751.sub C.sub_zxy 12 20709435483538610505955536475733610642854779291098142340232379358109357881364957693005765793122133427249106423237680404770407823953045108786088320937542303633953413680157826668716799461905549853960470173701983003745331303153662 0 0 [24, 23, 22, 21, 20, 19, 18, 17, 16, 15, 14, 13] (dd [1617, 0, 1]) [] [] = true := by decide +kernel

def C.adl : Cert where
  S := ⟨[], [24, 24, 24], [.arr 0, .arr 1, .arr 2], 0⟩
  anns := [a0, a0, a0, a0, a0, a0, a0, a0, a0, a0, a0, a0, a0, a0, a0, a0, a0, a0, a0, a0, a0, a0, a0, a0, a0, a0, a0, a0, a0, a0, a0, a0, a0, a0, a0, a0, a0, a0, a0, a0, a0, a0, a0, a0, a0, a0, a0, a0, a0, a0, a0, a0, a0, a0, a0, a0, a0, a0, a0, a0, a0, a0, a0, a0, a0, a0, a0, a0, a0, a0, a0, a0, a0, a0, a0]
  hints := []
  zb := 0
  scratch := []
  keepBP := true

theorem adl_ok : adlChk Model.Asm751.adl C.adl 24 1 2 [] = true := by decide +kernel

def C.adl_zx : Cert where
  S := ⟨[], [24, 24], [.arr 0, .arr 0, .arr 1], 0⟩
  anns := [a0, a0, a0, a0, a0, a0, a0, a0, a0, a0, a0, a0, a0, a0, a0, a0, a0, a0, a0, a0, a0, a0, a0, a0, a0, a0, a0, a0, a0, a0, a0, a0, a0, a0, a0, a0, a0, a0, a0, a0, a0, a0, a0, a0, a0, a0, a0, a0, a0, a0, a0, a0, a0, a0, a0, a0, a0, a0, a0, a0, a0, a0, a0, a0, a0, a0, a0, a0, a0, a0, a0, a0, a0, a0, a0]
  hints := []
  zb := 0
  scratch := []
  keepBP := true

theorem adl_zx_ok : adlChk Model.Asm751.adl C.adl_zx 24 0 1 [] = true := by decide +kernel

def C.adl_zy : Cert where
  S := ⟨[], [24, 24], [.arr 0, .arr 1, .arr 0], 0⟩
  anns := [a0, a0, a0, a0, a0, a0, a0, a0, a0, a0, a0, a0, a0, a0, a0, a0, a0, a0, a0, a0, a0, a0, a0, a0, a0, a0, a0, a0, a0, a0, a0, a0, a0, a0, a0, a0, a0, a0, a0, a0, a0, a0, a0, a0, a0, a0, a0, a0, a0, a0, a0, a0, a0, a0, a0, a0, a0, a0, a0, a0, a0, a0, a0, a0, a0, a0, a0, a0, a0, a0, a0, a0, a0, a0, a0]
  hints := []
  zb := 0
  scratch := []
  keepBP := true

theorem adl_zy_ok : adlChk Model.Asm751.adl C.adl_zy 24 1 0 [] = true := by decide +kernel

def C.adl_xy : Cert where
  S := ⟨[], [24, 24], [.arr 0, .arr 1, .arr 1], 0⟩
  anns := [a0, a0, a0, a0, a0, a0, a0, a0, a0, a0, a0, a0, a0, a0, a0, a0, a0, a0, a0, a0, a0, a0, a0, a0, a0, a0, a0, a0, a0, a0, a0, a0, a0, a0, a0, a0, a0, a0, a0, a0, a0, a0, a0, a0, a0, a0, a0, a0, a0, a0, a0, a0, a0, a0, a0, a0, a0, a0, a0, a0, a0, a0, a0, a0, a0, a0, a0, a0, a0, a0, a0, a0, a0, a0, a0]
  hints := []
  zb := 0
  scratch := []
  keepBP := true

theorem adl_xy_ok : adlChk Model.Asm751.adl C.adl_xy 24 1 1 [] = true := by decide +kernel

def C.adl_zxy : Cert where
  S := ⟨[], [24], [.arr 0, .arr 0, .arr 0], 0⟩
  anns := [a0, a0, a0, a0, a0, a0, a0, a0, a0, a0, a0, a0, a0, a0, a0, a0, a0, a0, a0, a0, a0, a0, a0, a0, a0, a0, a0, a0, a0, a0, a0, a0, a0, a0, a0, a0, a0, a0, a0, a0, a0, a0, a0, a0, a0, a0, a0, a0, a0, a0, a0, a0, a0, a0, a0, a0, a0, a0, a0, a0, a0, a0, a0, a0, a0, a0, a0, a0, a0, a0, a0, a0, a0, a0, a0]
  hints := []
  zb := 0
  scratch := []
  keepBP := true

theorem adl_zxy_ok : adlChk Model.Asm751.adl C.adl_zxy 24 0 0 [] = true := by decide +kernel

def C.sul : Cert where
  S := ⟨[], [24, 24, 24], [.arr 0, .arr 1, .arr 2], 0⟩
  anns := [a0, a0, a0, a0, a0, a0, a0, a0, a0, a0, a0, a0, a0, a0, a0, a0, a0, a0, a0, a0, a0, a0, a0, a0, a0, a0, a0, a0, a0, a0, a0, a0, a0, a0, a0, a0, a0, a0, a0, a0, a0, a0, a0, a0, a0, a0, a0, a0, a0, a0, a0, a0, a0, a0, a0, a0, a0, a0, a0, a0, a0, a0, a0, a0, a0, a0, a0, a0, a0, a0, a0, a0, a0, a0, a0, a0, a1, a0, a0, a0, a0, a0, a0, a0, a0, a0, a0, a0, a0, a0, a0, a0, a0, a0, a0, a0, a0, a0, a0, a0, a0, a0, a0, a0, a0]
  hints := []
  zb := 0
  scratch := []
  keepBP := true

theorem sul_ok : subChk Model.Asm751.sul C.sul 24 16075886634763986641414315413726415738480105875695073151797787994258317087634596842550525655441975673140248415714505625729419614968105696451626525633699050563034305507723453810386143781206893470393967401202720109848514467585011656268339277745319649019020456679570078313339413528716493649630560930732971954592577848446598783398085306185405215023755158587900970465605640909349301264475390333960937693857834913785315009237568790778917685755245562693474725134336 1 2 [36, 35, 34, 33, 32, 31, 30, 29, 28, 27, 26, 25, 24, 23, 22, 21, 20, 19, 18, 17, 16, 15, 14, 13] (dd [2017, 0, 1]) [] [] = true := by decide +kernel

def C.sul_zx : Cert where
  S := ⟨[], [24, 24], [.arr 0, .arr 0, .arr 1], 0⟩
  anns := [a0, a0, a0, a0, a0, a0, a0, a0, a0, a0, a0, a0, a0, a0, a0, a0, a0, a0, a0, a0, a0, a0, a0, a0, a0, a0, a0, a0, a0, a0, a0, a0, a0, a0, a0, a0, a0, a0, a0, a0, a0, a0, a0, a0, a0, a0, a0, a0, a0, a0, a0, a0, a0, a0, a0, a0, a0, a0, a0, a0, a0, a0, a0, a0, a0, a0, a0, a0, a0, a0, a0, a0, a0, a0, a0, a0, a1, a0, a0, a0, a0, a0, a0, a0, a0, a0, a0, a0, a0, a0, a0, a0, a0, a0, a0, a0, a0, a0, a0, a0, a0, a0, a0, a0, a0]
  hints := []
  zb := 0
  scratch := []
  keepBP := true

theorem sul_zx_ok : subChk Model.Asm751.sul C.sul_zx 24 16075886634763986641414315413726415738480105875695073151797787994258317087634596842550525655441975673140248415714505625729419614968105696451626525633699050563034305507723453810386143781206893470393967401202720109848514467585011656268339277745319649019020456679570078313339413528716493649630560930732971954592577848446598783398085306185405215023755158587900970465605640909349301264475390333960937693857834913785315009237568790778917685755245562693474725134336 0 1 [36, 35, 34, 33, 32, 31, 30, 29, 28, 27, 26, 25, 24, 23, 22, 21, 20, 19, 18, 17, 16, 15, 14, 13] (dd [2017, 0, 1]) [] [] = true := by decide +kernel

def C.sul_zy : Cert where
  S := ⟨[], [24, 24], [.arr 0, .arr 1, .arr 0], 0⟩
  anns := [a0, a0, a0, a0, a0, a0, a0, a0, a0, a0, a0, a0, a0, a0, a0, a0, a0, a0, a0, a0, a0, a0, a0, a0, a0, a0, a0, a0, a0, a0, a0, a0, a0, a0, a0, a0, a0, a0, a0, a0, a0, a0, a0, a0, a0, a0, a0, a0, a0, a0, a0, a0, a0, a0, a0, a0, a0, a0, a0, a0, a0, a0, a0, a0, a0, a0, a0, a0, a0, a0, a0, a0, a0, a0, a0, a0, a1, a0, a0, a0, a0, a0, a0, a0, a0, a0, a0, a0, a0, a0, a0, a0, a0, a0, a0, a0, a0, a0, a0, a0, a0, a0, a0, a0, a0]
  hints := []
  zb := 0
  scratch := []
  keepBP := true

theorem sul_zy_ok : subChk Model.Asm751.sul C.sul_zy 24 16075886634763986641414315413726415738480105875695073151797787994258317087634596842550525655441975673140248415714505625729419614968105696451626525633699050563034305507723453810386143781206893470393967401202720109848514467585011656268339277745319649019020456679570078313339413528716493649630560930732971954592577848446598783398085306185405215023755158587900970465605640909349301264475390333960937693857834913785315009237568790778917685755245562693474725134336 1 0 [36, 35, 34, 33, 32, 31, 30, 29, 28, 27, 26, 25, 24, 23, 22, 21, 20, 19, 18, 17, 16, 15, 14, 13] (dd [2017, 0, 1]) [] [] = true := by decide +kernel

def C.sul_xy : Cert where
  S := ⟨[], [24, 24], [.arr 0, .arr 1, .arr 1], 0⟩
  anns := [a0, a0, a0, a0, a0, a0, a0, a0, a0, a0, a0, a0, a0, a0, a0, a0, a0, a0, a0, a0, a0, a0, a0, a0, a0, a0, a0, a0, a0, a0, a0, a0, a0, a0, a0, a0, a0, a0, a0, a0, a0, a0, a0, a0, a0, a0, a0, a0, a0, a0, a0, a0, a0, a0, a0, a0, a0, a0, a0, a0, a0, a0, a0, a0, a0, a0, a0, a0, a0, a0, a0, a0, a0, a0, a0, a0, a1, a0, a0, a0, a0, a0, a0, a0, a0, a0, a0, a0, a0, a0, a0, a0, a0, a0, a0, a0, a0, a0, a0, a0, a0, a0, a0, a0, a0]
  hints := []
  zb := 0
  scratch := []
  keepBP := true

theorem sul_xy_ok : subChk Model.Asm751.sul C.sul_xy 24 16075886634763986641414315413726415738480105875695073151797787994258317087634596842550525655441975673140248415714505625729419614968105696451626525633699050563034305507723453810386143781206893470393967401202720109848514467585011656268339277745319649019020456679570078313339413528716493649630560930732971954592577848446598783398085306185405215023755158587900970465605640909349301264475390333960937693857834913785315009237568790778917685755245562693474725134336 1 1 [36, 35, 34, 33, 32, 31, 30, 29, 28, 27, 26, 25, 24, 23, 22, 21, 20, 19, 18, 17, 16, 15, 14, 13] (dd [2017, 0, 1]) [] [] = true := by decide +kernel

def C.sul_zxy : Cert where
  S := ⟨[], [24], [.arr 0, .arr 0, .arr 0], 0⟩
  anns := [a0, a0, a0, a0, a0, a0, a0, a0, a0, a0, a0, a0, a0, a0, a0, a0, a0, a0, a0, a0, a0, a0, a0, a0, a0, a0, a0, a0, a0, a0, a0, a0, a0, a0, a0, a0, a0, a0, a0, a0, a0, a0, a0, a0, a0, a0, a0, a0, a0, a0, a0, a0, a0, a0, a0, a0, a0, a0, a0, a0, a0, a0, a0, a0, a0, a0, a0, a0, a0, a0, a0, a0, a0, a0, a0, a0, a1, a0, a0, a0, a0, a0, a0, a0, a0, a0, a0, a0, a0, a0, a0, a0, a0, a0, a0, a0, a0, a0, a0, a0, a0, a0, a0, a0, a0]
  hints := []
  zb := 0
  scratch := []
  keepBP := true

theorem sul_zxy_ok : subChk Model.Asm751.sul C.sul_zxy 24 16075886634763986641414315413726415738480105875695073151797787994258317087634596842550525655441975673140248415714505625729419614968105696451626525633699050563034305507723453810386143781206893470393967401202720109848514467585011656268339277745319649019020456679570078313339413528716493649630560930732971954592577848446598783398085306185405215023755158587900970465605640909349301264475390333960937693857834913785315009237568790778917685755245562693474725134336 0 0 [36, 35, 34, 33, 32, 31, 30, 29, 28, 27, 26, 25, 24, 23, 22, 21, 20, 19, 18, 17, 16, 15, 14, 13] (dd [2017, 0, 1]) [] [] = true := by decide +kernel

def C.mod : Cert where
  S := ⟨[], [12], [.arr 0], 0⟩
  anns := [a0, a0, a0, a0, a0, a0, a0, a0, a0, a0, a0, a0, a0, a0, a0, a0, a0, a0, a0, a0, a0, a0, a1, a0, a0, a0, a0, a0, a0, a0, a0, a0, a0, a0, a0, a0, a0, a0, a0, a0, a0, a0, a0]
  hints := []
  zb := 0
  scratch := []
  keepBP := true

theorem mod_ok : modChk Model.Asm751.mod C.mod 12 10354717741769305252977768237866805321427389645549071170116189679054678940682478846502882896561066713624553211618840202385203911976522554393044160468771151816976706840078913334358399730952774926980235086850991501872665651576831 0 [24, 23, 22, 21, 20, 19, 18, 17, 16, 15, 14, 13] (dd [1361, 0, 1]) [] [] = true := by decide +kernel

end Lemmas.AsmCert751
