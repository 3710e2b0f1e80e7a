import Verif.Lemmas.AsmFam
import Verif.Model.AsmP503
/- Certificates for additions and subtractions of p503/arith_amd64.s, printed by gen/asmgen.py. -/
set_option maxRecDepth 100000
namespace Lemmas.AsmCert503
open Model.Asm Lemmas.AsmSym Lemmas.AsmPoly Lemmas.AsmSound Lemmas.AsmCall Lemmas.AsmFam

def C.add : Cert where
  S := ⟨[], [12, 12, 12], [.arr 0, .arr 1, .arr 2], 0⟩
  anns := [a0, a0, a0, a0, a0, a0, a0, a0, a0, a0, a0, a0, a0, a0, a0, a0, a0, a0, a0, a0, a0, a0, a0, a0, a0, a0, a0, a0, a0, a0, a0, a0, a0, a0, a0, a1, a0, a0, a0, a0, a0, a0, a0, a0, a0, a0, a0, a0, a0, a0, a0, a0, a0, a0, a0, a0, a0, a0, a0, a0, a0, a0, a0, a0, a0, a0, a0, a0, a0, a0, a0, a0, a0, a0, a0, a0, a0, a0, a0, a0, a0, a0]
  hints := []
  zb := 0
  scratch := []
  keepBP := true

theorem add_ok : addChk Model.Asm503.add C.add 8 13175843156907117380839252916199345042492186767578363998445663477035843932020761233518914911546024351608607150390087656982982306331019593961154237431807 1 2 [24, 23, 22, 21, 20, 19, 18, 17] [16, 15, 14, 13, 12, 11, 10, 9] (dd [1569, 0, 1]) [] [] [] = true := by decide +kernel

def C.add_zx : Cert where
  S := ⟨[], [12, 12], [.arr 0, .arr 0, .arr 1], 0⟩
  anns := [a0, a0, a0, a0, a0, a0, a0, a0, a0, a0, a0, a0, a0, a0, a0, a0, a0, a0, a0, a0, a0, a0, a0, a0, a0, a0, a0, a0, a0, a0, a0, a0, a0, a0, a0, a1, a0, a0, a0, a0, a0, a0, a0, a0, a0, a0, a0, a0, a0, a0, a0, a0, a0, a0, a0, a0, a0, a0, a0, a0, a0, a0, a0, a0, a0, a0, a0, a0, a0, a0, a0, a0, a0, a0, a0, a0, a0, a0, a0, a0, a0, a0]
  hints := []
  zb := 0
  scratch := []
  keepBP := true

theorem add_zx_ok : addChk Model.Asm503.add C.add_zx 8 13175843156907117380839252916199345042492186767578363998445663477035843932020761233518914911546024351608607150390087656982982306331019593961154237431807 0 1 [24, 23, 22, 21, 20, 19, 18, 17] [16, 15, 14, 13, 12, 11, 10, 9] (dd [1569, 0, 1]) [] [] [] = true := by decide +kernel

def C.add_zy : Cert where
  S := ⟨[], [12, 12], [.arr 0, .arr 1, .arr 0], 0⟩
  anns := [a0, a0, a0, a0, a0, a0, a0, a0, a0, a0, a0, a0, a0, a0, a0, a0, a0, a0, a0, a0, a0, a0, a0, a0, a0, a0, a0, a0, a0, a0, a0, a0, a0, a0, a0, a1, a0, a0, a0, a0, a0, a0, a0, a0, a0, a0, a0, a0, a0, a0, a0, a0, a0, a0, a0, a0, a0, a0, a0, a0, a0, a0, a0, a0, a0, a0, a0, a0, a0, a0, a0, a0, a0, a0, a0, a0, a0, a0, a0, a0, a0, a0]
  hints := []
  zb := 0
  scratch := []
  keepBP := true

theorem add_zy_ok : addChk Model.Asm503.add C.add_zy 8 13175843156907117380839252916199345042492186767578363998445663477035843932020761233518914911546024351608607150390087656982982306331019593961154237431807 1 0 [24, 23, 22, 21, 20, 19, 18, 17] [16, 15, 14, 13, 12, 11, 10, 9] (dd [1569, 0, 1]) [] [] [] = true := by decide +kernel

def C.add_xy : Cert where
  S := ⟨[], [12, 12], [.arr 0, .arr 1, .arr 1], 0⟩
  anns := [a0, a0, a0, a0, a0, a0, a0, a0, a0, a0, a0, a0, a0, a0, a0, a0, a0, a0, a0, a0, a0, a0, a0, a0, a0, a0, a0, a0, a0, a0, a0, a0, a0, a0, a0, a1, a0, a0, a0, a0, a0, a0, a0, a0, a0, a0, a0, a0, a0, a0, a0, a0, a0, a0, a0, a0, a0, a0, a0, a0, a0, a0, a0, a0, a0, a0, a0, a0, a0, a0, a0, a0, a0, a0, a0, a0, a0, a0, a0, a0, a0, a0]
  hints := []
  zb := 0
  scratch := []
  keepBP := true

theorem add_xy_ok : addChk Model.Asm503.add C.add_xy 8 13175843156907117380839252916199345042492186767578363998445663477035843932020761233518914911546024351608607150390087656982982306331019593961154237431807 1 1 [24, 23, 22, 21, 20, 19, 18, 17] [16, 15, 14, 13, 12, 11, 10, 9] (dd [1569, 0, 1]) [] [] [] = true := by decide +kernel

def C.add_zxy : Cert where
  S := ⟨[], [12], [.arr 0, .arr 0, .arr 0], 0⟩
  anns := [a0, a0, a0, a0, a0, a0, a0, a0, a0, a0, a0, a0, a0, a0, a0, a0, a0, a0, a0, a0, a0, a0, a0, a0, a0, a0, a0, a0, a0, a0, a0, a0, a0, a0, a0, a1, a0, a0, a0, a0, a0, a0, a0, a0, a0, a0, a0, a0, a0, a0, a0, a0, a0, a0, a0, a0, a0, a0, a0, a0, a0, a0, a0, a0, a0, a0, a0, a0, a0, a0, a0, a0, a0, a0, a0, a0, a0, a0, a0, a0, a0, a0]
  hints := []
  zb := 0
  scratch := []
  keepBP := true

theorem add_zxy_ok : addChk Model.Asm503.add C.add_zxy 8 13175843156907117380839252916199345042492186767578363998445663477035843932020761233518914911546024351608607150390087656982982306331019593961154237431807 0 0 [24, 23, 22, 21, 20, 19, 18, 17] [16, 15, 14, 13, 12, 11, 10, 9] (dd [1569, 0, 1]) [] [] [] = true := by decide +kernel

def C.sub : Cert where
  S := ⟨[], [12, 12, 12], [.arr 0, .arr 1, .arr 2], 0⟩
  anns := [a0, a0, a0, a0, a0, a0, a0, a0, a0, a0, a0, a0, a0, a0, a0, a0, a0, a0, a0, a0, a1, a0, a0, a0, a0, a0, a0, a0, a0, a0, a0, a0, a0, a0, a0, a0, a0, a0, a0, a0, a0, a0, a0, a0, a0, a0, a0, a0, a0, a0, a0, a0, a0, a0, a0, a0, a0, a0, a0, a0, a0, a0, a0, a0, a0, a0, a0]
  hints := []
  zb := 0
  scratch := []
  keepBP := true

theorem sub_ok : subChk Model.Asm503.sub C.sub 8 26351686313814234761678505832398690084984373535156727996891326954071687864041522467037829823092048703217214300780175313965964612662039187922308474863614 1 2 [16, 15, 14, 13, 12, 11, 10, 9] (dd [1329, 0, 1]) [] [] = true := by decide +kernel

def C.sub_zx : Cert where
  S := ⟨[], [12, 12], [.arr 0, .arr 0, .arr 1], 0⟩
  anns := [a0, a0, a0, a0, a0, a0, a0, a0, a0, a0, a0, a0, a0, a0, a0, a0, a0, a0, a0, a0, a1, a0, a0, a0, a0, a0, a0, a0, a0, a0, a0, a0, a0, a0, a0, a0, a0, a0, a0, a0, a0, a0, a0, a0, a0, a0, a0, a0, a0, a0, a0, a0, a0, a0, a0, a0, a0, a0, a0, a0, a0, a0, a0, a0, a0, a0, a0]
  hints := []
  zb := 0
  scratch := []
  keepBP := true

theorem sub_zx_ok : subChk Model.Asm503.sub C.sub_zx 8 26351686313814234761678505832398690084984373535156727996891326954071687864041522467037829823092048703217214300780175313965964612662039187922308474863614 0 1 [16, 15, 14, 13, 12, 11, 10, 9] (dd [1329, 0, 1]) [] [] = true := by decide +kernel

def C.sub_zy : Cert where
  S := ⟨[], [12, 12], [.arr 0, .arr 1, .arr 0], 0⟩
  anns := [a0, a0, a0, a0, a0, a0, a0, a0, a0, a0, a0, a0, a0, a0, a0, a0, a0, a0, a0, a0, a1, a0, a0, a0, a0, a0, a0, a0, a0, a0, a0, a0, a0, a0, a0, a0, a0, a0, a0, a0, a0, a0, a0, a0, a0, a0, a0, a0, a0, a0, a0, a0, a0, a0, a0, a0, a0, a0, a0, a0, a0, a0, a0, a0, a0, a0, a0]
  hints := []
  zb := 0
  scratch := []
  keepBP := true

theorem sub_zy_ok : subChk Model.Asm503.sub C.sub_zy 8 26351686313814234761678505832398690084984373535156727996891326954071687864041522467037829823092048703217214300780175313965964612662039187922308474863614 1 0 [16, 15, 14, 13, 12, 11, 10, 9] (dd [1329, 0, 1]) [] [] = true := by decide +kernel

def C.sub_xy : Cert where
  S := ⟨[], [12, 12], [.arr 0, .arr 1, .arr 1], 0⟩
  anns := [a0, a0, a0, a0, a0, a0, a0, a0, a0, a0, a0, a0, a0, a0, a0, a0, a0, a0, a0, a0, a1, a0, a0, a0, a0, a0, a0, a0, a0, a0, a0, a0, a0, a0, a0, a0, a0, a0, a0, a0, a0, a0, a0, a0, a0, a0, a0, a0, a0, a0, a0, a0, a0, a0, a0, a0, a0, a0, a0, a0, a0, a0, a0, a0, a0, a0, a0]
  hints := []
  zb := 0
  scratch := []
  keepBP := true

theorem sub_xy_ok : subChk Model.Asm503.sub C.sub_xy 8 26351686313814234761678505832398690084984373535156727996891326954071687864041522467037829823092048703217214300780175313965964612662039187922308474863614 1 1 [16, 15, 14, 13, 12, 11, 10, 9] (dd [1329, 0, 1]) [] [] = true := by decide +kernel

def C.sub_zxy : Cert where
  S := ⟨[], [12], [.arr 0, .arr 0, .arr 0], 0⟩
  anns := [a0, a0, a0, a0, a0, a0, a0, a0, a0, a0, a0, a0, a0, a0, a0, a0, a0, a0, a0, a0, a1, a0, a0, a0, a0, a0, a0, a0, a0, a0, a0, a0, a0, a0, a0, a0, a0, a0, a0, a0, a0, a0, a0, a0, a0, a0, a0, a0, a0, a0, a0, a0, a0, a0, a0, a0, a0, a0, a0, a0, a0, a0, a0, a0, a0, a0, a0]
  hints := []
  zb := 0
  scratch := []
  keepBP := true

theorem sub_zxy_ok : subChk Model.Asm503.sub C.sub_zxy 8 26351686313814234761678505832398690084984373535156727996891326954071687864041522467037829823092048703217214300780175313965964612662039187922308474863614 0 0 [16, 15, 14, 13, 12, 11, 10, 9] (dd [1329, 0, 1]) [] [] = true := by decide +kernel

def C.adl : Cert where
  S := ⟨[], [24, 24, 24], [.arr 0, .arr 1, .arr 2], 0⟩
  anns := [a0, a0, a0, a0, a0, a0, a0, a0, a0, a0, a0, a0, a0, a0, a0, a0, a0, a0, a0, a0, a0, a0, a0, a0, a0, a0, a0, a0, a0, a0, a0, a0, a0, a0, a0, a0, a0, a0, a0, a0, a0, a0, a0, a0, a0, a0, a0, a0, a0, a0, a0]
  hints := []
  zb := 0
  scratch := []
  keepBP := true

theorem adl_ok : adlChk Model.Asm503.adl C.adl 16 1 2 [] = true := by decide +kernel

def C.adl_zx : Cert where
  S := ⟨[], [24, 24], [.arr 0, .arr 0, .arr 1], 0⟩
  anns := [a0, a0, a0, a0, a0, a0, a0, a0, a0, a0, a0, a0, a0, a0, a0, a0, a0, a0, a0, a0, a0, a0, a0, a0, a0, a0, a0, a0, a0, a0, a0, a0, a0, a0, a0, a0, a0, a0, a0, a0, a0, a0, a0, a0, a0, a0, a0, a0, a0, a0, a0]
  hints := []
  zb := 0
  scratch := []
  keepBP := true

theorem adl_zx_ok : adlChk Model.Asm503.adl C.adl_zx 16 0 1 [] = true := by decide +kernel

def C.adl_zy : Cert where
  S := ⟨[], [24, 24], [.arr 0, .arr 1, .arr 0], 0⟩
  anns := [a0, a0, a0, a0, a0, a0, a0, a0, a0, a0, a0, a0, a0, a0, a0, a0, a0, a0, a0, a0, a0, a0, a0, a0, a0, a0, a0, a0, a0, a0, a0, a0, a0, a0, a0, a0, a0, a0, a0, a0, a0, a0, a0, a0, a0, a0, a0, a0, a0, a0, a0]
  hints := []
  zb := 0
  scratch := []
  keepBP := true

theorem adl_zy_ok : adlChk Model.Asm503.adl C.adl_zy 16 1 0 [] = true := by decide +kernel

def C.adl_xy : Cert where
  S := ⟨[], [24, 24], [.arr 0, .arr 1, .arr 1], 0⟩
  anns := [a0, a0, a0, a0, a0, a0, a0, a0, a0, a0, a0, a0, a0, a0, a0, a0, a0, a0, a0, a0, a0, a0, a0, a0, a0, a0, a0, a0, a0, a0, a0, a0, a0, a0, a0, a0, a0, a0, a0, a0, a0, a0, a0, a0, a0, a0, a0, a0, a0, a0, a0]
  hints := []
  zb := 0
  scratch := []
  keepBP := true

theorem adl_xy_ok : adlChk Model.Asm503.adl C.adl_xy 16 1 1 [] = true := by decide +kernel

def C.adl_zxy : Cert where
  S := ⟨[], [24], [.arr 0, .arr 0, .arr 0], 0⟩
  anns := [a0, a0, a0, a0, a0, a0, a0, a0, a0, a0, a0, a0, a0, a0, a0, a0, a0, a0, a0, a0, a0, a0, a0, a0, a0, a0, a0, a0, a0, a0, a0, a0, a0, a0, a0, a0, a0, a0, a0, a0, a0, a0, a0, a0, a0, a0, a0, a0, a0, a0, a0]
  hints := []
  zb := 0
  scratch := []
  keepBP := true

theorem adl_zxy_ok : adlChk Model.Asm503.adl C.adl_zxy 16 0 0 [] = true := by decide +kernel

def C.sul : Cert where
  S := ⟨[], [24, 24, 24], [.arr 0, .arr 1, .arr 2], 0⟩
  anns := [a0, a0, a0, a0, a0, a0, a0, a0, a0, a0, a0, a0, a0, a0, a0, a0, a0, a0, a0, a0, a0, a0, a0, a0, a0, a0, a0, a0, a0, a0, a0, a0, a0, a0, a0, a0, a0, a0, a0, a0, a0, a0, a0, a0, a0, a0, a0, a0, a0, a0, a0, a0, a1, a0, a0, a0, a0, a0, a0, a0, a0, a0, a0, a0, a0, a0, a0, a0, a0, a0, a0, a0, a0, a0, a0, a0, a0, a0, a0, a0, a0, a0, a0, a0, a0, a0, a0, a0, a0]
  hints := []
  zb := 0
  scratch := []
  keepBP := true

theorem sul_ok : subChk Model.Asm503.sul C.sul 16 176659174362859151079493161924389627020317226077669654571662782764171573898994745614235126884448960498723931104601883819289335692198594683555131224691485116071678175096091204352537803801421769852438835577191276176867589288193125365859521853483784321360925019927362625839449808513965292121170325084907241472 1 2 [24, 23, 22, 21, 20, 19, 18, 17, 16, 15, 14, 13, 12, 11, 10, 9] (dd [1745, 0, 1]) [] [] = true := by decide +kernel

def C.sul_zx : Cert where
  S := ⟨[], [24, 24], [.arr 0, .arr 0, .arr 1], 0⟩
  anns := [a0, a0, a0, a0, a0, a0, a0, a0, a0, a0, a0, a0, a0, a0, a0, a0, a0, a0, a0, a0, a0, a0, a0, a0, a0, a0, a0, a0, a0, a0, a0, a0, a0, a0, a0, a0, a0, a0, a0, a0, a0, a0, a0, a0, a0, a0, a0, a0, a0, a0, a0, a0, a1, a0, a0, a0, a0, a0, a0, a0, a0, a0, a0, a0, a0, a0, a0, a0, a0, a0, a0, a0, a0, a0, a0, a0, a0, a0, a0, a0, a0, a0, a0, a0, a0, a0, a0, a0, a0]
  hints := []
  zb := 0
  scratch := []
  keepBP := true

theorem sul_zx_ok : subChk Model.Asm503.sul C.sul_zx 16 176659174362859151079493161924389627020317226077669654571662782764171573898994745614235126884448960498723931104601883819289335692198594683555131224691485116071678175096091204352537803801421769852438835577191276176867589288193125365859521853483784321360925019927362625839449808513965292121170325084907241472 0 1 [24, 23, 22, 21, 20, 19, 18, 17, 16, 15, 14, 13, 12, 11, 10, 9] (dd [1745, 0, 1]) [] [] = true := by decide +kernel

def C.sul_zy : Cert where
  S := ⟨[], [24, 24], [.arr 0, .arr 1, .arr 0], 0⟩
  anns := [a0, a0, a0, a0, a0, a0, a0, a0, a0, a0, a0, a0, a0, a0, a0, a0, a0, a0, a0, a0, a0, a0, a0, a0, a0, a0, a0, a0, a0, a0, a0, a0, a0, a0, a0, a0, a0, a0, a0, a0, a0, a0, a0, a0, a0, a0, a0, a0, a0, a0, a0, a0, a1, a0, a0, a0, a0, a0, a0, a0, a0, a0, a0, a0, a0, a0, a0, a0, a0, a0, a0, a0, a0, a0, a0, a0, a0, a0, a0, a0, a0, a0, a0, a0, a0, a0, a0, a0, a0]
  hints := []
  zb := 0
  scratch := []
  keepBP := true

theorem sul_zy_ok : subChk Model.Asm503.sul C.sul_zy 16 176659174362859151079493161924389627020317226077669654571662782764171573898994745614235126884448960498723931104601883819289335692198594683555131224691485116071678175096091204352537803801421769852438835577191276176867589288193125365859521853483784321360925019927362625839449808513965292121170325084907241472 1 0 [24, 23, 22, 21, 20, 19, 18, 17, 16, 15, 14, 13, 12, 11, 10, 9] (dd [1745, 0, 1]) [] [] = true := by decide +kernel

def C.sul_xy : Cert where
  S := ⟨[], [24, 24], [.arr 0, .arr 1, .arr 1], 0⟩
  anns := [a0, a0, a0, a0, a0, a0, a0, a0, a0, a0, a0, a0, a0, a0, a0, a0, a0, a0, a0, a0, a0, a0, a0, a0, a0, a0, a0, a0, a0, a0, a0, a0, a0, a0, a0, a0, a0, a0, a0, a0, a0, a0, a0, a0, a0, a0, a0, a0, a0, a0, a0, a0, a1, a0, a0, a0, a0, a0, a0, a0, a0, a0, a0, a0, a0, a0, a0, a0, a0, a0, a0, a0, a0, a0, a0, a0, a0, a0, a0, a0, a0, a0, a0, a0, a0, a0, a0, a0, a0]
  hints := []
  zb := 0
  scratch := []
  keepBP := true

theorem sul_xy_ok : subChk Model.Asm503.sul C.sul_xy 16 176659174362859151079493161924389627020317226077669654571662782764171573898994745614235126884448960498723931104601883819289335692198594683555131224691485116071678175096091204352537803801421769852438835577191276176867589288193125365859521853483784321360925019927362625839449808513965292121170325084907241472 1 1 [24, 23, 22, 21, 20, 19, 18, 17, 16, 15, 14, 13, 12, 11, 10, 9] (dd [1745, 0, 1]) [] [] = true := by decide +kernel

def C.sul_zxy : Cert where
  S := ⟨[], [24], [.arr 0, .arr 0, .arr 0], 0⟩
  anns := [a0, a0, a0, a0, a0, a0, a0, a0, a0, a0, a0, a0, a0, a0, a0, a0, a0, a0, a0, a0, a0, a0, a0, a0, a0, a0, a0, a0, a0, a0, a0, a0, a0, a0, a0, a0, a0, a0, a0, a0, a0, a0, a0, a0, a0, a0, a0, a0, a0, a0, a0, a0, a1, a0, a0, a0, a0, a0, a0, a0, a0, a0, a0, a0, a0, a0, a0, a0, a0, a0, a0, a0, a0, a0, a0, a0, a0, a0, a0, a0, a0, a0, a0, a0, a0, a0, a0, a0, a0]
  hints := []
  zb := 0
  scratch := []
  keepBP := true

theorem sul_zxy_ok : subChk Model.Asm503.sul C.sul_zxy 16 176659174362859151079493161924389627020317226077669654571662782764171573898994745614235126884448960498723931104601883819289335692198594683555131224691485116071678175096091204352537803801421769852438835577191276176867589288193125365859521853483784321360925019927362625839449808513965292121170325084907241472 0 0 [24, 23, 22, 21, 20, 19, 18, 17, 16, 15, 14, 13, 12, 11, 10, 9] (dd [1745, 0, 1]) [] [] = true := by decide +kernel

def C.mod : Cert where
  S := ⟨[], [12], [.arr 0], 0⟩
  anns := [a0, a0, a0, a0, a0, a0, a0, a0, a0, a0, a0, a0, a0, a0, a0, a0, a1, a0, a0, a0, a0, a0, a0, a0, a0, a0, a0, a0, a0, a0, a0]
  hints := []
  zb := 0
  scratch := []
  keepBP := true

theorem mod_ok : modChk Model.Asm503.mod C.mod 8 13175843156907117380839252916199345042492186767578363998445663477035843932020761233518914911546024351608607150390087656982982306331019593961154237431807 0 [16, 15, 14, 13, 12, 11, 10, 9] (dd [1265, 0, 1]) [] [] = true := by decide +kernel

end Lemmas.AsmCert503
