import Verif.Model.AsmP434
import Verif.Model.AsmP503
import Verif.Model.AsmP751
import Verif.Spec.SidhField
/-
The routines of arith_amd64.s by field and CPU.  The Go declarations are in arith_decl.go of each package; the routine that
arith_decl.go calls fooP434 is here `foo .p434`.
-/
namespace Model.Amd64
open Model Model.Asm Spec.Sidh

/-- arith_amd64.s `addP434`, `addP503`, `addP751` -/
def add : Fld → Cpu → Routine
  | .p434 => Asm434.addOn
  | .p503 => Asm503.addOn
  | .p751 => Asm751.addOn

/-- arith_amd64.s `subP434`, `subP503`, `subP751` -/
def sub : Fld → Cpu → Routine
  | .p434 => Asm434.subOn
  | .p503 => Asm503.subOn
  | .p751 => Asm751.subOn

/-- arith_amd64.s `adlP434`, `adlP503`, `adlP751` -/
def adl : Fld → Cpu → Routine
  | .p434 => Asm434.adlOn
  | .p503 => Asm503.adlOn
  | .p751 => Asm751.adlOn

/-- arith_amd64.s `sulP434`, `sulP503`, `sulP751` -/
def sul : Fld → Cpu → Routine
  | .p434 => Asm434.sulOn
  | .p503 => Asm503.sulOn
  | .p751 => Asm751.sulOn

/-- arith_amd64.s `modP434`, `modP503`, `modP751` -/
def mod : Fld → Cpu → Routine
  | .p434 => Asm434.modOn
  | .p503 => Asm503.modOn
  | .p751 => Asm751.modOn

/-- arith_amd64.s `mulP434`, `mulP503`, `mulP751` -/
def mul : Fld → Cpu → Routine
  | .p434 => Asm434.mulOn
  | .p503 => Asm503.mulOn
  | .p751 => Asm751.mulOn

/-- arith_amd64.s `rdcP434`, `rdcP503`, `rdcP751` -/
def rdc : Fld → Cpu → Routine
  | .p434 => Asm434.rdcOn
  | .p503 => Asm503.rdcOn
  | .p751 => Asm751.rdcOn

end Model.Amd64
