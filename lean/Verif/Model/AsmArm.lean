import Verif.Model.AsmArm503
import Verif.Model.AsmArm751
import Verif.Spec.SidhField
/-
The routines of arith_arm64.s by field: p503/arith_arm64.s and p751/arith_arm64.s.  There is no such file for p434; on arm64 that field
uses arith_generic.go (p434/arith_decl.go has the build tag amd64).
-/
namespace Model.Arm64
open Model Model.Asm Spec.Sidh

/-- The fields with arm64 assembly. -/
inductive Field where
  | p503 | p751

def Field.fld : Field → Fld
  | .p503 => .p503
  | .p751 => .p751

/-- arith_arm64.s `addP503`, `addP751` -/
def add : Field → Routine
  | .p503 => Arm503.add
  | .p751 => Arm751.add

/-- arith_arm64.s `subP503`, `subP751` -/
def sub : Field → Routine
  | .p503 => Arm503.sub
  | .p751 => Arm751.sub

/-- arith_arm64.s `adlP503`, `adlP751` -/
def adl : Field → Routine
  | .p503 => Arm503.adl
  | .p751 => Arm751.adl

/-- arith_arm64.s `sulP503`, `sulP751` -/
def sul : Field → Routine
  | .p503 => Arm503.sul
  | .p751 => Arm751.sul

/-- arith_arm64.s `modP503`, `modP751` -/
def mod : Field → Routine
  | .p503 => Arm503.mod
  | .p751 => Arm751.mod

/-- arith_arm64.s `mulP503`, `mulP751` -/
def mul : Field → Routine
  | .p503 => Arm503.mul
  | .p751 => Arm751.mul

/-- arith_arm64.s `rdcP503`, `rdcP751` -/
def rdc : Field → Routine
  | .p503 => Arm503.rdc
  | .p751 => Arm751.rdc

/-- arith_arm64.s `cswapP503`, `cswapP751` -/
def cswap : Field → Routine
  | .p503 => Arm503.cswap
  | .p751 => Arm751.cswap

end Model.Arm64
