import Verif.Model.Bytes
/-
Model of utils (cpuid_amd64.go, cpuid_amd64.s, cpu.go).
-/
namespace Model.Utils
open Model

/-- The four registers after the CPUID instruction. -/
structure Regs where
  eax : W32
  ebx : W32
  ecx : W32
  edx : W32

/-- A processor: the registers CPUID leaves for (EAX, ECX). -/
abbrev Cpu := W32 → W32 → Regs

/-- utils/cpu.go: `X86` -/
structure X86 where
  hasAES : Bool
  hasBMI2 : Bool
  hasADX : Bool
  hasRDSEED : Bool
  deriving DecidableEq, Repr

/-- cpuid_amd64.s:5-13 `cpuid`: the results in the order eax, ebx, ecx, edx. -/
def cpuid (cpu : Cpu) (eaxArg ecxArg : W32) : W32 × W32 × W32 × W32 :=
  let r := cpu eaxArg ecxArg
  (r.eax, r.ebx, r.ecx, r.edx)

/-- cpuid_amd64.go:15-17 `bitn` -/
def bitn (bits : W32) (n : Byte) : Bool := (bits >>> n.toNat) &&& 1 == 1

/-- cpuid_amd64.go:19-34 `init`; the variable starts zeroed.  The names are those of the code: `ecx` is
bound to the second result. -/
def init (cpu : Cpu) : X86 :=
  let (max, _, _, _) := cpuid cpu 0 0
  if max < 7 then ⟨false, false, false, false⟩
  else
    let (_, ecx, _, _) := cpuid cpu 1 0
    let hasAES := bitn ecx 25
    let (_, ecx, _, _) := cpuid cpu 7 0
    ⟨hasAES, bitn ecx 8, bitn ecx 19, bitn ecx 18⟩

end Model.Utils
