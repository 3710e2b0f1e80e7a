import Verif.Model.Utils
/-! Properties of utils (C31).  The meaning of the CPUID bits is that of the Intel manual: leaf 7 EBX bit 8 BMI2, 18 RDSEED,
19 ADX; leaf 1 ECX bit 25 AES-NI. -/
namespace Props.Utils
open Model Model.Utils

theorem bitn_eq (x : W32) (n : Byte) : bitn x n = x.getLsbD n.toNat := by
  rw [bitn, Bool.eq_iff_iff, beq_iff_eq]
  constructor
  · intro h
    have := congrArg (fun y : W32 => y.getLsbD 0) h
    simpa using this
  · intro h
    apply BitVec.eq_of_getLsbD_eq
    intro i hi
    by_cases h0 : i = 0
    · subst h0; simpa using h
    · simp [h0, BitVec.getLsbD_one]

/-- What the flags should be for a processor. -/
def architected (cpu : Cpu) : X86 :=
  if (cpu 0 0).eax < 7 then ⟨false, false, false, false⟩
  else ⟨(cpu 1 0).ecx.getLsbD 25, (cpu 7 0).ebx.getLsbD 8, (cpu 7 0).ebx.getLsbD 19, (cpu 7 0).ebx.getLsbD 18⟩

/-- Without leaf 7 no flag is set; otherwise BMI2, ADX and RDSEED are the architected bits.  Missing: the AES
flag, which is bit 25 of leaf 1 EBX. -/
theorem c31_flags_partial (cpu : Cpu) :
    (init cpu).hasBMI2 = (architected cpu).hasBMI2 ∧ (init cpu).hasADX = (architected cpu).hasADX ∧
    (init cpu).hasRDSEED = (architected cpu).hasRDSEED ∧
    (init cpu).hasAES = (if (cpu 0 0).eax < 7 then false else (cpu 1 0).ebx.getLsbD 25) := by
  have h : init cpu = if (cpu 0 0).eax < 7 then ⟨false, false, false, false⟩
      else ⟨(cpu 1 0).ebx.getLsbD 25, (cpu 7 0).ebx.getLsbD 8, (cpu 7 0).ebx.getLsbD 19, (cpu 7 0).ebx.getLsbD 18⟩ := by
    have e (x : W32) : bitn x 25 = x.getLsbD 25 ∧ bitn x 8 = x.getLsbD 8 ∧ bitn x 19 = x.getLsbD 19 ∧ bitn x 18 = x.getLsbD 18 :=
      ⟨bitn_eq x 25, bitn_eq x 8, bitn_eq x 19, bitn_eq x 18⟩
    rw [← (e _).1, ← (e _).2.1, ← (e _).2.2.1, ← (e _).2.2.2]; rfl
  rw [h, architected]
  split <;> simp

/-- The AES flag is wrong in both directions: some processor with AES-NI gets `false` and some processor
without it gets `true` (EBX of leaf 1 holds the brand index, CLFLUSH size, logical processor count and APIC id,
bit 25 is bit 1 of the APIC id). -/
theorem c31_full_false :
    (∃ cpu, (architected cpu).hasAES = true ∧ (init cpu).hasAES = false) ∧
    (∃ cpu, (architected cpu).hasAES = false ∧ (init cpu).hasAES = true) :=
  ⟨⟨fun _ _ => ⟨7, 0, 0x2000000, 0⟩, by decide, by decide⟩, ⟨fun _ _ => ⟨7, 0x2000000, 0, 0⟩, by decide, by decide⟩⟩

/-- A processor reporting only leaf 6 sets nothing. -/
theorem c31_old (cpu : Cpu) (h : (cpu 0 0).eax < 7) : init cpu = ⟨false, false, false, false⟩ := by
  exact if_pos h

example : init (fun l _ => if l = 0 then ⟨22, 0, 0, 0⟩ else ⟨0, 0x80100, 0, 0⟩) = ⟨false, true, true, false⟩ := by decide

end Props.Utils
