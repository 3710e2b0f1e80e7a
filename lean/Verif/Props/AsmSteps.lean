import Verif.Lemmas.AsmStepsStart
import Verif.Model.AsmAmd64
import Verif.Model.AsmArm
import Verif.Model.AsmCsidh
import Verif.Model.AsmKeccak
/-!
C97: the assembly routines access the same memory for all data.
-/
namespace Props.AsmSteps
open Model Model.Asm Spec.Sidh Spec.AsmSteps Lemmas.AsmSteps

set_option maxRecDepth 20000

theorem a434_add : SameAccesses Asm434.add [.arr 12, .arr 12, .arr 12] := same_of (by decide +kernel)
theorem a434_sub : SameAccesses Asm434.sub [.arr 12, .arr 12, .arr 12] := same_of (by decide +kernel)
theorem a434_adl : SameAccesses Asm434.adl [.arr 24, .arr 24, .arr 24] := same_of (by decide +kernel)
theorem a434_sul : SameAccesses Asm434.sul [.arr 24, .arr 24, .arr 24] := same_of (by decide +kernel)
theorem a434_mod : SameAccesses Asm434.mod [.arr 12] := same_of (by decide +kernel)
theorem a434_mul : SameAccesses Asm434.mul [.arr 24, .arr 12, .arr 12] := same_of (by decide +kernel)
theorem a434_mul_adx : SameAccesses Asm434.mul_adx [.arr 24, .arr 12, .arr 12] := same_of (by decide +kernel)
theorem a434_rdc : SameAccesses Asm434.rdc [.arr 12, .arr 24] := same_of (by decide +kernel)
theorem a434_rdc_adx : SameAccesses Asm434.rdc_adx [.arr 12, .arr 24] := same_of (by decide +kernel)
theorem a503_add : SameAccesses Asm503.add [.arr 12, .arr 12, .arr 12] := same_of (by decide +kernel)
theorem a503_sub : SameAccesses Asm503.sub [.arr 12, .arr 12, .arr 12] := same_of (by decide +kernel)
theorem a503_adl : SameAccesses Asm503.adl [.arr 24, .arr 24, .arr 24] := same_of (by decide +kernel)
theorem a503_sul : SameAccesses Asm503.sul [.arr 24, .arr 24, .arr 24] := same_of (by decide +kernel)
theorem a503_mod : SameAccesses Asm503.mod [.arr 12] := same_of (by decide +kernel)
theorem a503_mul : SameAccesses Asm503.mul [.arr 24, .arr 12, .arr 12] := same_of (by decide +kernel)
theorem a503_mul_bmi2 : SameAccesses Asm503.mul_bmi2 [.arr 24, .arr 12, .arr 12] := same_of (by decide +kernel)
theorem a503_mul_adx : SameAccesses Asm503.mul_adx [.arr 24, .arr 12, .arr 12] := same_of (by decide +kernel)
theorem a503_rdc : SameAccesses Asm503.rdc [.arr 12, .arr 24] := same_of (by decide +kernel)
theorem a503_rdc_bmi2 : SameAccesses Asm503.rdc_bmi2 [.arr 12, .arr 24] := same_of (by decide +kernel)
theorem a503_rdc_adx : SameAccesses Asm503.rdc_adx [.arr 12, .arr 24] := same_of (by decide +kernel)
theorem a751_add : SameAccesses Asm751.add [.arr 12, .arr 12, .arr 12] := same_of (by decide +kernel)
theorem a751_sub : SameAccesses Asm751.sub [.arr 12, .arr 12, .arr 12] := same_of (by decide +kernel)
theorem a751_adl : SameAccesses Asm751.adl [.arr 24, .arr 24, .arr 24] := same_of (by decide +kernel)
theorem a751_sul : SameAccesses Asm751.sul [.arr 24, .arr 24, .arr 24] := same_of (by decide +kernel)
theorem a751_mod : SameAccesses Asm751.mod [.arr 12] := same_of (by decide +kernel)
theorem a751_mul : SameAccesses Asm751.mul [.arr 24, .arr 12, .arr 12] := same_of (by decide +kernel)
theorem a751_rdc : SameAccesses Asm751.rdc [.arr 12, .arr 24] := same_of (by decide +kernel)
theorem a751_rdc_bmi2 : SameAccesses Asm751.rdc_bmi2 [.arr 12, .arr 24] := same_of (by decide +kernel)
theorem a751_rdc_adx : SameAccesses Asm751.rdc_adx [.arr 12, .arr 24] := same_of (by decide +kernel)

/-- C97, amd64, the SIDH fields on each kind of CPU.  Field elements are arrays of 12 words, products of 24. -/
theorem c97_sidh_amd64 (f : Fld) (c : Cpu) :
    SameAccesses (Amd64.add f c) [.arr 12, .arr 12, .arr 12] ∧ SameAccesses (Amd64.sub f c) [.arr 12, .arr 12, .arr 12] ∧
    SameAccesses (Amd64.adl f c) [.arr 24, .arr 24, .arr 24] ∧ SameAccesses (Amd64.sul f c) [.arr 24, .arr 24, .arr 24] ∧
    SameAccesses (Amd64.mod f c) [.arr 12] ∧ SameAccesses (Amd64.mul f c) [.arr 24, .arr 12, .arr 12] ∧
    SameAccesses (Amd64.rdc f c) [.arr 12, .arr 24] := by
  match f, c with
  | .p434, .base => exact ⟨a434_add, a434_sub, a434_adl, a434_sul, a434_mod, a434_mul, a434_rdc⟩
  | .p434, .bmi2 => exact ⟨a434_add, a434_sub, a434_adl, a434_sul, a434_mod, a434_mul, a434_rdc⟩
  | .p434, .adx => exact ⟨a434_add, a434_sub, a434_adl, a434_sul, a434_mod, a434_mul_adx, a434_rdc_adx⟩
  | .p503, .base => exact ⟨a503_add, a503_sub, a503_adl, a503_sul, a503_mod, a503_mul, a503_rdc⟩
  | .p503, .bmi2 => exact ⟨a503_add, a503_sub, a503_adl, a503_sul, a503_mod, a503_mul_bmi2, a503_rdc_bmi2⟩
  | .p503, .adx => exact ⟨a503_add, a503_sub, a503_adl, a503_sul, a503_mod, a503_mul_adx, a503_rdc_adx⟩
  | .p751, .base => exact ⟨a751_add, a751_sub, a751_adl, a751_sul, a751_mod, a751_mul, a751_rdc⟩
  | .p751, .bmi2 => exact ⟨a751_add, a751_sub, a751_adl, a751_sul, a751_mod, a751_mul, a751_rdc_bmi2⟩
  | .p751, .adx => exact ⟨a751_add, a751_sub, a751_adl, a751_sul, a751_mod, a751_mul, a751_rdc_adx⟩

/-- C97, arm64. -/
theorem c97_sidh_arm64 (f : Arm64.Field) :
    SameAccesses (Arm64.add f) [.arr 12, .arr 12, .arr 12] ∧ SameAccesses (Arm64.sub f) [.arr 12, .arr 12, .arr 12] ∧
    SameAccesses (Arm64.adl f) [.arr 24, .arr 24, .arr 24] ∧ SameAccesses (Arm64.sul f) [.arr 24, .arr 24, .arr 24] ∧
    SameAccesses (Arm64.mod f) [.arr 12] ∧ SameAccesses (Arm64.mul f) [.arr 24, .arr 12, .arr 12] ∧
    SameAccesses (Arm64.rdc f) [.arr 12, .arr 24] ∧ SameAccesses (Arm64.cswap f) [.arr 12, .arr 12, .num] := by
  cases f <;> exact ⟨same_of (by decide +kernel), same_of (by decide +kernel), same_of (by decide +kernel), same_of (by decide +kernel),
    same_of (by decide +kernel), same_of (by decide +kernel), same_of (by decide +kernel), same_of (by decide +kernel)⟩

/-- C97, the conditional swaps of the amd64 build: also the condition does not show. -/
theorem c97_swaps :
    SameAccesses AsmCsidh.cswapP434 [.arr 12, .arr 12, .num] ∧ SameAccesses AsmCsidh.cswapP503 [.arr 12, .arr 12, .num] ∧
    SameAccesses AsmCsidh.cswapP751 [.arr 12, .arr 12, .num] ∧ SameAccesses AsmCsidh.cswap512 [.arr 8, .arr 8, .num] :=
  ⟨same_of (by decide +kernel), same_of (by decide +kernel), same_of (by decide +kernel), same_of (by decide +kernel)⟩

/-- C97, the products of CSIDH. -/
theorem c97_csidh (c : Cpu) :
    SameAccesses (AsmCsidh.mul512On c) [.arr 8, .arr 8, .num] ∧ SameAccesses AsmCsidh.mul576 [.arr 9, .arr 8, .num] ∧
    SameAccesses AsmCsidh.mulBmi [.arr 8, .arr 8, .arr 8] := by
  refine ⟨?_, same_of (by decide +kernel), same_of (by decide +kernel)⟩
  cases c <;> exact same_of (by decide +kernel)

/-- C97, Keccak. -/
theorem c97_keccak : SameAccesses AsmKeccak.keccakF1600 [.arr 25] := same_of (by decide +kernel)

/-- Calls as C97 speaks of: a product in which both factors are the same array. -/
example : List.Forall₂ (Passes [List.replicate 24 1, List.replicate 12 2]) [.arr 24, .arr 12, .arr 12] [.arr 0, .arr 1, .arr 1] :=
  .cons ⟨_, rfl, by simp⟩ (.cons ⟨_, rfl, by simp⟩ (.cons ⟨_, rfl, by simp⟩ .nil))

/-- The accesses are recorded: the first of `addP434` are the three arguments and the first words of x and y. -/
example : ((Amd64.add .p434 .base).trace (fun _ => .w 0) [] 0 0 [List.replicate 12 1, List.replicate 12 2, List.replicate 12 3]
    [.arr 0, .arr 1, .arr 2]).take 5 = [⟨0, 0, false⟩, ⟨0, 1, false⟩, ⟨0, 2, false⟩, ⟨3, 0, false⟩, ⟨4, 0, false⟩] := by
  decide +kernel

/-- A routine that takes a word from one of two arrays, depending on a number. -/
def choose : Routine where
  code := [MOVQ (.mem FP 0) (.reg DI), MOVQ (.mem FP 1) (.reg SI), MOVQ (.mem FP 2) (.reg AX), .bt0 (.reg AX), .csel (.mem DI 0) (.mem SI 0) (.reg BX)]
  frame := 0
  glob := []

/-- Its accesses are not the same for all data. -/
example : ¬ SameAccesses choose [.arr 1, .arr 1, .num] := by
  intro h
  have h := (h (fun _ => .w 0) (fun _ => .w 0) [] [] 0 0 0 0 [[1], [2]] [[1], [2]] [.arr 0, .arr 1, .num 0] [.arr 0, .arr 1, .num 1] rfl rfl
    (.cons ⟨_, rfl, by simp⟩ (.cons ⟨_, rfl, by simp⟩ (.cons trivial .nil)))
    (.cons ⟨_, rfl, by simp⟩ (.cons ⟨_, rfl, by simp⟩ (.cons trivial .nil)))
    (.cons rfl (.cons rfl (.cons trivial .nil)))).2
  exact absurd h (by decide +kernel)

end Props.AsmSteps
