import Verif.Model.AsmSteps
import Mathlib.Data.List.Forall2
/-!
When the memory accesses of an assembly routine do not depend on data.
-/
namespace Spec.AsmSteps
open Model Model.Asm

/-- A parameter of a routine: a pointer to an array of at least n words, or a number. -/
inductive Par where
  | arr (n : Nat)
  | num

/-- The argument can be passed for the parameter. -/
def Passes (data : List (List W64)) : Par → Arg → Prop
  | .arr n, .arr b => ∃ d, data[b]? = some d ∧ n ≤ d.length
  | .num, .num _ => True
  | _, _ => False

/-- The arguments are the same pointer, or both numbers. -/
def SameTo : Arg → Arg → Prop
  | .arr b, .arr c => b = c
  | .num _, .num _ => True
  | _, _ => False

/-- Any two calls with the same pointers, which may be equal to each other in any way, run to the end and read and write the same words of
memory in the same order, whatever the arrays, the numbers among the arguments, the registers and the stack hold. -/
def SameAccesses (R : Routine) (ps : List Par) : Prop :=
  ∀ (junk junk' : Nat → Val) (fr fr' : List Val) (bp bp' fp fp' : W64) (data data' : List (List W64)) (args args' : List Arg),
    fr.length = R.frame → fr'.length = R.frame → List.Forall₂ (Passes data) ps args → List.Forall₂ (Passes data') ps args' →
    List.Forall₂ SameTo args args' →
    (R.call junk fr bp fp data args).isSome ∧ R.trace junk fr bp fp data args = R.trace junk' fr' bp' fp' data' args'

end Spec.AsmSteps
