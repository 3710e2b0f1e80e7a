/-
The three prime fields of SIDH/SIKE (SIKE specification, 1.3.2 and 1.6).
-/
namespace Spec.Sidh

inductive Fld | p434 | p503 | p751

/-- Exponent of 2 in p + 1. -/
def Fld.e2 : Fld → Nat
  | .p434 => 216
  | .p503 => 250
  | .p751 => 372

/-- Exponent of 3 in p + 1. -/
def Fld.e3 : Fld → Nat
  | .p434 => 137
  | .p503 => 159
  | .p751 => 239

/-- p = 2^e2 · 3^e3 − 1 -/
def Fld.p (f : Fld) : Nat := 2 ^ f.e2 * 3 ^ f.e3 - 1

/-- Number of 64-bit words of a field element. -/
def Fld.words : Fld → Nat
  | .p434 => 7
  | .p503 => 8
  | .p751 => 12

/-- The Montgomery radix. -/
def Fld.R (f : Fld) : Nat := 2 ^ (64 * f.words)

end Spec.Sidh
