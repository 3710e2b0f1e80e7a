import Verif.Model.Asm
/-
What it means for an assembly routine to do its work, in terms of the caller's arrays.
-/
namespace Spec.Asm
open Model Model.Asm

/-- A call of `R` with pointers to the arrays `args` of `data` returns, whatever the registers and the stack frame held before,
with `res` in the first words of array `zb`; the other words of that array and all other arrays, except those listed in
`scratch`, are as before. -/
def Writes (R : Routine) (data : List (List W64)) (args : List Nat) (zb : Nat) (scratch : List Nat) (res : List W64) : Prop :=
  ∀ (junk : Nat → Val) (fr : List Val) (bp fp : W64), fr.length = R.frame →
    ∃ (data' : List (List Val)) (bp' : Option Val), R.call junk fr bp fp data (args.map .arr) = some (data', bp') ∧
      data'.length = data.length ∧
      ∀ (b : Nat) (d : List W64), data[b]? = some d → b ∉ scratch →
        data'[b]? = some ((if b = zb then res ++ d.drop res.length else d).map .w)

/-- A call of `R` returns with the caller's BP. -/
def KeepsBP (R : Routine) (data : List (List W64)) (args : List Nat) : Prop :=
  ∀ (junk : Nat → Val) (fr : List Val) (bp fp : W64), fr.length = R.frame →
    ∃ (data' : List (List Val)), R.call junk fr bp fp data (args.map .arr) = some (data', some (.w bp))

/-- A call of `R` with the arguments `args` (pointers to arrays of `data`, and numbers) returns, whatever the registers and the stack
frame held before, with the arrays `data'` and the caller's BP. -/
def Returns (R : Routine) (data : List (List W64)) (args : List Arg) (data' : List (List W64)) : Prop :=
  ∀ (junk : Nat → Val) (fr : List Val) (bp fp : W64), fr.length = R.frame →
    R.call junk fr bp fp data args = some (data'.map fun d => d.map .w, some (.w bp))

/-- The five ways three pointers can alias. -/
inductive Alias where
  | none | zx | zy | xy | all

/-- The arrays and arguments of a call with the given aliasing, and the two operands. -/
def Alias.data : Alias → List W64 → List W64 → List W64 → List (List W64)
  | .none, z, x, y => [z, x, y]
  | .zx, _, x, y => [x, y]
  | .zy, _, x, y => [y, x]
  | .xy, z, x, _ => [z, x]
  | .all, _, x, _ => [x]

def Alias.args : Alias → List Nat
  | .none => [0, 1, 2]
  | .zx => [0, 0, 1]
  | .zy => [0, 1, 0]
  | .xy => [0, 1, 1]
  | .all => [0, 0, 0]

/-- The second operand. -/
def Alias.snd : Alias → List W64 → List W64 → List W64
  | .xy, x, _ => x
  | .all, x, _ => x
  | _, _, y => y

end Spec.Asm
