import Verif.Model.SM3
/-! Call sequences on one SM3 object. -/
namespace Model.SM3

/-- The methods of hash/sm3/sm3.go:46-110 that touch the state. -/
inductive Call where
  | write (p : List Byte)
  | sum (b : List Byte)
  | reset

/-- What a call returns. -/
inductive Res where
  | wrote (n : Nat)
  | summed (r : List Byte)
  | unit
  deriving DecidableEq

/-- One call. -/
def call (d : Digest) : Call → Option (Digest × Res)
  | .write p => (write d p).map fun (d, n) => (d, .wrote n)
  | .sum b => (sum d b).map fun r => (d, .summed r)
  | .reset => some (reset d, .unit)

/-- A sequence of calls; `none` when one of them panics. -/
def run (d : Digest) : List Call → Option (Digest × List Res)
  | [] => some (d, [])
  | c :: cs => do
    let (d, r) ← call d c
    let (d, rs) ← run d cs
    some (d, r :: rs)

end Model.SM3
