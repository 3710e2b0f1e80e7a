import Verif.Model.AsmCsidh
import Verif.Model.AsmKeccak
/- The Go functions of dh/csidh/fp511_amd64.go around the assembly. -/
namespace Model.CsidhAmd64
open Model Model.Asm Model.Csidh

/-- The words of an array, if it holds no pointer. -/
def wordsOf : List Val → Option (List W64)
  | [] => some []
  | .w x :: vs => (wordsOf vs).map (x :: ·)
  | .ptr _ :: _ => none

/-- The words of all arrays. -/
def arraysOf : List (List Val) → Option (List (List W64))
  | [] => some []
  | v :: vs => match wordsOf v, arraysOf vs with
    | some d, some ds => some (d :: ds)
    | _, _ => none

/-- fp511_amd64.go:21-50 `mulRdc`, with r, x and y pointing to arrays `z`, `x` and `y` of `data`, and fp511.go:14-17 the flag
`hasADXandBMI2`.  `junk`, `fr`, `bp` and `fp` are what registers, stack and the two frame pointers hold when the assembly is called.
The local array t of the Go function and the pick at the end are `condSub`. -/
def mulRdc (c : Cpu) (junk : Nat → Val) (fr : List Val) (bp fp : W64) (data : List (List W64)) (z x y : Nat) : Option (List (List W64)) :=
  let prod := match c with
    | .adx => match AsmCsidh.mulBmi.call junk fr bp fp data [.arr z, .arr x, .arr y] with
      | some (d, _) => arraysOf d
      | none => none
    | _ => match data[x]?, data[y]? with
      | some a, some b => some (data.set z (mulGeneric a b))
      | _, _ => none
  match prod with
  | some d => match d[z]? with
    | some r => some (d.set z (condSub r))
    | none => none
  | none => none

end Model.CsidhAmd64
