import Verif.Model.Sha3
import Verif.Spec.SpongeObject
import Verif.Spec.Sha3Inst
/-! Call sequences on the modelled hash/sha3 objects. -/
namespace Model.Sha3
open Model Spec.Sponge

/-- One call on the modelled object: hash/sha3/sha3.go:80 `Reset`, :97 `Write`, :155 `Read`,
:195 `Sum`. -/
def callModel (P : Plat) (c : State) : Call → Option (State × Result)
  | .write x => (write P c x).map fun (c, n, e) => (c, .wrote n e.isSome)
  | .read buf => (Model.Sha3.read P c buf).map fun (c, o, n) => (c, .read o n)
  | .sum b => (sum P c b).map fun (c, o) => (c, .digest o)
  | .reset => some (reset c, .unit)

/-- A sequence of calls; `none` if one of them panics. -/
def callsModel (P : Plat) (c : State) : List Call → Option (State × List Result)
  | [] => some (c, [])
  | o :: os => do
    let (c, x) ← callModel P c o
    let (c, xs) ← callsModel P c os
    some (c, x :: xs)

/-- Calls on a `*cshakeState`: `Write`, `Read`, `Sum` are promoted from the embedded `state`
(hash/sha3/shake.go:34-35), `Reset` is its own (shake.go:89-92). -/
def ccallModel (P : Plat) (c : CState) : Call → Option (CState × Result)
  | .reset => (creset P c).map fun c => (c, .unit)
  | k => (callModel P c.st k).map fun (s, x) => ({ c with st := s }, x)

/-- Calls through the `ShakeHash` interface (hash/sha3/shake.go:14-30). -/
def scallModel (P : Plat) : Shake → Call → Option (Shake × Result)
  | .plain s, k => (callModel P s k).map fun (s, x) => (.plain s, x)
  | .custom c, k => (ccallModel P c k).map fun (c, x) => (.custom c, x)

def scallsModel (P : Plat) (c : Shake) : List Call → Option (Shake × List Result)
  | [] => some (c, [])
  | o :: os => do
    let (c, x) ← scallModel P c o
    let (c, xs) ← scallsModel P c os
    some (c, x :: xs)

/-- `Clone` through the interface: hash/sha3/shake.go:95-99 and 102-105. -/
def sclone : Shake → Shake
  | .plain s => .plain (clone s)
  | .custom c => .custom (cclone c)

/-- The exported constructors, hash/sha3/sha3.go:231-254 and shake.go:110-119. -/
def new : Spec.Sha3.Inst → State
  | .sha3_224 => new224 | .sha3_256 => new256 | .sha3_384 => new384 | .sha3_512 => new512
  | .shake128 => newShake128 | .shake256 => newShake256

/-- The platform variants modelled (build tags of hash/sha3/xor.go, xor_unaligned.go, keccakf.go). -/
inductive Supported : Plat → Prop
  | generic : Supported platGeneric
  | unaligned : Supported platUnaligned

/-- A program working with several objects at once: a call on object `i`, or `Clone` of object `i`,
which adds a new object at the end of the list. -/
inductive Act
  | call (i : Nat) (k : Call)
  | clone (i : Nat)

/-- One action; `none` on a panic or an object that does not exist. -/
def act (P : Plat) (os : List Shake) : Act → Option (List Shake × Option (Nat × Result))
  | .call i k => do
    let o ← os[i]?
    let (o, x) ← scallModel P o k
    some (os.set i o, some (i, x))
  | .clone i => do
    let o ← os[i]?
    some (os ++ [sclone o], none)

/-- A run; the trace lists (object, result). -/
def acts (P : Plat) (os : List Shake) : List Act → Option (List Shake × List (Nat × Result))
  | [] => some (os, [])
  | a :: as => do
    let (os, x) ← act P os a
    let (os, xs) ← acts P os as
    some (os, x.toList ++ xs)

end Model.Sha3
