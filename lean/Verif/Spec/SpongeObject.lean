import Verif.Spec.Keccak
/-
What a user of a FIPS 202 hash/XOF object relies on: an object is either absorbing (it remembers the
message written so far) or squeezing (message and number of output bytes already delivered).
-/
namespace Spec.Sponge
open Spec.Keccak

/-- Calls on an object. `read buf` passes a buffer (its old contents must not matter), `sum b` is
`hash.Hash.Sum`. -/
inductive Call
  | write (x : List Byte)
  | read (buf : List Byte)
  | sum (b : List Byte)
  | reset

/-- Results of calls. -/
inductive Result
  | wrote (n : Nat) (err : Bool)
  | read (bytes : List Byte) (n : Nat)
  | digest (bytes : List Byte)
  | unit
  deriving DecidableEq

inductive Obj
  | absorbing (m : List Byte)
  | squeezing (m : List Byte) (k : Nat)

/-- The message and the number of output bytes delivered. -/
def Obj.pos : Obj → List Byte × Nat
  | .absorbing m => (m, 0)
  | .squeezing m k => (m, k)

/-- One call on an object with rate `r` (bytes), suffix byte `sfx` and digest size `d`. -/
def call (r : Nat) (sfx : Byte) (d : Nat) (o : Obj) : Call → Obj × Result
  | .write x =>
    match o with
    | .absorbing m => (.absorbing (m ++ x), .wrote x.length false)
    | .squeezing m k => (.squeezing m k, .wrote 0 true)
  | .read buf =>
    let (m, k) := o.pos
    (.squeezing m (k + buf.length), .read (spongeBytes keccakF r sfx m k buf.length) buf.length)
  | .sum b =>
    let (m, k) := o.pos
    (.squeezing m (k + d), .digest (b ++ spongeBytes keccakF r sfx m k d))
  | .reset => (.absorbing [], .unit)

/-- A sequence of calls. -/
def calls (r : Nat) (sfx : Byte) (d : Nat) (o : Obj) : List Call → Obj × List Result
  | [] => (o, [])
  | c :: cs =>
    let (o, x) := call r sfx d o c
    let (o, xs) := calls r sfx d o cs
    (o, x :: xs)

end Spec.Sponge
