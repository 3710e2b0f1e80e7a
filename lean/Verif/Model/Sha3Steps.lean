import Verif.Model.Steps
import Verif.Model.Sha3Calls
/-
What an observer of the timing of hash/sha3 could see: the functions of Model/Sha3.lean once more, writing down every outcome of a
condition, every index of a byte or word that is read or written, and every copy with its place and length, in the order of the Go text.
Line numbers are as in Model/Sha3.lean.
-/
namespace Model.Sha3.Steps
open Model Model.Sha3 Model.Steps

/-- An observable step. -/
inductive Ev
  /-- a condition was evaluated, with this outcome -/
  | test (b : Bool)
  /-- word `i` of the permutation state was combined with a word of a buffer, or copied to one -/
  | lane (i : Nat)
  /-- `n` bytes were copied to a buffer from index `i` on -/
  | copy (i n : Nat)
  /-- byte `i` of a buffer was read or written -/
  | byte (i : Nat)
  /-- round `i` of the permutation; `rc[i]` was read -/
  | round (i : Nat)
  /-- state and buffer were overwritten with zeros -/
  | zero
  /-- `n` bytes were appended to a slice of length `l` -/
  | append (l n : Nat)
deriving DecidableEq, Repr

/-- xor_generic.go:15-19 -/
def xorInLoopT (a : Vector W64 25) (buf : List Byte) (i : Nat) : Nat → T Ev (Vector W64 25)
  | 0 => do
    tell [.test false]
    pure a
  | n + 1 => do
    tell [.test true]
    let w ← lift (leUint64 buf)
    if h : i < 25 then do
      tell [.lane i]
      let buf' ← lift (sliceFrom buf 8)
      xorInLoopT (a.set i (a[i] ^^^ w)) buf' (i + 1) n
    else lift none

/-- xor_generic.go:12-20 `xorInGeneric` -/
def xorInGenericT (a : Vector W64 25) (buf : List Byte) : T Ev (Vector W64 25) := xorInLoopT a buf 0 (buf.length / 8)

/-- xor_generic.go:24-27 -/
def copyOutLoopT (a : Vector W64 25) (b : List Byte) (i : Nat) : Nat → T Ev (List Byte)
  | 0 => do
    tell [.test false]
    pure b
  | fuel + 1 => do
    tell [.test (decide (8 ≤ b.length))]
    if 8 ≤ b.length then
      if h : i < 25 then do
        tell [.lane i]
        let rest ← copyOutLoopT a (b.drop 8) (i + 1) fuel
        pure (leBytes64 a[i] ++ rest)
      else lift none
    else pure b

/-- xor_generic.go:23-28 `copyOutGeneric` -/
def copyOutGenericT (a : Vector W64 25) (b : List Byte) : T Ev (List Byte) := copyOutLoopT a b 0 b.length

/-- `d.a[i] ^= bw[i]` -/
def xorWordT (buf : List Byte) (a : Vector W64 25) (i : Nat) : T Ev (Vector W64 25) := do
  tell [.lane i]
  lift (xorWord buf a i)

/-- `d.a[i] ^= bw[i]` for the listed `i` -/
def xorWordsT (buf : List Byte) : List Nat → Vector W64 25 → T Ev (Vector W64 25)
  | [], a => pure a
  | i :: is, a => do
    let a ← xorWordT buf a i
    xorWordsT buf is a

/-- `if n >= m { … }` -/
def xorGroupT (buf : List Byte) (m : Nat) (is : List Nat) (a : Vector W64 25) : T Ev (Vector W64 25) := do
  tell [.test (decide (m ≤ buf.length))]
  if m ≤ buf.length then xorWordsT buf is a else pure a

/-- xor_unaligned.go:21-55 `xorInUnaligned` -/
def xorInUnalignedT (a : Vector W64 25) (buf : List Byte) : T Ev (Vector W64 25) :=
  if buf.length = 0 then lift none
  else do
    let a ← xorGroupT buf 72 [0, 1, 2, 3, 4, 5, 6, 7, 8] a
    let a ← xorGroupT buf 104 [9, 10, 11, 12] a
    let a ← xorGroupT buf 136 [13, 14, 15, 16] a
    let a ← xorGroupT buf 144 [17] a
    xorGroupT buf 168 [18, 19, 20] a

/-- xor_unaligned.go:57-60 `copyOutUnaligned` -/
def copyOutUnalignedT (a : Vector W64 25) (b : List Byte) : T Ev (List Byte) :=
  lift (copyOutUnaligned a b) [.copy 0 (min b.length maxRate)]

/-- keccakf.go:46-410: the loop `for i := 0; i < 24; i += 4`, `n` iterations left; the body has no condition -/
def keccakLoopT (a : Vector W64 25) (i : Nat) : Nat → T Ev (Vector W64 25)
  | 0 => do
    tell [.test false]
    pure a
  | n + 1 => do
    tell [.test true, .round i, .round (i + 1), .round (i + 2), .round (i + 3)]
    keccakLoopT (rounds4 a i) (i + 4) n

/-- keccakf.go:40-412 `keccakF1600` -/
def keccakF1600T (a : Vector W64 25) : T Ev (Vector W64 25) := keccakLoopT a 0 6

/-- The platform-dependent functions. -/
structure PlatT where
  xorIn : Vector W64 25 → List Byte → T Ev (Vector W64 25)
  copyOut : Vector W64 25 → List Byte → T Ev (List Byte)
  keccakF : Vector W64 25 → T Ev (Vector W64 25)

/-- The portable build. -/
def platGenericT : PlatT := ⟨xorInGenericT, copyOutGenericT, keccakF1600T⟩

/-- xor_unaligned.go with the Go permutation. -/
def platUnalignedT : PlatT := ⟨xorInUnalignedT, copyOutUnalignedT, keccakF1600T⟩

variable (P : PlatT)

/-- sha3.go:122-126 -/
def writeLoopT (rate : Nat) (a : Vector W64 25) (input : List Byte) : T Ev (Vector W64 25 × List Byte) := do
  tell [.test (decide (rate ≤ input.length))]
  if h : 0 < rate ∧ rate ≤ input.length then do
    let a ← P.xorIn a (input.take rate)
    let a ← P.keccakF a
    writeLoopT rate a (input.drop rate)
  else pure (a, input)
termination_by input.length
decreasing_by simp only [List.length_drop]; omega

/-- sha3.go:97-133 `Write` -/
def writeT (c : State) (input : List Byte) : T Ev (State × Nat × Option Err) := do
  tell [.test c.isSquezing]
  if c.isSquezing then pure (c, 0, some .writeAfterRead)
  else do
    let rate := c.rate
    let buf := c.data
    let processLen := c.idx + input.length
    tell [.test (decide (processLen < rate))]
    if processLen < rate then do
      let buf ← lift (copyFrom buf c.idx input) [.copy c.idx input.length]
      pure ({ c with data := buf, idx := processLen }, input.length, none)
    else do
      let fbLen := rate - c.idx
      let first ← lift (sliceTo input fbLen)
      let buf ← lift (copyFrom buf c.idx first) [.copy c.idx first.length]
      let a ← P.xorIn c.a buf
      let a ← P.keccakF a
      let rest ← lift (sliceFrom input fbLen)
      let r ← writeLoopT P rate a rest
      let buf ← lift (copyFrom buf 0 r.2) [.copy 0 r.2.length]
      pure ({ c with a := r.1, data := buf, idx := r.2.length }, input.length, none)

/-- sha3.go:135-151 `finalize_sha3` -/
def finalizeT (c : State) : T Ev State := do
  let rate := c.rate
  let buf ← lift (if c.idx + 1 ≤ rate then copyFrom c.data (c.idx + 1) (List.replicate (rate - (c.idx + 1)) 0) else some c.data)
    ((List.range (rate - (c.idx + 1))).flatMap (fun i => [.test true, .byte (c.idx + 1 + i)]) ++ [.test false])
  let buf ← lift (setAt buf c.idx c.sfx) [.byte c.idx]
  if rate = 0 then lift none
  else do
  let buf ← lift (setAt buf (rate - 1) (buf.getD (rate - 1) 0 ||| 0x80)) [.byte (rate - 1)]
  let blk ← lift (sliceTo buf rate)
  let a ← P.xorIn c.a blk
  let a ← P.keccakF a
  let out ← P.copyOut a blk
  let buf ← lift (copyFrom buf 0 out)
  pure { c with a := a, data := buf, idx := rate, isSquezing := true }

/-- sha3.go:178-183 -/
def readLoopT (rate : Nat) (a : Vector W64 25) (out : List Byte) : Nat → T Ev (Vector W64 25 × List Byte × List Byte)
  | 0 => do
    tell [.test false]
    pure (a, [], out)
  | n + 1 => do
    tell [.test true]
    let a ← P.keccakF a
    let blk ← lift (sliceTo out rate)
    let blk ← P.copyOut a blk
    let rest ← lift (sliceFrom out rate)
    let r ← readLoopT rate a rest n
    pure (r.1, blk ++ r.2.1, r.2.2)

/-- sha3.go:155-191 `Read` -/
def readT (c : State) (out : List Byte) : T Ev (State × List Byte × Nat) := do
  let rate := c.rate
  let nread := out.length
  tell [.test (!c.isSquezing)]
  let c ← if c.isSquezing then pure c else finalizeT P c
  let l := min c.idx out.length
  tell [.test (decide (c.idx < out.length))]
  if rate < c.idx then lift none
  else do
  let src ← lift (sliceFrom c.data (rate - c.idx))
  let src ← lift (sliceTo src l) [.copy 0 l]
  let out := out.drop l
  let c := { c with idx := c.idx - l }
  tell [.test (decide (out.length = 0))]
  if out.length = 0 then pure (c, src, nread)
  else if rate = 0 then lift none
  else do
    let r ← readLoopT P rate c.a out (out.length / rate)
    let a ← P.keccakF r.1
    let buf ← P.copyOut a c.data
    let last ← lift (sliceTo buf r.2.2.length) [.copy 0 r.2.2.length]
    pure ({ c with a := a, data := buf, idx := rate - r.2.2.length }, src ++ r.2.1 ++ last, nread)

/-- sha3.go:195-211 `Sum` -/
def sumT (c : State) (input : List Byte) : T Ev (State × List Byte) := do
  tell [.append input.length c.dsize]
  let r ← readT P c (List.replicate c.dsize 0)
  pure (r.1, input ++ r.2.1)

open Spec.Sponge in
/-- A call. -/
def callT (c : State) : Call → T Ev (State × Result)
  | .write x => do
    let r ← writeT P c x
    pure (r.1, .wrote r.2.1 r.2.2.isSome)
  | .read buf => do
    let r ← readT P c buf
    pure (r.1, .read r.2.1 r.2.2)
  | .sum b => do
    let r ← sumT P c b
    pure (r.1, .digest r.2)
  | .reset => lift (some (reset c, .unit)) [.zero]

open Spec.Sponge in
/-- A sequence of calls. -/
def callsT (c : State) : List Call → T Ev (State × List Result)
  | [] => pure (c, [])
  | o :: os => do
    let r ← callT P c o
    let s ← callsT r.1 os
    pure (s.1, r.2 :: s.2)

end Model.Sha3.Steps
