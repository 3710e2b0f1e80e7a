import Verif.Model.Steps
import Verif.Model.SM3Calls
/-
What an observer of the timing of hash/sm3 could see: the functions of Model/SM3.lean once more, writing down every outcome of a
condition, every index of a byte or word that is read or written, and every copy with its place and length, in the order of the Go text.
Line numbers are as in Model/SM3.lean.
-/
namespace Model.SM3.Steps
open Model Model.SM3 Model.Steps

/-- An observable step. -/
inductive Ev
  /-- a condition was evaluated, with this outcome -/
  | test (b : Bool)
  /-- a big-endian word was read from byte `i` of a buffer on, or written there -/
  | word (i : Nat)
  /-- the unrolled body of `compress`: instruction after instruction, no condition, no index -/
  | body
  /-- `n` bytes were copied to the buffer from index `i` on -/
  | copy (i n : Nat)
  /-- byte `i` of the buffer was written -/
  | byte (i : Nat)
  /-- the registers and the length were set to their initial values -/
  | init
deriving DecidableEq, Repr

/-- compress.go:100-253, `n` iterations left, at iteration `i` -/
def compressFromT (h : Vector W32 8) (input : List Byte) (i : Nat) : Nat → T Ev (Vector W32 8)
  | 0 => do
    tell [.test false]
    pure h
  | n + 1 => do
    tell [.test true]
    let next ← lift (sliceFrom input (i * 64))
    let w ← lift (loadBlock next) ((List.range 16).map fun k => .word (i * 64 + 4 * k))
    let h ← lift (some (compress1 h w)) [.body]
    compressFromT h input (i + 1) n

/-- compress.go:90-254 `compress` -/
def compressT (d : Digest) (input : List Byte) (blocks : Nat) : T Ev Digest := do
  let h ← compressFromT d.h input 0 blocks
  pure { d with h }

/-- sm3.go:58-80 `Write` -/
def writeT (d : Digest) (input : List Byte) : T Ev (Digest × Nat) := do
  let idx := (d.len &&& 63).toNat
  let d := { d with len := d.len + BitVec.ofNat 64 input.length }
  tell [.test (decide (input.length + idx < 64))]
  if input.length + idx < 64 then do
    let b ← lift (copyFrom d.b idx input) [.copy idx input.length]
    pure ({ d with b }, 0)
  else do
    let c := 64 - idx
    let first ← lift (sliceTo input c)
    let b ← lift (copyFrom d.b idx first) [.copy idx first.length]
    let d := { d with b }
    let d ← compressT d d.b 1
    let input ← lift (sliceFrom input c)
    let nblocks := input.length / 64
    let d ← compressT d input nblocks
    let rest ← lift (sliceFrom input (nblocks * 64))
    let b ← lift (copyFrom d.b 0 rest) [.copy 0 rest.length]
    pure ({ d with b }, input.length)

/-- sm3.go:82-110 `Sum` -/
def sumT (d : Digest) (input : List Byte) : T Ev (List Byte) := do
  let r ← writeT d input
  let idx := (r.1.len &&& 63).toNat
  let b ← lift (copyFrom r.1.b (idx + 1) (List.replicate (64 - (idx + 1)) 0))
    ((List.range (64 - (idx + 1))).flatMap (fun i => [.test true, .byte (idx + 1 + i)]) ++ [.test false])
  let b ← lift (setAt b idx 0x80) [.byte idx]
  let dc := { r.1 with b }
  tell [.test (decide (56 ≤ idx))]
  let dc ← if 56 ≤ idx then do
      let dc ← compressT dc dc.b 1
      lift (some { dc with b := List.replicate 64 0 }) ((List.range 64).map .byte)
    else pure dc
  let b ← lift (copyFrom dc.b 56 (store64Be (dc.len * 8))) [.word 56, .word 60]
  let dc := { dc with b }
  let dc ← compressT dc dc.b 1
  lift (some (dc.h.toList.flatMap store32Be)) ((List.range 8).map fun i => .word (4 * i))

/-- A call. -/
def callT (d : Digest) : Call → T Ev (Digest × Res)
  | .write p => do
    let r ← writeT d p
    pure (r.1, .wrote r.2)
  | .sum b => do
    let r ← sumT d b
    pure (d, .summed r)
  | .reset => lift (some (reset d, .unit)) [.init]

/-- A sequence of calls. -/
def runT (d : Digest) : List Call → T Ev (Digest × List Res)
  | [] => pure (d, [])
  | c :: cs => do
    let r ← callT d c
    let s ← runT r.1 cs
    pure (s.1, r.2 :: s.2)

/-- Calls of the same kind with arguments of the same length. -/
def SameShape : Call → Call → Prop
  | .write x, .write y => x.length = y.length
  | .sum x, .sum y => x.length = y.length
  | .reset, .reset => True
  | _, _ => False

end Model.SM3.Steps
