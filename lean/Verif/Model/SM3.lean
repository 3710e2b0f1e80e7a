import Verif.Model.SM3Gen
/-
Model of the Go package hash/sm3 (sm3.go, compress.go).  `none` is a panic.
-/
namespace Model.SM3
open Model

/-- hash/sm3/sm3.go:28-32 `digest`. -/
structure Digest where
  h : Vector W32 8
  len : W64
  b : List Byte
  deriving DecidableEq

/-- hash/sm3/sm3.go:10-19 -/
def init : Vector W32 8 :=
  #v[0x7380166F, 0x4914B2B9, 0x172442D7, 0xDA8A0600, 0xA96F30BC, 0x163138AA, 0xE38DEE4D, 0xB0FB0E4E]

/-- hash/sm3/compress.go:102-118: the sixteen loads of one block; `next64Block` has at least 64 bytes
or a load panics. -/
def loadBlock (blk : List Byte) : Option (Vector W32 16) := do
  let ws ← (List.range 16).mapM fun k => do
    let x ← sliceFrom blk (4 * k)
    loadBe32 x
  if h : ws.length = 16 then some ⟨ws.toArray, by simpa using h⟩ else none

/-- hash/sm3/compress.go:100-253, one iteration: registers loaded from `d.h`, the unrolled body, and
the xor into `d.h`. -/
def compress1 (h : Vector W32 8) (w : Vector W32 16) : Vector W32 8 :=
  let m := prog.foldl step { r := h, w }
  Vector.ofFn fun i => h.get i ^^^ m.r.get i

/-- hash/sm3/compress.go:90-254 `compress`: `n` iterations left, at iteration `i`. -/
def compressFrom (h : Vector W32 8) (input : List Byte) (i : Nat) : Nat → Option (Vector W32 8)
  | 0 => some h
  | n + 1 => do
    let next ← sliceFrom input (i * 64)
    let w ← loadBlock next
    compressFrom (compress1 h w) input (i + 1) n

def compress (d : Digest) (input : List Byte) (blocks : Nat) : Option Digest := do
  let h ← compressFrom d.h input 0 blocks
  some { d with h }

/-- hash/sm3/sm3.go:46-56 `Reset`: `b` keeps its contents. -/
def reset (d : Digest) : Digest := { d with h := init, len := 0 }

/-- hash/sm3/sm3.go:34-38 `New`. -/
def new : Digest := reset { h := Vector.replicate 8 0, len := 0, b := List.replicate 64 0 }

/-- hash/sm3/sm3.go:58-80 `Write`: new object and the count returned (the error is always nil). -/
def write (d : Digest) (input : List Byte) : Option (Digest × Nat) :=
  let idx := (d.len &&& 63).toNat
  let d := { d with len := d.len + BitVec.ofNat 64 input.length }
  if input.length + idx < 64 then do
    let b ← copyFrom d.b idx input
    some ({ d with b }, 0)
  else do
    let c := 64 - idx
    let first ← sliceTo input c
    let b ← copyFrom d.b idx first
    let d := { d with b }
    let d ← compress d d.b 1
    let input ← sliceFrom input c
    let nblocks := input.length / 64
    let d ← compress d input nblocks
    let rest ← sliceFrom input (nblocks * 64)
    let b ← copyFrom d.b 0 rest
    some ({ d with b }, input.length)

/-- hash/sm3/compress.go:72-81 `store64Be` -/
def store64Be (x : W64) : List Byte := beBytes64 x
/-- hash/sm3/compress.go:83-88 `store32Be` -/
def store32Be (x : W32) : List Byte :=
  [x.extractLsb' 24 8, x.extractLsb' 16 8, x.extractLsb' 8 8, x.extractLsb' 0 8]

/-- hash/sm3/sm3.go:82-110 `Sum`: only the returned bytes; the object is copied, so it keeps its value. -/
def sum (d : Digest) (input : List Byte) : Option (List Byte) := do
  let (dc, _) ← write d input
  let idx := (dc.len &&& 63).toNat
  -- for i := idx + 1; i < len(dc.b); i++ { dc.b[i] = 0 }
  let b ← copyFrom dc.b (idx + 1) (List.replicate (64 - (idx + 1)) 0)
  let b ← setAt b idx 0x80
  let dc := { dc with b }
  let dc ← if 56 ≤ idx then do
      let dc ← compress dc dc.b 1
      some { dc with b := List.replicate 64 0 }
    else some dc
  let b ← copyFrom dc.b 56 (store64Be (dc.len * 8))
  let dc := { dc with b }
  let dc ← compress dc dc.b 1
  some (dc.h.toList.flatMap store32Be)

end Model.SM3
