import Verif.Model.AES
import Verif.Model.Steps
/-
What an observer of the timing of the portable AES could see: the functions of Model/AES.lean for one block once more, writing down every
outcome of a condition, every index into the key schedule and every index into a table, in the order of the Go text.
-/
namespace Model.AES.Steps
open Model Model.AES Model.Steps

/-- An observable step. -/
inductive Ev
  /-- a condition was evaluated, with this outcome -/
  | test (b : Bool)
  /-- word `k` of the key schedule was read -/
  | word (k : Nat)
  /-- entry `i` of a table was read: tables 0 … 3 are te0 … te3 (td0 … td3), table 4 is sbox0 (sbox1) -/
  | look (table : Nat) (i : Byte)
deriving DecidableEq, Repr

/-- The step without the index into the table. -/
def blur : Ev → Ev
  | .look t _ => .look t 0
  | e => e

/-- generic.go:63-66 -/
def encMidLog (k : Nat) (s : Quad) : List Ev :=
  [.word k, .look 0 (b3 s.s0), .look 1 (b2 s.s1), .look 2 (b1 s.s2), .look 3 (b0 s.s3),
   .word (k + 1), .look 0 (b3 s.s1), .look 1 (b2 s.s2), .look 2 (b1 s.s3), .look 3 (b0 s.s0),
   .word (k + 2), .look 0 (b3 s.s2), .look 1 (b2 s.s3), .look 2 (b1 s.s0), .look 3 (b0 s.s1),
   .word (k + 3), .look 0 (b3 s.s3), .look 1 (b2 s.s0), .look 2 (b1 s.s1), .look 3 (b0 s.s2)]

/-- generic.go:72-75, 77-80 -/
def encLastLog (k : Nat) (t : Quad) : List Ev :=
  [.look 4 (b3 t.s0), .look 4 (b2 t.s1), .look 4 (b1 t.s2), .look 4 (b0 t.s3),
   .look 4 (b3 t.s1), .look 4 (b2 t.s2), .look 4 (b1 t.s3), .look 4 (b0 t.s0),
   .look 4 (b3 t.s2), .look 4 (b2 t.s3), .look 4 (b1 t.s0), .look 4 (b0 t.s1),
   .look 4 (b3 t.s3), .look 4 (b2 t.s0), .look 4 (b1 t.s1), .look 4 (b0 t.s2),
   .word k, .word (k + 1), .word (k + 2), .word (k + 3)]

/-- generic.go:109-112 -/
def decMidLog (k : Nat) (s : Quad) : List Ev :=
  [.word k, .look 0 (b3 s.s0), .look 1 (b2 s.s3), .look 2 (b1 s.s2), .look 3 (b0 s.s1),
   .word (k + 1), .look 0 (b3 s.s1), .look 1 (b2 s.s0), .look 2 (b1 s.s3), .look 3 (b0 s.s2),
   .word (k + 2), .look 0 (b3 s.s2), .look 1 (b2 s.s1), .look 2 (b1 s.s0), .look 3 (b0 s.s3),
   .word (k + 3), .look 0 (b3 s.s3), .look 1 (b2 s.s2), .look 2 (b1 s.s1), .look 3 (b0 s.s0)]

/-- generic.go:118-121, 123-126 -/
def decLastLog (k : Nat) (t : Quad) : List Ev :=
  [.look 4 (b3 t.s0), .look 4 (b2 t.s3), .look 4 (b1 t.s2), .look 4 (b0 t.s1),
   .look 4 (b3 t.s1), .look 4 (b2 t.s0), .look 4 (b1 t.s3), .look 4 (b0 t.s2),
   .look 4 (b3 t.s2), .look 4 (b2 t.s1), .look 4 (b1 t.s0), .look 4 (b0 t.s3),
   .look 4 (b3 t.s3), .look 4 (b2 t.s2), .look 4 (b1 t.s1), .look 4 (b0 t.s0),
   .word k, .word (k + 1), .word (k + 2), .word (k + 3)]

/-- generic.go:62-69, 108-115 -/
def midRoundsT (mid : Quad → Quad) (midLog : Nat → Quad → List Ev) (xk : List W32) (s : Quad) (k : Nat) : Nat → T Ev (Quad × Nat)
  | 0 => do
    tell [.test false]
    pure (s, k)
  | n + 1 => do
    tell [.test true]
    let kq ← lift (keyQuad xk k) (midLog k s)
    midRoundsT mid midLog xk (kq.xor (mid s)) (k + 4) n

/-- generic.go:44-87 `encryptBlockGo`, 90-133 `decryptBlockGo` -/
def cryptBlockT (mid last : Quad → Quad) (midLog lastLog : Nat → Quad → List Ev) (xk : List W32) (src : List Byte) : T Ev (List Byte) := do
  let s ← lift (loadQuad src)
  let k0 ← lift (keyQuad xk 0) [.word 0, .word 1, .word 2, .word 3]
  let s := s.xor k0
  let nr := xk.length / 4 - 2
  let r ← midRoundsT mid midLog xk s 4 nr
  let t := if nr = 0 then ⟨0, 0, 0, 0⟩ else r.1
  let kq ← lift (keyQuad xk r.2) (lastLog r.2 t)
  let s := (last t).xor kq
  pure (beBytes32 s.s0 ++ beBytes32 s.s1 ++ beBytes32 s.s2 ++ beBytes32 s.s3)

/-- cipher.go:65-76 `Encrypt` -/
def encryptT (c : AES) (dst src : List Byte) : T Ev (List Byte) := do
  tell [.test (decide (src.length < 16))]
  if src.length < 16 then lift none
  else do
    tell [.test (decide (dst.length < 16))]
    if dst.length < 16 then lift none
    else do
      let o ← cryptBlockT encMid encLast encMidLog encLastLog (c.enc.take (c.keyLen + 28)) src
      pure (o ++ dst.drop 16)

/-- cipher.go:78-88 `Decrypt` -/
def decryptT (c : AES) (dst src : List Byte) : T Ev (List Byte) := do
  tell [.test (decide (src.length < 16))]
  if src.length < 16 then lift none
  else do
    tell [.test (decide (dst.length < 16))]
    if dst.length < 16 then lift none
    else do
      let o ← cryptBlockT decMid decLast decMidLog decLastLog (c.dec.take (c.keyLen + 28)) src
      pure (o ++ dst.drop 16)

end Model.AES.Steps
