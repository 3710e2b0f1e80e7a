import Verif.Model.DRBG
import Verif.Model.Steps
/-
What an observer of the timing of drbg/ctr_drbg.go could see: the functions of Model/DRBG.lean once more, writing down every outcome of a
condition, the length of every copy and every call of the block cipher, in the order of the Go text.  What the block cipher itself shows is
in Model/AESSteps.lean; with the hardware instructions it is nothing.
-/
namespace Model.DRBG.Steps
open Model Model.DRBG Model.Steps

/-- An observable step. -/
inductive Ev
  /-- a condition outside `inc` was evaluated, with this outcome -/
  | test (b : Bool)
  /-- a condition inside `inc` was evaluated, with this outcome -/
  | carry (b : Bool)
  /-- `n` bytes were copied -/
  | copy (n : Nat)
  /-- `SetKey` and `Encrypt` of the block cipher -/
  | setKey
  | encrypt
deriving DecidableEq, Repr

/-- ctr_drbg.go:45-52 -/
def incLoopT (v : List Byte) : Nat → T Ev (List Byte)
  | 0 => do
    tell [.carry false]
    pure v
  | n + 1 => do
    tell [.carry true, .carry (decide (v.getD n 0 = 0xff))]
    if v.getD n 0 = 0xff then incLoopT (v.set n 0) n else pure (v.set n (v.getD n 0 + 1))

/-- ctr_drbg.go:44-53 `inc` -/
def incT (c : CtrDrbg) : T Ev CtrDrbg := do
  let v ← incLoopT c.v 16
  pure { c with v := v }

/-- ctr_drbg.go:94-98 -/
def updateLoopT (c : CtrDrbg) (k : Nat) : Nat → T Ev CtrDrbg
  | 0 => do
    tell [.test false]
    pure c
  | n + 1 => do
    tell [.test true]
    let c ← incT c
    let b ← lift (c.blockEnc.setKey c.key) [.setKey]
    let t ← lift (b.encrypt (c.tmpBlk.drop (16 * k)) c.v) [.encrypt]
    updateLoopT { c with blockEnc := b, tmpBlk := c.tmpBlk.take (16 * k) ++ t } (k + 1) n

/-- The conditions of a loop that runs `n` times. -/
def loopLog (n : Nat) : List Ev := List.replicate n (.test true) ++ [.test false]

/-- ctr_drbg.go:88-106 `update` -/
def updateT (c : CtrDrbg) (data : List Byte) : T Ev CtrDrbg := do
  tell [.test (decide (data.length ≠ 48))]
  if data.length ≠ 48 then lift none
  else do
    let c ← updateLoopT c 0 3
    tell (loopLog 48)
    let t := List.zipWith (· ^^^ ·) c.tmpBlk data
    tell [.copy 32, .copy 16]
    pure { c with tmpBlk := t, key := t.take 32, v := t.drop 32 }

/-- ctr_drbg.go:66-79, 112-124: what is seen of making the seed -/
def seedLog (entropy other : List Byte) : List Ev :=
  [.test (decide (48 < entropy.length)), .copy (min entropy.length 48), .test (decide (48 < other.length))] ++ loopLog (min other.length 48)

/-- ctr_drbg.go:55-86 `Init` -/
def initT (c : CtrDrbg) (entropy personalization : List Byte) : T Ev (CtrDrbg × Bool) := do
  tell [.test (decide (entropy.length < c.strength / 8))]
  if entropy.length < c.strength / 8 then pure (c, false)
  else do
    tell (seedLog entropy personalization)
    let c := { c with strength := 256 }
    let b ← lift (c.blockEnc.setKey c.key) [.setKey]
    let c ← updateT { c with blockEnc := b } (seedBuf entropy personalization)
    pure ({ c with counter := 1 }, true)

/-- ctr_drbg.go:108-129 `Reseed` -/
def reseedT (c : CtrDrbg) (entropy data : List Byte) : T Ev CtrDrbg := do
  tell (seedLog entropy data)
  let c ← updateT c (seedBuf entropy data)
  pure { c with counter := 1 }

/-- ctr_drbg.go:143-147 -/
def readLoopT (c : CtrDrbg) (out : List Byte) (i : Nat) : Nat → T Ev (CtrDrbg × List Byte)
  | 0 => do
    tell [.test false]
    pure (c, out)
  | n + 1 => do
    tell [.test true]
    let c ← incT c
    let b ← lift (c.blockEnc.setKey c.key) [.setKey]
    let t ← lift (b.encrypt (out.drop (16 * i)) c.v) [.encrypt]
    readLoopT { c with blockEnc := b } (out.take (16 * i) ++ t) (i + 1) n

/-- ctr_drbg.go:135-139 -/
def readPreT (c : CtrDrbg) (ad sb : List Byte) : T Ev CtrDrbg := do
  tell [.test (decide (0 < ad.length))]
  if 0 < ad.length then do
    tell [.copy (min ad.length 48)]
    updateT c sb
  else pure c

/-- ctr_drbg.go:131-156 `ReadWithAdditionalData` -/
def readADT (c : CtrDrbg) (out ad : List Byte) : T Ev (CtrDrbg × List Byte × Nat) := do
  let sb := if 0 < ad.length then ad.take 48 ++ List.replicate (48 - (ad.take 48).length) 0 else List.replicate 48 0
  let c ← readPreT c ad sb
  let blocks := out.length / 16
  let r ← readLoopT c out 0 blocks
  let t ← lift (r.1.blockEnc.encrypt r.1.tmpBlk r.1.v) [.encrypt]
  tell [.copy (r.2.length % 16)]
  let out := r.2.take (blocks * 16) ++ t.take (r.2.length % 16)
  let c ← updateT { r.1 with tmpBlk := t } sb
  pure ({ c with counter := c.counter + 1 }, out, out.length)

/-- A call of the API. -/
def callT (c : CtrDrbg) : Call → T Ev (CtrDrbg × Res)
  | .init e p => do
    let r ← initT c e p
    pure (r.1, .inited r.2)
  | .reseed e d => do
    let c ← reseedT c e d
    pure (c, .unit)
  | .read out ad => do
    let r ← readADT c out ad
    pure (r.1, .bytes r.2.1 r.2.2)

/-- A sequence of calls. -/
def runT (c : CtrDrbg) : List Call → T Ev (CtrDrbg × List Res)
  | [] => pure (c, [])
  | x :: xs => do
    let r ← callT c x
    let rs ← runT r.1 xs
    pure (rs.1, r.2 :: rs.2)

end Model.DRBG.Steps
