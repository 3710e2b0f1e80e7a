import Verif.Model.AESAsm
/-
Model of drbg/ctr_drbg.go.  `none` is a panic.
-/
namespace Model.DRBG
open Model Model.AES

/-- internal/aes/cipher.go:22-31 `IAES`: one of the two implementations. -/
inductive IAES where
  | soft (c : AES)
  | asm (c : AESAsm)

/-- `c.blockEnc.SetKey(key)`; the callers drop the error. -/
def IAES.setKey : IAES → List Byte → Option IAES
  | .soft c, key => (c.setKey key).map fun (c', _) => .soft c'
  | .asm c, key => (c.setKey key).map .asm
def IAES.encrypt : IAES → List Byte → List Byte → Option (List Byte)
  | .soft c, dst, src => c.encrypt dst src
  | .asm c, dst, src => c.encrypt dst src

/-- ctr_drbg.go:27-35 `CtrDrbg`; `resistance` is never used.  `v`, `key`, `tmpBlk` are arrays of 16, 32
and 48 bytes. -/
structure CtrDrbg where
  v : List Byte
  key : List Byte
  counter : W64
  strength : Nat
  blockEnc : IAES
  tmpBlk : List Byte

/-- ctr_drbg.go:37-42 `NewCtrDrbg`, by the value of `utils.X86.HasAES`. -/
def new (hasAES : Bool) : CtrDrbg :=
  { v := List.replicate 16 0, key := List.replicate 32 0, counter := 0, strength := 0,
    blockEnc := if hasAES then .asm AESAsm.new else .soft AES.new, tmpBlk := List.replicate 48 0 }

/-- ctr_drbg.go:45-52, the loop of `inc` at index `n - 1`. -/
def incLoop (v : List Byte) : Nat → List Byte
  | 0 => v
  | n + 1 => if v.getD n 0 = 0xff then incLoop (v.set n 0) n else v.set n (v.getD n 0 + 1)

/-- ctr_drbg.go:44-53 `inc` -/
def inc (c : CtrDrbg) : CtrDrbg := { c with v := incLoop c.v 16 }

/-- ctr_drbg.go:94-98: the loop of `update`, `i` = 16·k, `n` iterations left. -/
def updateLoop (c : CtrDrbg) (k : Nat) : Nat → Option CtrDrbg
  | 0 => some c
  | n + 1 => do
    let c := inc c
    let b ← c.blockEnc.setKey c.key
    let t ← b.encrypt (c.tmpBlk.drop (16 * k)) c.v
    updateLoop { c with blockEnc := b, tmpBlk := c.tmpBlk.take (16 * k) ++ t } (k + 1) n

/-- ctr_drbg.go:88-106 `update` -/
def update (c : CtrDrbg) (data : List Byte) : Option CtrDrbg :=
  if data.length ≠ 48 then none
  else do
    let c ← updateLoop c 0 3
    let t := List.zipWith (· ^^^ ·) c.tmpBlk data
    some { c with tmpBlk := t, key := t.take 32, v := t.drop 32 }

/-- ctr_drbg.go:66-79, 109-124: `copy(seedBuf[:], entropy[:lsz])` into a zeroed buffer of 48 bytes, then
`seedBuf[i] ^= other[i]` for i < min(len(other), 48). -/
def seedBuf (entropy other : List Byte) : List Byte :=
  let b := entropy.take 48 ++ List.replicate (48 - (entropy.take 48).length) 0
  let o := other.take 48
  List.zipWith (· ^^^ ·) b o ++ b.drop o.length

/-- ctr_drbg.go:55-86 `Init`: the object and the result. -/
def init (c : CtrDrbg) (entropy personalization : List Byte) : Option (CtrDrbg × Bool) :=
  if entropy.length < c.strength / 8 then some (c, false)
  else do
    let c := { c with strength := 256 }
    let b ← c.blockEnc.setKey c.key
    let c ← update { c with blockEnc := b } (seedBuf entropy personalization)
    some ({ c with counter := 1 }, true)

/-- ctr_drbg.go:108-129 `Reseed` -/
def reseed (c : CtrDrbg) (entropy data : List Byte) : Option CtrDrbg := do
  let c ← update c (seedBuf entropy data)
  some { c with counter := 1 }

/-- ctr_drbg.go:143-147: the loop over whole blocks at block `i`, `n` left. -/
def readLoop (c : CtrDrbg) (out : List Byte) (i : Nat) : Nat → Option (CtrDrbg × List Byte)
  | 0 => some (c, out)
  | n + 1 => do
    let c := inc c
    let b ← c.blockEnc.setKey c.key
    let t ← b.encrypt (out.drop (16 * i)) c.v
    readLoop { c with blockEnc := b } (out.take (16 * i) ++ t) (i + 1) n

/-- ctr_drbg.go:135-139: the update with additional data, if there is any. -/
def readPre (c : CtrDrbg) (ad sb : List Byte) : Option CtrDrbg :=
  if 0 < ad.length then update c sb else some c

/-- ctr_drbg.go:131-156 `ReadWithAdditionalData`: the object, the new contents of `out` and the count;
the error is always nil. -/
def readAD (c : CtrDrbg) (out ad : List Byte) : Option (CtrDrbg × List Byte × Nat) := do
  let sb := if 0 < ad.length then ad.take 48 ++ List.replicate (48 - (ad.take 48).length) 0 else List.replicate 48 0
  let c ← readPre c ad sb
  let blocks := out.length / 16
  let (c, out) ← readLoop c out 0 blocks
  let t ← c.blockEnc.encrypt c.tmpBlk c.v
  let c := { c with tmpBlk := t }
  let out := out.take (blocks * 16) ++ t.take (out.length % 16)
  let c ← update c sb
  some ({ c with counter := c.counter + 1 }, out, out.length)

/-- ctr_drbg.go:160-162 `Read` -/
def read (c : CtrDrbg) (out : List Byte) : Option (CtrDrbg × List Byte × Nat) := readAD c out []

/-- The calls of the API.  A read of `n` bytes is into any buffer of that length. -/
inductive Call where
  | init (entropy personalization : List Byte)
  | reseed (entropy data : List Byte)
  | read (out ad : List Byte)

inductive Res where
  | inited (ok : Bool)
  | unit
  | bytes (out : List Byte) (n : Nat)
  deriving DecidableEq, Repr

def call (c : CtrDrbg) : Call → Option (CtrDrbg × Res)
  | .init e p => (init c e p).map fun (c, b) => (c, .inited b)
  | .reseed e d => (reseed c e d).map fun c => (c, .unit)
  | .read out ad => (readAD c out ad).map fun (c, o, n) => (c, .bytes o n)

def run (c : CtrDrbg) : List Call → Option (CtrDrbg × List Res)
  | [] => some (c, [])
  | x :: xs => do
    let (c, r) ← call c x
    let (c, rs) ← run c xs
    some (c, r :: rs)

end Model.DRBG
