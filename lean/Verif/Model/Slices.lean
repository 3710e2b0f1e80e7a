import Verif.Model.Sha3Calls
import Verif.Model.SidhKeys
import Verif.Model.DRBG
/-
Functions whose behaviour depends on where a slice argument lies: on the capacity behind its length, or on an overlap
with another argument.

Elsewhere in the model a slice is the list of its elements and a slice expression with a bound above the length panics.
In Go the bound is the capacity.  A function of the model that never panics does not come to a bound above the length, so
for it the capacity does not matter.  Of the functions with slice arguments these are left: `Sum`, which uses the capacity
on purpose, and `PublicKey.Export` of dh/sidh, which panics in the model if the slice is too short.
-/
namespace Model.Slices
open Model

/-- A slice that is not nil: the memory from its first byte to its capacity, and its length. -/
structure Slice where
  mem : List Byte
  len : Nat
  fits : len ≤ mem.length

/-- The elements. -/
def Slice.bytes (s : Slice) : List Byte := s.mem.take s.len

/-- `copy(mem[i:], b)` for `b` that fits -/
def putAt (mem : List Byte) (i : Nat) (b : List Byte) : List Byte := mem.take i ++ b ++ mem.drop (i + b.length)

/-! ### hash/sha3 -/
section
open Model.Sha3
variable (P : Plat)

/-- What `Sum` leaves: the object, the slice it returns, and the memory of the argument. -/
structure SumRes where
  st : State
  result : List Byte
  mem : List Byte

/-- hash/sha3/sha3.go:195-211 `Sum`; `none` as argument is nil.  `append(in[:cap(in)], b...)` with a nonempty `b` goes to a
new array. -/
def sumC (c : State) (s : Option Slice) : Option SumRes := do
  let l := match s with | none => 0 | some s => s.len
  let own := match s with | none => [] | some s => s.mem
  let (buf, inPlace) := match s with | none => (List.replicate c.dsize 0, false) | some s => (s.mem, true)
  let (buf, inPlace) :=
    if buf.length < l + c.dsize then (buf ++ List.replicate (l + c.dsize - buf.length) 0, false) else (buf, inPlace)
  let (st, out, _) ← Model.Sha3.read P c ((buf.drop l).take c.dsize)
  let buf := putAt buf l out
  some ⟨st, buf.take (l + c.dsize), if inPlace then buf else own⟩

end

/-! ### dh/sidh -/
section
open Model.Sidh

/-- sidh.go:123-125: `Fp2ToBytes(out[i*sz:(i+1)*sz], ...)` for the coordinates from number `i` on.  The memory and whether
it returned; `false` is a panic, at a slice expression beyond the capacity or in `Fp2ToBytes`. -/
def exportParts (sz bytelen : Nat) : List Fp2 → Nat → List Byte → List Byte × Bool
  | [], _, mem => (mem, true)
  | x :: xs, i, mem =>
    if mem.length < (i + 1) * sz then (mem, false)
    else
      match fp2ToBytes ((mem.drop (i * sz)).take sz) x bytelen with
      | none => (mem, false)
      | some b => exportParts sz bytelen xs (i + 1) (putAt mem (i * sz) b)

/-- sidh.go:104-126 `PublicKey.Export` -/
def exportC (k : PublicKey) (s : Slice) : List Byte × Bool :=
  match pkg k.params.id with
  | none => (s.mem, false)
  | some g =>
    let m := fromMontgomery g.prime
    exportParts k.params.sharedSecretSize k.params.bytelen [m k.pts.p, m k.pts.q, m k.pts.r] 0 s.mem

end

/-! ### drbg -/
section
open Model.DRBG

/-- Bytes `o` to `o + n` of the memory. -/
def window (mem : List Byte) (o n : Nat) : List Byte := (mem.drop o).take n

/-- ctr_drbg.go:143-147: the loop over whole blocks at block `i`, `n` left; `out` is the window of `len` bytes at `o`. -/
def readLoopM (c : CtrDrbg) (mem : List Byte) (o len i : Nat) : Nat → Option (CtrDrbg × List Byte)
  | 0 => some (c, mem)
  | n + 1 => do
    let c := inc c
    let b ← c.blockEnc.setKey c.key
    let t ← b.encrypt (window mem (o + 16 * i) (len - 16 * i)) c.v
    readLoopM { c with blockEnc := b } (putAt mem (o + 16 * i) t) o len (i + 1) n

/-- ctr_drbg.go:131-156 `ReadWithAdditionalData(out, ad)`: `out` is the window of `n` bytes at `o`, `ad` the window of `k`
bytes at `a` of the same memory.  The object and the memory. -/
def readADM (c : CtrDrbg) (mem : List Byte) (o n a k : Nat) : Option (CtrDrbg × List Byte) := do
  let ad := window mem a k
  let sb := if 0 < ad.length then ad.take 48 ++ List.replicate (48 - (ad.take 48).length) 0 else List.replicate 48 0
  let c ← readPre c ad sb
  let blocks := n / 16
  let (c, mem) ← readLoopM c mem o n 0 blocks
  let t ← c.blockEnc.encrypt c.tmpBlk c.v
  let c := { c with tmpBlk := t }
  let mem := putAt mem (o + blocks * 16) (t.take (n % 16))
  let c ← update c sb
  some ({ c with counter := c.counter + 1 }, mem)

end

end Model.Slices
