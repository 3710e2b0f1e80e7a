import Verif.Model.Bytes
import Verif.Model.KeccakGen
/-
Model of the Go package hash/sha3 (sha3.go, shake.go, xor.go, xor_generic.go, xor_unaligned.go).
Methods take the object and return the result together with the new object; `none` is a panic.
-/
namespace Model.Sha3

/-- hash/sha3/sha3.go:30 `maxRate`. -/
def maxRate : Nat := 168

/-- The `state` struct, hash/sha3/sha3.go:45-62.  `a` is the permutation state, `data` the bytes of
the `storageBuf` (168 of them), `desc.r`/`desc.d` are `rate`/`dsize` (the name is not modelled). -/
structure State where
  rate : Nat
  dsize : Nat
  a : Vector W64 25
  sfx : Byte
  data : List Byte
  idx : Nat
  isSquezing : Bool
  deriving DecidableEq, Repr

/-- The platform-dependent functions the package calls through variables or build tags. -/
structure Plat where
  xorIn : Vector W64 25 → List Byte → Option (Vector W64 25)
  copyOut : Vector W64 25 → List Byte → Option (List Byte)
  keccakF : Vector W64 25 → Vector W64 25

/-- hash/sha3/xor_generic.go:15-19, the loop of `xorInGeneric`: `n` iterations left, at index `i`. -/
def xorInLoop (a : Vector W64 25) (buf : List Byte) (i : Nat) : Nat → Option (Vector W64 25)
  | 0 => some a
  | n + 1 => do
    let w ← leUint64 buf
    if h : i < 25 then
      let buf' ← sliceFrom buf 8
      xorInLoop (a.set i (a[i] ^^^ w)) buf' (i + 1) n
    else none

/-- hash/sha3/xor_generic.go:12-20 `xorInGeneric`. -/
def xorInGeneric (a : Vector W64 25) (buf : List Byte) : Option (Vector W64 25) :=
  xorInLoop a buf 0 (buf.length / 8)

/-- hash/sha3/xor_generic.go:24-27, the loop of `copyOutGeneric`: bytes written so far are returned
in front of the untouched tail shorter than 8 bytes.  `fuel` bounds the iterations by `len(b)`. -/
def copyOutLoop (a : Vector W64 25) (b : List Byte) (i : Nat) : Nat → Option (List Byte)
  | 0 => some b
  | fuel + 1 =>
    if 8 ≤ b.length then
      if h : i < 25 then do
        let rest ← copyOutLoop a (b.drop 8) (i + 1) fuel
        some (leBytes64 a[i] ++ rest)
      else none
    else some b

/-- hash/sha3/xor_generic.go:23-28 `copyOutGeneric`: the new contents of `b`. -/
def copyOutGeneric (a : Vector W64 25) (b : List Byte) : Option (List Byte) :=
  copyOutLoop a b 0 b.length

/-- The little-endian memory image of the permutation state (what `unsafe.Pointer(&d.a[0])` sees on
the little-endian targets amd64, 386, ppc64le). -/
def laneBytes (a : Vector W64 25) : List Byte := a.toList.flatMap leBytes64

/-- Word `i` of a buffer seen through `unsafe.Pointer(&buf[0])`; panics when `i ≥ len(buf)/8`. -/
def bw (buf : List Byte) (i : Nat) : Option W64 :=
  if i < buf.length / 8 then leUint64 (buf.drop (8 * i)) else none

/-- `d.a[i] ^= bw[i]`. -/
def xorWord (buf : List Byte) (a : Vector W64 25) (i : Nat) : Option (Vector W64 25) := do
  let w ← bw buf i
  if h : i < 25 then some (a.set i (a[i] ^^^ w)) else none

/-- `if n >= m { d.a[i] ^= bw[i] for the listed i }`. -/
def xorGroup (buf : List Byte) (m : Nat) (is : List Nat) (a : Vector W64 25) : Option (Vector W64 25) :=
  if m ≤ buf.length then is.foldlM (xorWord buf) a else some a

/-- hash/sha3/xor_unaligned.go:21-55 `xorInUnaligned`.  `&buf[0]` panics on an empty buffer. -/
def xorInUnaligned (a : Vector W64 25) (buf : List Byte) : Option (Vector W64 25) := do
  if buf.length = 0 then none
  let a ← xorGroup buf 72 [0, 1, 2, 3, 4, 5, 6, 7, 8] a
  let a ← xorGroup buf 104 [9, 10, 11, 12] a
  let a ← xorGroup buf 136 [13, 14, 15, 16] a
  let a ← xorGroup buf 144 [17] a
  xorGroup buf 168 [18, 19, 20] a

/-- hash/sha3/xor_unaligned.go:57-60 `copyOutUnaligned`: `copy(buf, ab[:])` where `ab` is the first
168 bytes of the state. -/
def copyOutUnaligned (a : Vector W64 25) (b : List Byte) : Option (List Byte) :=
  some (goCopy b ((laneBytes a).take maxRate))

/-- hash/sha3/xor.go and keccakf.go: the portable build. -/
def platGeneric : Plat := ⟨xorInGeneric, copyOutGeneric, keccakF1600⟩

/-- hash/sha3/xor_unaligned.go with the Go permutation (targets 386, ppc64le, and amd64 with the tag
`noasm`). -/
def platUnaligned : Plat := ⟨xorInUnaligned, copyOutUnaligned, keccakF1600⟩

variable (P : Plat)

/-- hash/sha3/sha3.go:80-90 `Reset`. -/
def reset (d : State) : State :=
  { d with a := Vector.replicate 25 0, data := List.replicate maxRate 0, isSquezing := false, idx := 0 }

/-- hash/sha3/sha3.go:122-126, the loop over whole blocks in `Write`; returns the unprocessed tail.
(With `rate = 0` the Go loop would not end; no descriptor has rate 0.) -/
def writeLoop (rate : Nat) (a : Vector W64 25) (input : List Byte) :
    Option (Vector W64 25 × List Byte) :=
  if h : 0 < rate ∧ rate ≤ input.length then do
    let a' ← P.xorIn a (input.take rate)
    writeLoop rate (P.keccakF a') (input.drop rate)
  else some (a, input)
termination_by input.length
decreasing_by simp only [List.length_drop]; omega

/-- The result of `Write`. `ErrWriteAfterRead` is the only error. -/
inductive Err | writeAfterRead
  deriving DecidableEq, Repr

/-- hash/sha3/sha3.go:97-133 `Write`. -/
def write (c : State) (input : List Byte) : Option (State × Nat × Option Err) :=
  if c.isSquezing then some (c, 0, some .writeAfterRead)
  else
    let rate := c.rate
    let buf := c.data
    let processLen := c.idx + input.length
    if processLen < rate then do
      let buf ← copyFrom buf c.idx input
      some ({ c with data := buf, idx := processLen }, input.length, none)
    else do
      let fbLen := rate - c.idx
      let first ← sliceTo input fbLen
      let buf ← copyFrom buf c.idx first
      let a ← P.xorIn c.a buf
      let a := P.keccakF a
      let rest ← sliceFrom input fbLen
      let (a, rest) ← writeLoop P rate a rest
      let buf ← copyFrom buf 0 rest
      some ({ c with a := a, data := buf, idx := rest.length }, input.length, none)

/-- hash/sha3/sha3.go:135-151 `finalize_sha3`. -/
def finalize (c : State) : Option State := do
  let rate := c.rate
  -- for i := c.idx + 1; i < rate; i++ { buf[i] = 0 }
  let buf ← if c.idx + 1 ≤ rate then copyFrom c.data (c.idx + 1) (List.replicate (rate - (c.idx + 1)) 0)
            else some c.data
  let buf ← setAt buf c.idx c.sfx
  if rate = 0 then none
  let buf ← setAt buf (rate - 1) (buf.getD (rate - 1) 0 ||| 0x80)
  let blk ← sliceTo buf rate
  let a ← P.xorIn c.a blk
  let a := P.keccakF a
  let out ← P.copyOut a blk
  let buf ← copyFrom buf 0 out
  some { c with a := a, data := buf, idx := rate, isSquezing := true }

/-- hash/sha3/sha3.go:178-183, the loop over whole output blocks in `Read`: `n` blocks left; returns
the new contents of those blocks of `out` and the rest of `out`. -/
def readLoop (rate : Nat) (a : Vector W64 25) (out : List Byte) :
    Nat → Option (Vector W64 25 × List Byte × List Byte)
  | 0 => some (a, [], out)
  | n + 1 => do
    let a := P.keccakF a
    let blk ← sliceTo out rate
    let blk ← P.copyOut a blk
    let rest ← sliceFrom out rate
    let (a, done, rest) ← readLoop rate a rest n
    some (a, blk ++ done, rest)

/-- hash/sha3/sha3.go:155-191 `Read`: `out` is the caller's buffer, the list returned is its new
contents.  The error is always nil and is left out. -/
def read (c : State) (out : List Byte) : Option (State × List Byte × Nat) := do
  let rate := c.rate
  let nread := out.length
  let c ← if c.isSquezing then some c else finalize P c
  let l := min c.idx out.length
  if rate < c.idx then none
  let src ← sliceFrom c.data (rate - c.idx)
  let src ← sliceTo src l
  let done := src              -- copy(out, src): the first l bytes of out
  let out := out.drop l
  let c := { c with idx := c.idx - l }
  if out.length = 0 then
    some (c, done, nread)
  else do
    if rate = 0 then none
    let (a, blocks, out) ← readLoop P rate c.a out (out.length / rate)
    let a := P.keccakF a
    let buf ← P.copyOut a c.data
    let last ← sliceTo buf out.length
    some ({ c with a := a, data := buf, idx := rate - out.length }, done ++ blocks ++ last, nread)

/-- hash/sha3/sha3.go:195-211 `Sum`.  The result is `in` followed by `Size()` bytes read from the
object (the capacity juggling only decides where they are stored; bytes of `in` beyond its length
are scratch for `Read`, here zeros). -/
def sum (c : State) (input : List Byte) : Option (State × List Byte) := do
  let (c, out, _) ← read P c (List.replicate c.dsize 0)
  some (c, input ++ out)

/-- hash/sha3/shake.go:102-105 `Clone`: a copy of the struct (all fields are values). -/
def clone (c : State) : State := c

/-- A zero-valued `state` with the given descriptor and suffix. -/
def newState (rate dsize : Nat) (sfx : Byte) : State :=
  { rate, dsize, sfx, a := Vector.replicate 25 0, data := List.replicate maxRate 0, idx := 0,
    isSquezing := false }

/-- hash/sha3/sha3.go:35-42 `Sha3Desc`: (r, d) by identifier. -/
def sha3Desc : Nat → Nat × Nat
  | 0 => (144, 28) | 1 => (136, 32) | 2 => (104, 48) | 3 => (72, 64) | 4 => (168, 0) | 5 => (136, 0)
  | _ => (0, 0)

def newDesc (id : Nat) (sfx : Byte) : State := newState (sha3Desc id).1 (sha3Desc id).2 sfx

/-- hash/sha3/sha3.go:231-254 `New224` … `New512`. -/
def new224 : State := newDesc 0 0x06
def new256 : State := newDesc 1 0x06
def new384 : State := newDesc 2 0x06
def new512 : State := newDesc 3 0x06
/-- hash/sha3/shake.go:110-119 `NewShake128`, `NewShake256`. -/
def newShake128 : State := newDesc 4 0x1f
def newShake256 : State := newDesc 5 0x1f

/-- hash/sha3/shake.go:61-72 `leftEncode`: skip leading zero bytes but keep the last one. -/
def leftEncodeSkip (b : List Byte) (i : Nat) : Nat → Nat
  | 0 => i
  | fuel + 1 => if i < 8 ∧ b.getD i 0 = 0 then leftEncodeSkip b (i + 1) fuel else i

def leftEncode (value : W64) : List Byte :=
  let b : List Byte := 0 :: beBytes64 value
  let i := leftEncodeSkip b 1 8
  let b := b.set (i - 1) (BitVec.ofNat 8 (9 - i))
  b.drop (i - 1)

/-- hash/sha3/shake.go:52-59 `bytepad` (`w > 0`, otherwise the division panics). -/
def bytepad (input : List Byte) (w : Nat) : Option (List Byte) :=
  if w = 0 then none
  else
    let buf := leftEncode (BitVec.ofNat 64 w) ++ input
    let padlen := w - buf.length % w
    some (buf ++ List.replicate padlen 0)

/-- hash/sha3/shake.go:34-42 `cshakeState`. -/
structure CState where
  st : State
  initBlock : List Byte
  deriving DecidableEq, Repr

/-- hash/sha3/shake.go:78-82: the encoded names (`uint64(len(N)*8)`). -/
def encodeNames (N S : List Byte) : List Byte :=
  leftEncode (BitVec.ofNat 64 (N.length * 8)) ++ N ++ leftEncode (BitVec.ofNat 64 (S.length * 8)) ++ S

/-- hash/sha3/shake.go:74-86 `newCShake`. -/
def newCShake (N S : List Byte) (sfx : Byte) (id : Nat) : Option CState := do
  let st := newDesc id sfx
  let ib ← bytepad (encodeNames N S) st.rate
  let (st, _, _) ← write P st ib
  some { st, initBlock := ib }

/-- hash/sha3/shake.go:89-92 `(*cshakeState).Reset`. -/
def creset (c : CState) : Option CState := do
  let (st, _, _) ← write P (reset c.st) c.initBlock
  some { c with st }

/-- hash/sha3/shake.go:95-99 `(*cshakeState).Clone`. -/
def cclone (c : CState) : CState := { st := c.st, initBlock := c.initBlock }

/-- A `ShakeHash` interface value: plain or customised. -/
inductive Shake | plain (s : State) | custom (c : CState)
  deriving DecidableEq, Repr

/-- hash/sha3/shake.go:127-132, 140-145 `NewCShake128`, `NewCShake256`. -/
def newCShake128 (N S : List Byte) : Option Shake :=
  if N.length = 0 ∧ S.length = 0 then some (.plain newShake128)
  else (newCShake P N S 0x04 4).map .custom
def newCShake256 (N S : List Byte) : Option Shake :=
  if N.length = 0 ∧ S.length = 0 then some (.plain newShake256)
  else (newCShake P N S 0x04 5).map .custom

/-- hash/sha3/shake.go:148-152 `ShakeSum128`: the new contents of `hash`. -/
def shakeSum128 (hash data : List Byte) : Option (List Byte) := do
  let (h, _, _) ← write P newShake128 data
  let (_, out, _) ← read P h hash
  some out
/-- hash/sha3/shake.go:155-159 `ShakeSum256`. -/
def shakeSum256 (hash data : List Byte) : Option (List Byte) := do
  let (h, _, _) ← write P newShake256 data
  let (_, out, _) ← read P h hash
  some out

end Model.Sha3
