import Verif.Model.AESTab
/-
Model of drbg/internal/aes: the portable cipher (cipher.go, generic.go).  `none` is a panic.
Source and destination buffers are values here; Model/AESMem has the overlap check (tools.go) and the methods on a memory.
-/
namespace Model.AES
open Model

/-- `uint8(x>>24)`, `uint8(x>>16)`, `uint8(x>>8)`, `uint8(x)`; also the indices `x>>24`, `x>>16&0xff`,
`x>>8&0xff`, `x&0xff`. -/
def b3 (x : W32) : Byte := x.extractLsb' 24 8
def b2 (x : W32) : Byte := x.extractLsb' 16 8
def b1 (x : W32) : Byte := x.extractLsb' 8 8
def b0 (x : W32) : Byte := x.extractLsb' 0 8

/-- `uint32(a)<<24 | uint32(b)<<16 | uint32(c)<<8 | uint32(d)` -/
def pack (a b c d : Byte) : W32 :=
  (a.setWidth 32 <<< 24) ||| (b.setWidth 32 <<< 16) ||| (c.setWidth 32 <<< 8) ||| d.setWidth 32

/-- `binary.BigEndian.Uint32(b)` (Go standard library). -/
def beUint32 : List Byte → Option W32
  | a :: b :: c :: d :: _ => some (pack a b c d)
  | _ => none
/-- `binary.BigEndian.PutUint32`: the bytes written. -/
def beBytes32 (x : W32) : List Byte := [b3 x, b2 x, b1 x, b0 x]

/-- The four words s0 … s3. -/
structure Quad where
  s0 : W32
  s1 : W32
  s2 : W32
  s3 : W32
  deriving DecidableEq

/-- generic.go:46-49, 92-95: `src[0:4]`, … as big-endian words. -/
def loadQuad (src : List Byte) : Option Quad := do
  let s0 ← beUint32 src
  let s1 ← beUint32 (src.drop 4)
  let s2 ← beUint32 (src.drop 8)
  let s3 ← beUint32 (src.drop 12)
  some ⟨s0, s1, s2, s3⟩

/-- `xk[k]` … `xk[k+3]` -/
def keyQuad (xk : List W32) (k : Nat) : Option Quad := do
  let a ← xk[k]?
  let b ← xk[k + 1]?
  let c ← xk[k + 2]?
  let d ← xk[k + 3]?
  some ⟨a, b, c, d⟩

def Quad.xor (a b : Quad) : Quad := ⟨a.s0 ^^^ b.s0, a.s1 ^^^ b.s1, a.s2 ^^^ b.s2, a.s3 ^^^ b.s3⟩

/-- generic.go:63-66, one middle round of encryption without the key. -/
def encMid (s : Quad) : Quad :=
  ⟨at8 te0 (b3 s.s0) ^^^ at8 te1 (b2 s.s1) ^^^ at8 te2 (b1 s.s2) ^^^ at8 te3 (b0 s.s3),
   at8 te0 (b3 s.s1) ^^^ at8 te1 (b2 s.s2) ^^^ at8 te2 (b1 s.s3) ^^^ at8 te3 (b0 s.s0),
   at8 te0 (b3 s.s2) ^^^ at8 te1 (b2 s.s3) ^^^ at8 te2 (b1 s.s0) ^^^ at8 te3 (b0 s.s1),
   at8 te0 (b3 s.s3) ^^^ at8 te1 (b2 s.s0) ^^^ at8 te2 (b1 s.s1) ^^^ at8 te3 (b0 s.s2)⟩

/-- generic.go:72-75, last round of encryption without the key. -/
def encLast (t : Quad) : Quad :=
  ⟨pack (at8 sbox0 (b3 t.s0)) (at8 sbox0 (b2 t.s1)) (at8 sbox0 (b1 t.s2)) (at8 sbox0 (b0 t.s3)),
   pack (at8 sbox0 (b3 t.s1)) (at8 sbox0 (b2 t.s2)) (at8 sbox0 (b1 t.s3)) (at8 sbox0 (b0 t.s0)),
   pack (at8 sbox0 (b3 t.s2)) (at8 sbox0 (b2 t.s3)) (at8 sbox0 (b1 t.s0)) (at8 sbox0 (b0 t.s1)),
   pack (at8 sbox0 (b3 t.s3)) (at8 sbox0 (b2 t.s0)) (at8 sbox0 (b1 t.s1)) (at8 sbox0 (b0 t.s2))⟩

/-- generic.go:109-112 -/
def decMid (s : Quad) : Quad :=
  ⟨at8 td0 (b3 s.s0) ^^^ at8 td1 (b2 s.s3) ^^^ at8 td2 (b1 s.s2) ^^^ at8 td3 (b0 s.s1),
   at8 td0 (b3 s.s1) ^^^ at8 td1 (b2 s.s0) ^^^ at8 td2 (b1 s.s3) ^^^ at8 td3 (b0 s.s2),
   at8 td0 (b3 s.s2) ^^^ at8 td1 (b2 s.s1) ^^^ at8 td2 (b1 s.s0) ^^^ at8 td3 (b0 s.s3),
   at8 td0 (b3 s.s3) ^^^ at8 td1 (b2 s.s2) ^^^ at8 td2 (b1 s.s1) ^^^ at8 td3 (b0 s.s0)⟩

/-- generic.go:118-121 -/
def decLast (t : Quad) : Quad :=
  ⟨pack (at8 sbox1 (b3 t.s0)) (at8 sbox1 (b2 t.s3)) (at8 sbox1 (b1 t.s2)) (at8 sbox1 (b0 t.s1)),
   pack (at8 sbox1 (b3 t.s1)) (at8 sbox1 (b2 t.s0)) (at8 sbox1 (b1 t.s3)) (at8 sbox1 (b0 t.s2)),
   pack (at8 sbox1 (b3 t.s2)) (at8 sbox1 (b2 t.s1)) (at8 sbox1 (b1 t.s0)) (at8 sbox1 (b0 t.s3)),
   pack (at8 sbox1 (b3 t.s3)) (at8 sbox1 (b2 t.s2)) (at8 sbox1 (b1 t.s1)) (at8 sbox1 (b0 t.s0))⟩

/-- generic.go:62-69 (and 108-115 with `decMid`): `n` iterations left, `k` the key index.  Returns the
last round's result and the final `k`. -/
def midRounds (mid : Quad → Quad) (xk : List W32) (s : Quad) (k : Nat) : Nat → Option (Quad × Nat)
  | 0 => some (s, k)
  | n + 1 => do
    let kq ← keyQuad xk k
    midRounds mid xk (kq.xor (mid s)) (k + 4) n

/-- generic.go:44-87 `encryptBlockGo` / 90-133 `decryptBlockGo`: the sixteen bytes written to `dst`.
The code keeps the last round's value in t0 … t3, zero when there is no middle round; with at least
28 schedule words there always is one. -/
def cryptBlock (mid last : Quad → Quad) (xk : List W32) (src : List Byte) : Option (List Byte) := do
  let s ← loadQuad src
  let k0 ← keyQuad xk 0
  let s := s.xor k0
  let nr := xk.length / 4 - 2
  let (t, k) ← midRounds mid xk s 4 nr
  let t := if nr = 0 then ⟨0, 0, 0, 0⟩ else t
  let kq ← keyQuad xk k
  let s := (last t).xor kq
  some (beBytes32 s.s0 ++ beBytes32 s.s1 ++ beBytes32 s.s2 ++ beBytes32 s.s3)

def encryptBlockGo := cryptBlock encMid encLast
def decryptBlockGo := cryptBlock decMid decLast

/-- generic.go:136-141 `subw` -/
def subw (w : W32) : W32 :=
  pack (at8 sbox0 (b3 w)) (at8 sbox0 (b2 w)) (at8 sbox0 (b1 w)) (at8 sbox0 (b0 w))
/-- generic.go:144 `rotw` -/
def rotw (w : W32) : W32 := (w <<< 8) ||| (w >>> 24)

/-- generic.go:152-154: the first loop; `n` words left, at word `i`. -/
def loadKey (key : List Byte) (enc : List W32) (i : Nat) : Nat → Option (List W32)
  | 0 => some enc
  | n + 1 => do
    let x ← beUint32 (key.drop (4 * i))
    if i < enc.length then loadKey key (enc.set i x) (i + 1) n else none

/-- generic.go:157-161: the value of `t` after the conditional. -/
def expandTemp (nk i : Nat) (t : W32) : Option W32 :=
  if i % nk = 0 then (powx[i / nk - 1]?).map fun (p : Byte) => subw (rotw t) ^^^ ((p.setWidth 32 : W32) <<< 24)
  else if 6 < nk ∧ i % nk = 4 then some (subw t)
  else some t

/-- generic.go:155-163: the second loop; `n` words left, at word `i`. -/
def expandLoop (nk : Nat) (enc : List W32) (i : Nat) : Nat → Option (List W32)
  | 0 => some enc
  | n + 1 => do
    let t ← enc[i - 1]?
    let t ← expandTemp nk i t
    let e ← enc[i - nk]?
    if i < enc.length then expandLoop nk (enc.set i (e ^^^ t)) (i + 1) n else none

/-- generic.go:177: the inverse MixColumns by table. -/
def imc (x : W32) : W32 :=
  at8 td0 (at8 sbox0 (b3 x)) ^^^ at8 td1 (at8 sbox0 (b2 x)) ^^^ at8 td2 (at8 sbox0 (b1 x)) ^^^ at8 td3 (at8 sbox0 (b0 x))

/-- generic.go:171-181: `dec[i+j]` for round key `q` = i/4 of `n4` = n/4 (`n` is a multiple of 4). -/
def decKey (enc : List W32) (n4 q : Nat) : Option (List W32) := do
  let k ← keyQuad enc (4 * (n4 - q - 1))
  if 0 < q ∧ q + 1 < n4 then some [imc k.s0, imc k.s1, imc k.s2, imc k.s3]
  else some [k.s0, k.s1, k.s2, k.s3]

/-- generic.go:148-182 `expandKeyGo` for zeroed `enc`, `dec` of `n` words: the two schedules.  The
words of `dec` are written once each, in order. -/
def expandKeyGo (key : List Byte) (n : Nat) : Option (List W32 × List W32) := do
  let nk := key.length / 4
  let enc ← loadKey key (List.replicate n 0) 0 nk
  let enc ← expandLoop nk enc nk (n - nk)
  let dec ← (List.range (n / 4)).mapM (decKey enc (n / 4))
  some (enc, dec.flatten)

/-- cipher.go:15-19 `AES`: `enc` and `dec` are arrays of 60 words. -/
structure AES where
  enc : List W32
  dec : List W32
  keyLen : Nat
  deriving DecidableEq

/-- cipher.go:34-36 `NewCipher`, and `&aes.AES{}`. -/
def AES.new : AES := ⟨List.replicate 60 0, List.replicate 60 0, 0⟩

/-- cipher.go:42-61 `SetKey`: the object and the error (`some k` is `KeySizeError(k)`). -/
def AES.setKey (c : AES) (key : List Byte) : Option (AES × Option Nat) :=
  let k := key.length
  if k = 16 ∨ k = 24 ∨ k = 32 then do
    let (e, d) ← expandKeyGo key (k + 28)
    some (⟨e ++ List.replicate (60 - (k + 28)) 0, d ++ List.replicate (60 - (k + 28)) 0, k⟩, none)
  else some (c, some k)

/-- cipher.go:65-76 `Encrypt`: the new contents of `dst`. -/
def AES.encrypt (c : AES) (dst src : List Byte) : Option (List Byte) :=
  if src.length < 16 ∨ dst.length < 16 then none
  else do
    let o ← encryptBlockGo (c.enc.take (c.keyLen + 28)) src
    some (o ++ dst.drop 16)

/-- cipher.go:78-88 `Decrypt` -/
def AES.decrypt (c : AES) (dst src : List Byte) : Option (List Byte) :=
  if src.length < 16 ∨ dst.length < 16 then none
  else do
    let o ← decryptBlockGo (c.dec.take (c.keyLen + 28)) src
    some (o ++ dst.drop 16)

end Model.AES
