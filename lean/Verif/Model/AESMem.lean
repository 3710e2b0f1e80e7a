import Verif.Model.AESArm
/-
Model of drbg/internal/aes/tools.go and of the block methods on a memory of bytes, where the source and the destination may
overlap.  `none` is a panic.  The cipher object itself is kept apart from that memory: a `[]byte` cannot alias its words.
-/
namespace Model.AES
open Model
open Xmm

/-- A `[]byte`: the address of its first byte and its length. -/
structure Slice where
  ptr : W64
  len : Nat
  deriving DecidableEq

/-- `&s[i]` as a uintptr -/
def Slice.addr (s : Slice) (i : Nat) : W64 := s.ptr + BitVec.ofNat 64 i
/-- `s[:n]` -/
def Slice.upto (s : Slice) (n : Nat) : Slice := ⟨s.ptr, n⟩

/-- tools.go:17-21 `AnyOverlap` -/
def anyOverlap (x y : Slice) : Bool :=
  decide (0 < x.len) && decide (0 < y.len) && decide (x.addr 0 ≤ y.addr (y.len - 1)) && decide (y.addr 0 ≤ x.addr (x.len - 1))

/-- tools.go:29-34 `InexactOverlap` -/
def inexactOverlap (x y : Slice) : Bool :=
  if x.len = 0 ∨ y.len = 0 ∨ x.addr 0 = y.addr 0 then false else anyOverlap x y

/-- The bytes in memory. -/
abbrev Mem := W64 → Byte

/-- The contents of a slice. -/
def Mem.read (m : Mem) (s : Slice) : List Byte := (List.range s.len).map fun i => m (s.addr i)
/-- Writing bytes from an address on, one after the other. -/
def Mem.write (m : Mem) (a : W64) : List Byte → Mem
  | [] => m
  | b :: bs => Mem.write (fun p => if p = a then b else m p) (a + 1) bs

/-- The body common to cipher.go:64-88 and cipher_asm.go:45-69: the three checks, then `f`, which reads the source, and the
sixteen bytes written to the destination.  generic.go:46-49 and both assembly files read the whole block before they write. -/
def blockMem (f : List Byte → Option (List Byte)) (m : Mem) (dst src : Slice) : Option Mem :=
  if src.len < 16 then none
  else if dst.len < 16 then none
  else if inexactOverlap (dst.upto 16) (src.upto 16) then none
  else do
    let o ← f (m.read src)
    some (m.write dst.ptr o)

/-- cipher.go:64-75 `Encrypt` -/
def AES.encryptMem (c : AES) : Mem → Slice → Slice → Option Mem := blockMem (encryptBlockGo (c.enc.take (c.keyLen + 28)))
/-- cipher.go:77-88 `Decrypt` -/
def AES.decryptMem (c : AES) : Mem → Slice → Slice → Option Mem := blockMem (decryptBlockGo (c.dec.take (c.keyLen + 28)))

/-- cipher_asm.go:45-56 `Encrypt` on amd64 -/
def AESAsm.encryptMem (c : AESAsm) : Mem → Slice → Slice → Option Mem :=
  blockMem fun src => do let s ← load src; let x ← encryptBlockAsm (60 / 4 - 1) c.enc s; some x.bytes
/-- cipher_asm.go:58-69 `Decrypt` on amd64 -/
def AESAsm.decryptMem (c : AESAsm) : Mem → Slice → Slice → Option Mem :=
  blockMem fun src => do let s ← load src; let x ← decryptBlockAsm (60 / 4 - 1) c.dec s; some x.bytes
/-- cipher_asm.go:45-56 `Encrypt` on arm64 -/
def AESAsm.encryptMemArm (c : AESAsm) : Mem → Slice → Slice → Option Mem :=
  blockMem fun src => do let s ← load src; let x ← encryptBlockArm (60 / 4 - 1) c.enc s; some x.bytes
/-- cipher_asm.go:58-69 `Decrypt` on arm64 -/
def AESAsm.decryptMemArm (c : AESAsm) : Mem → Slice → Slice → Option Mem :=
  blockMem fun src => do let s ← load src; let x ← decryptBlockArm (60 / 4 - 1) c.dec s; some x.bytes

end Model.AES
