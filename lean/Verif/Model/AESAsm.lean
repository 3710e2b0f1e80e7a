import Verif.Model.AES
import Verif.Spec.AES
/-
Model of drbg/internal/aes/cipher_asm.go and asm_amd64.s: the AES-NI cipher.  The instruction
semantics follow the Intel Software Developer's Manual, vol. 2.  Memory is modelled as arrays of
16-byte blocks: every access of this code to the schedules is to a whole block.
-/
namespace Model.AES
open Model
open Spec.AES (State subBytes shiftRows mixColumns invSubBytes invShiftRows invMixColumns)

/-- An XMM register: four dwords, least significant first. -/
structure Xmm where
  d0 : W32
  d1 : W32
  d2 : W32
  d3 : W32
  deriving DecidableEq

namespace Xmm

def zero : Xmm := ⟨0, 0, 0, 0⟩
/-- Dword `i`. -/
def dw (x : Xmm) : Fin 4 → W32
  | 0 => x.d0
  | 1 => x.d1
  | 2 => x.d2
  | 3 => x.d3
/-- `PXOR` -/
def xor (a b : Xmm) : Xmm := ⟨a.d0 ^^^ b.d0, a.d1 ^^^ b.d1, a.d2 ^^^ b.d2, a.d3 ^^^ b.d3⟩
/-- The AES state held by a register: byte r of dword c. -/
def state (x : Xmm) : State := fun r c => (x.dw c).extractLsb' (8 * r.val) 8
def ofState (s : State) : Xmm :=
  ⟨s 3 0 ++ s 2 0 ++ s 1 0 ++ s 0 0, s 3 1 ++ s 2 1 ++ s 1 1 ++ s 0 1,
   s 3 2 ++ s 2 2 ++ s 1 2 ++ s 0 2, s 3 3 ++ s 2 3 ++ s 1 3 ++ s 0 3⟩
/-- `AESENC k, x` -/
def aesenc (k x : Xmm) : Xmm := (ofState (mixColumns (subBytes (shiftRows x.state)))).xor k
/-- `AESENCLAST k, x` -/
def aesenclast (k x : Xmm) : Xmm := (ofState (subBytes (shiftRows x.state))).xor k
/-- `AESDEC k, x` -/
def aesdec (k x : Xmm) : Xmm := (ofState (invMixColumns (invSubBytes (invShiftRows x.state)))).xor k
/-- `AESDECLAST k, x` -/
def aesdeclast (k x : Xmm) : Xmm := (ofState (invSubBytes (invShiftRows x.state))).xor k
/-- `AESIMC x, …` -/
def aesimc (x : Xmm) : Xmm := ofState (invMixColumns x.state)

/-- SubWord of the manual: the S-box on each byte of a dword. -/
def subDw (x : W32) : W32 :=
  Spec.AES.sbox (x.extractLsb' 24 8) ++ Spec.AES.sbox (x.extractLsb' 16 8) ++ Spec.AES.sbox (x.extractLsb' 8 8) ++
    Spec.AES.sbox (x.extractLsb' 0 8)
/-- RotWord of the manual: (x << 24) | (x >> 8) on a dword. -/
def rotDw (x : W32) : W32 := (x <<< 24) ||| (x >>> 8)
/-- `AESKEYGENASSIST $rc, x, …` -/
def keygenassist (rc : Byte) (x : Xmm) : Xmm :=
  ⟨subDw x.d1, rotDw (subDw x.d1) ^^^ rc.setWidth 32, subDw x.d3, rotDw (subDw x.d3) ^^^ rc.setWidth 32⟩
/-- The two-bit fields of an immediate. -/
def sel (imm : Byte) (k : Nat) : Fin 4 := ⟨imm.toNat / 4 ^ k % 4, Nat.mod_lt _ (by decide)⟩
/-- `PSHUFD $imm, src, …` -/
def pshufd (imm : Byte) (src : Xmm) : Xmm :=
  ⟨src.dw (sel imm 0), src.dw (sel imm 1), src.dw (sel imm 2), src.dw (sel imm 3)⟩
/-- `SHUFPS $imm, src, dst`: the new `dst`. -/
def shufps (imm : Byte) (src dst : Xmm) : Xmm :=
  ⟨dst.dw (sel imm 0), dst.dw (sel imm 1), src.dw (sel imm 2), src.dw (sel imm 3)⟩
/-- `PSLLDQ $4, x` -/
def pslldq4 (x : Xmm) : Xmm := ⟨0, x.d0, x.d1, x.d2⟩

/-- Four bytes as a little-endian dword. -/
def leDw : List Byte → Option W32
  | a :: b :: c :: d :: _ => some (d ++ c ++ b ++ a)
  | _ => none
/-- `MOVUPS (p), X` from memory holding at least sixteen bytes. -/
def load (b : List Byte) : Option Xmm := do
  let d0 ← leDw b
  let d1 ← leDw (b.drop 4)
  let d2 ← leDw (b.drop 8)
  let d3 ← leDw (b.drop 12)
  some ⟨d0, d1, d2, d3⟩
/-- `MOVQ (p), X`: eight bytes, the upper half zeroed. -/
def load8 (b : List Byte) : Option Xmm := do
  let d0 ← leDw b
  let d1 ← leDw (b.drop 4)
  some ⟨d0, d1, 0, 0⟩
/-- `MOVUPS X, (p)`: the bytes stored. -/
def bytes (x : Xmm) : List Byte :=
  let le (w : W32) : List Byte := [w.extractLsb' 0 8, w.extractLsb' 8 8, w.extractLsb' 16 8, w.extractLsb' 24 8]
  le x.d0 ++ le x.d1 ++ le x.d2 ++ le x.d3

end Xmm
open Xmm

/-- `MOVUPS 16*off(AX), X1; op X1, X0` for each offset in turn; `ax` counts blocks. -/
def xkRun (op : Xmm → Xmm → Xmm) (xk : List Xmm) (ax : Nat) : List Nat → Xmm → Option Xmm
  | [], x => some x
  | off :: offs, x => do
    let k ← xk[ax + off]?
    xkRun op xk ax offs (op k x)

/-- asm_amd64.s:10-56 `encryptBlockAsm`, 59-105 `decryptBlockAsm`: the block stored at `dst`.
`SUBQ $12, CX; JE L196; JB L128` falls through to L256 when nr > 12. -/
def cryptBlockAsm (op last : Xmm → Xmm → Xmm) (nr : Nat) (xk : List Xmm) (src : Xmm) : Option Xmm := do
  let k ← xk[0]?
  let x := src.xor k
  let ax := 1
  -- L256
  let x ← if 12 < nr then xkRun op xk ax [0, 1] x else some x
  let ax := if 12 < nr then ax + 2 else ax
  -- L196
  let x ← if 12 ≤ nr then xkRun op xk ax [0, 1] x else some x
  let ax := if 12 ≤ nr then ax + 2 else ax
  -- L128
  let x ← xkRun op xk ax [0, 1, 2, 3, 4, 5, 6, 7, 8] x
  xkRun last xk ax [9] x

def encryptBlockAsm := cryptBlockAsm aesenc aesenclast
def decryptBlockAsm := cryptBlockAsm aesdec aesdeclast

/-- The registers used by the key expansion and the blocks stored through BX so far. -/
structure ExpRegs where
  x0 : Xmm
  x1 : Xmm
  x2 : Xmm
  x4 : Xmm
  out : List Xmm

/-- asm_amd64.s:211-220 `_expand_key_128`; also `_expand_key_256a` (263-264). -/
def expand128 (g : ExpRegs) : ExpRegs :=
  let x1 := pshufd 0xff g.x1
  let x4 := shufps 0x10 g.x0 g.x4
  let x0 := g.x0.xor x4
  let x4 := shufps 0x8c x0 x4
  let x0 := x0.xor x4
  let x0 := x0.xor x1
  { g with x0, x1, x4, out := g.out ++ [x0] }

/-- asm_amd64.s:222-243 `_expand_key_192a` -/
def expand192a (g : ExpRegs) : ExpRegs :=
  let x1 := pshufd 0x55 g.x1
  let x4 := shufps 0x10 g.x0 g.x4
  let x0 := g.x0.xor x4
  let x4 := shufps 0x8c x0 x4
  let x0 := x0.xor x4
  let x0 := x0.xor x1
  let x5 := pslldq4 g.x2
  let x3 := pshufd 0xff x0
  let x2 := g.x2.xor x3
  let x2 := x2.xor x5
  let x6 := shufps 0x44 x0 g.x2
  let x1 := shufps 0x4e x2 x0
  { x0, x1, x2, x4, out := g.out ++ [x6, x1] }

/-- asm_amd64.s:245-261 `_expand_key_192b` -/
def expand192b (g : ExpRegs) : ExpRegs :=
  let x1 := pshufd 0x55 g.x1
  let x4 := shufps 0x10 g.x0 g.x4
  let x0 := g.x0.xor x4
  let x4 := shufps 0x8c x0 x4
  let x0 := x0.xor x4
  let x0 := x0.xor x1
  let x5 := pslldq4 g.x2
  let x3 := pshufd 0xff x0
  let x2 := g.x2.xor x3
  let x2 := x2.xor x5
  { x0, x1, x2, x4, out := g.out ++ [x0] }

/-- asm_amd64.s:266-276 `_expand_key_256b` -/
def expand256b (g : ExpRegs) : ExpRegs :=
  let x1 := pshufd 0xaa g.x1
  let x4 := shufps 0x10 g.x2 g.x4
  let x2 := g.x2.xor x4
  let x4 := shufps 0x8c x2 x4
  let x2 := x2.xor x4
  let x2 := x2.xor x1
  { g with x1, x2, x4, out := g.out ++ [x2] }

/-- One line `AESKEYGENASSIST $rc, X0|X2, X1; CALL …`. -/
inductive KeyIns where
  | k128 (rc : Byte)   -- AESKEYGENASSIST $rc, X0, X1; CALL _expand_key_128
  | k192a (rc : Byte)  -- AESKEYGENASSIST $rc, X2, X1; CALL _expand_key_192a
  | k192b (rc : Byte)  -- AESKEYGENASSIST $rc, X2, X1; CALL _expand_key_192b
  | k256a (rc : Byte)  -- AESKEYGENASSIST $rc, X2, X1; CALL _expand_key_256a
  | k256b (rc : Byte)  -- AESKEYGENASSIST $rc, X0, X1; CALL _expand_key_256b

def KeyIns.run (g : ExpRegs) : KeyIns → ExpRegs
  | .k128 rc => expand128 { g with x1 := keygenassist rc g.x0 }
  | .k192a rc => expand192a { g with x1 := keygenassist rc g.x2 }
  | .k192b rc => expand192b { g with x1 := keygenassist rc g.x2 }
  | .k256a rc => expand128 { g with x1 := keygenassist rc g.x2 }
  | .k256b rc => expand256b { g with x1 := keygenassist rc g.x0 }

/-- asm_amd64.s:126-151 -/
def prog256 : List KeyIns :=
  [.k256a 0x01, .k256b 0x01, .k256a 0x02, .k256b 0x02, .k256a 0x04, .k256b 0x04, .k256a 0x08, .k256b 0x08,
   .k256a 0x10, .k256b 0x10, .k256a 0x20, .k256b 0x20, .k256a 0x40]
/-- asm_amd64.s:155-170 -/
def prog192 : List KeyIns :=
  [.k192a 0x01, .k192b 0x02, .k192a 0x04, .k192b 0x08, .k192a 0x10, .k192b 0x20, .k192a 0x40, .k192b 0x80]
/-- asm_amd64.s:173-192 -/
def prog128 : List KeyIns :=
  [.k128 0x01, .k128 0x02, .k128 0x04, .k128 0x08, .k128 0x10, .k128 0x20, .k128 0x40, .k128 0x80, .k128 0x1b, .k128 0x36]

/-- asm_amd64.s:109-192, the encryption schedule: the blocks stored. -/
def expandEncAsm (nr : Nat) (key : List Byte) : Option (List Xmm) := do
  let x0 ← load key
  if nr = 12 then do
    let x2 ← load8 (key.drop 16)
    some (prog192.foldl KeyIns.run ⟨x0, zero, x2, zero, [x0]⟩).out
  else if nr < 12 then
    some (prog128.foldl KeyIns.run ⟨x0, zero, zero, zero, [x0]⟩).out
  else do
    let x2 ← load (key.drop 16)
    some (prog256.foldl KeyIns.run ⟨x0, zero, x2, zero, [x0, x2]⟩).out

/-- asm_amd64.s:199-209 `Lexp_dec_loop`: `bx` is the block BX points at in the encryption schedule;
the blocks stored through DX are collected.  With CX = 0 on entry the counter wraps and the code
runs off the arrays: `none`. -/
def decLoop (enc : List Xmm) (bx : Nat) (out : List Xmm) : Nat → Option (List Xmm)
  | 0 => none
  | n + 1 =>
    if bx = 0 then none
    else do
      let x1 ← enc[bx - 1]?
      let out := out ++ [aesimc x1]
      let bx := bx - 1
      if n = 0 then
        if bx = 0 then none
        else do
          let x0 ← enc[bx - 1]?
          some (out ++ [x0])
      else decLoop enc bx out n

/-- Storing blocks from the start of an array; panics (faults) past its end. -/
def storeBlocks (mem blocks : List Xmm) : Option (List Xmm) :=
  if blocks.length ≤ mem.length then some (blocks ++ mem.drop blocks.length) else none

/-- asm_amd64.s:109-209 `expandKeyAsm`. -/
def expandKeyAsm (nr : Nat) (key : List Byte) (enc dec : List Xmm) : Option (List Xmm × List Xmm) := do
  let e ← expandEncAsm nr key
  let enc ← storeBlocks enc e
  let l ← enc[e.length - 1]?
  let d ← decLoop enc (e.length - 1) [l] (nr - 1)
  let dec ← storeBlocks dec d
  some (enc, dec)

/-- cipher_asm.go:23-26 `AESAsm`: two arrays of 60 words, fifteen blocks each. -/
structure AESAsm where
  enc : List Xmm
  dec : List Xmm
  deriving DecidableEq

/-- `&aes.AESAsm{}` -/
def AESAsm.new : AESAsm := ⟨List.replicate 15 zero, List.replicate 15 zero⟩

/-- cipher_asm.go:28-41 `SetKey`, always a nil error.  For a length other than 16, 24, 32 `rounds` is
0: an empty key panics at `&key[0]`, any other runs the decryption loop off the arrays. -/
def AESAsm.setKey (c : AESAsm) (key : List Byte) : Option AESAsm := do
  let rounds := if key.length = 16 then 10 else if key.length = 24 then 12 else if key.length = 32 then 14 else 0
  let (enc, dec) ← expandKeyAsm rounds key c.enc c.dec
  some ⟨enc, dec⟩

/-- cipher_asm.go:45-56 `Encrypt`: `len(c.enc)/4-1` = 14 rounds. -/
def AESAsm.encrypt (c : AESAsm) (dst src : List Byte) : Option (List Byte) :=
  if src.length < 16 ∨ dst.length < 16 then none
  else do
    let s ← load src
    let x ← encryptBlockAsm (60 / 4 - 1) c.enc s
    some (x.bytes ++ dst.drop 16)

/-- cipher_asm.go:58-69 `Decrypt` -/
def AESAsm.decrypt (c : AESAsm) (dst src : List Byte) : Option (List Byte) :=
  if src.length < 16 ∨ dst.length < 16 then none
  else do
    let s ← load src
    let x ← decryptBlockAsm (60 / 4 - 1) c.dec s
    some (x.bytes ++ dst.drop 16)

end Model.AES
