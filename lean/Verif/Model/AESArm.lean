import Verif.Model.AESAsm
/-
Model of drbg/internal/aes/asm_arm64.s: AES with the ARMv8 instructions, semantics from the Arm Architecture Reference Manual.
cipher_asm.go is the same file for both architectures (its build constraint "amd64, !noasm" is an "or" with an empty alternative, so the
file is built whenever noasm is not set).

A vector register is an `Xmm`: byte i of the register is byte i % 4 of dword i / 4.  Memory as in Model/AESAsm: arrays of 16-byte
blocks; the 32-bit stores `STPW.P` of the key expansion are collected as a list of words and grouped into blocks.
-/
namespace Model.AES
open Model
open Spec.AES (State subBytes shiftRows mixColumns invSubBytes invShiftRows invMixColumns)
open Xmm

namespace Xmm

/-- `AESE k, x`: exclusive or, ShiftRows, SubBytes -/
def aese (k x : Xmm) : Xmm := ofState (subBytes (shiftRows (x.xor k).state))
/-- `AESD k, x`: exclusive or, inverse ShiftRows, inverse SubBytes -/
def aesd (k x : Xmm) : Xmm := ofState (invSubBytes (invShiftRows (x.xor k).state))
/-- `AESMC x, …` (`AESIMC` is `aesimc`) -/
def aesmc (x : Xmm) : Xmm := ofState (mixColumns x.state)

/-- Byte `i` of a vector; 0 for an index out of range, as TBL does. -/
def byteAt (x : Xmm) (i : Nat) : Byte :=
  if h : i < 16 then (x.dw ⟨i / 4, by omega⟩).extractLsb' (8 * (i % 4)) 8 else 0
/-- `TBL idx, [t], …` -/
def tbl (idx : Nat → Nat) (t : Xmm) : Xmm :=
  let b (i : Nat) : Byte := t.byteAt (idx i)
  ⟨b 3 ++ b 2 ++ b 1 ++ b 0, b 7 ++ b 6 ++ b 5 ++ b 4, b 11 ++ b 10 ++ b 9 ++ b 8, b 15 ++ b 14 ++ b 13 ++ b 12⟩

end Xmm

/-- asm_arm64.s:8-10 `rotInvSRows`: the bytes of 0x080f0205040b0e01 and 0x00070a0d0c030609 -/
def rotInvSRows (i : Nat) : Nat :=
  [0x01, 0x0e, 0x0b, 0x04, 0x05, 0x02, 0x0f, 0x08, 0x09, 0x06, 0x03, 0x0c, 0x0d, 0x0a, 0x07, 0x00].getD i 0
/-- asm_arm64.s:11-13 `invSRows`: the bytes of 0x0b0e0104070a0d00 and 0x0306090c0f020508 -/
def invSRows (i : Nat) : Nat :=
  [0x00, 0x0d, 0x0a, 0x07, 0x04, 0x01, 0x0e, 0x0b, 0x08, 0x05, 0x02, 0x0f, 0x0c, 0x09, 0x06, 0x03].getD i 0

/-- The rounds `op` with the blocks of the schedule at the indices given. -/
def armRun (op : Xmm → Xmm → Xmm) (mc : Xmm → Xmm) (xk : List Xmm) : List Nat → Xmm → Option Xmm
  | [], x => some x
  | i :: is, x => do
    let k ← xk[i]?
    armRun op mc xk is (mc (op k x))

/-- asm_arm64.s:15-63 `encryptBlockAsm`, 66-114 `decryptBlockAsm`: the block stored at `dst`.  `CMP $12, R9; BLT …128; BEQ …196` falls
through to …256 when nr > 12; `VLD1.P` advances R10, counted in blocks by `r10`. -/
def cryptBlockArm (op : Xmm → Xmm → Xmm) (mc : Xmm → Xmm) (nr : Nat) (xk : List Xmm) (src : Xmm) : Option Xmm := do
  let x := src
  let r10 := 0
  -- 256
  let x ← if 12 < nr then armRun op mc xk [r10, r10 + 1] x else some x
  let r10 := if 12 < nr then r10 + 2 else r10
  -- 196
  let x ← if 12 ≤ nr then armRun op mc xk [r10, r10 + 1] x else some x
  let r10 := if 12 ≤ nr then r10 + 2 else r10
  -- 128
  let x ← armRun op mc xk [r10, r10 + 1, r10 + 2, r10 + 3, r10 + 4, r10 + 5, r10 + 6, r10 + 7, r10 + 8] x
  let v14 ← xk[r10 + 9]?
  let v15 ← xk[r10 + 10]?
  some ((op v14 x).xor v15)

def encryptBlockArm := cryptBlockArm aese aesmc
def decryptBlockArm := cryptBlockArm aesd aesimc

/-- `VMOV r, V2.S[0]; TBL idx, [V2], V2; AESE V0, V2` with V0 = 0: the new V2 -/
def sbw (idx : Nat → Nat) (v2 : Xmm) (r : W32) : Xmm := aese zero (tbl idx {v2 with d0 := r})

/-- asm_arm64.s:135-151 `ks128Loop`, `n` iterations left: the words stored -/
def ks128 : Nat → W32 → W32 → W32 → W32 → W32 → Xmm → List W32 → List W32
  | 0, _, _, _, _, _, _, out => out
  | n + 1, r4, r5, r6, r7, r13, v2, out =>
    let v2 := sbw rotInvSRows v2 r7
    let r4 := r4 ^^^ r13
    let r13 := r13 <<< 1
    let r13 := if r13 &&& 0x100 ≠ 0 then 0x1b else r13
    let r0 := v2.d0
    let r4 := r4 ^^^ r0
    let r5 := r5 ^^^ r4
    let r6 := r6 ^^^ r5
    let r7 := r7 ^^^ r6
    ks128 n r4 r5 r6 r7 r13 v2 (out ++ [r4, r5] ++ [r6, r7])

/-- asm_arm64.s:180-197 `ks192Loop` -/
def ks192 : Nat → W32 → W32 → W32 → W32 → W32 → W32 → W32 → Xmm → List W32 → List W32
  | 0, _, _, _, _, _, _, _, _, out => out
  | n + 1, r2, r3, r4, r5, r6, r7, r13, v2, out =>
    let out := out ++ [r6, r7]
    let v2 := sbw rotInvSRows v2 r7
    let r2 := r2 ^^^ r13
    let r13 := r13 <<< 1
    let r0 := v2.d0
    let r2 := r2 ^^^ r0
    let r3 := r3 ^^^ r2
    let r4 := r4 ^^^ r3
    let r5 := r5 ^^^ r4
    let r6 := r6 ^^^ r5
    let r7 := r7 ^^^ r6
    ks192 n r2 r3 r4 r5 r6 r7 r13 v2 (out ++ [r2, r3] ++ [r4, r5])

/-- asm_arm64.s:232-256 `ks256Loop` -/
def ks256 : Nat → W32 → W32 → W32 → W32 → W32 → W32 → W32 → W32 → W32 → Xmm → List W32 → List W32
  | 0, _, _, _, _, _, _, _, _, _, _, out => out
  | n + 1, r0, r1, r2, r3, r4, r5, r6, r7, r13, v2, out =>
    let out := out ++ [r4, r5] ++ [r6, r7]
    let v2 := sbw rotInvSRows v2 r7
    let r0 := r0 ^^^ r13
    let r13 := r13 <<< 1
    let r9 := v2.d0
    let r0 := r0 ^^^ r9
    let r1 := r1 ^^^ r0
    let r2 := r2 ^^^ r1
    let r3 := r3 ^^^ r2
    let v2 := sbw invSRows v2 r3
    let r9 := v2.d0
    let r4 := r4 ^^^ r9
    let r5 := r5 ^^^ r4
    let r6 := r6 ^^^ r5
    let r7 := r7 ^^^ r6
    ks256 n r0 r1 r2 r3 r4 r5 r6 r7 r13 v2 (out ++ [r0, r1] ++ [r2, r3])

/-- asm_arm64.s:118-151, 173-197, 221-256: the encryption schedule, as the words stored.  `TBZ $1, R8, ks192; TBNZ $2, R8, ks256`.  The
loops run once before they test the counter, so a counter that starts at 0 or below wraps around and the code runs off the
array: `none`.  V2 holds anything at the start (`v2`). -/
def expandEncArm (v2 : Xmm) (nr : Nat) (key : List Byte) : Option (List W32) := do
  let r13 : W32 := 1
  if ¬ nr.testBit 1 then do
    let r2 ← leDw key
    let r3 ← leDw (key.drop 4)
    let r4 ← leDw (key.drop 8)
    let r5 ← leDw (key.drop 12)
    let r6 ← leDw (key.drop 16)
    let r7 ← leDw (key.drop 20)
    if nr ≤ 4 then none
    else some (ks192 (nr - 4) r2 r3 r4 r5 r6 r7 r13 v2 ([r2, r3] ++ [r4, r5]))
  else if nr.testBit 2 then do
    let r0 ← leDw key
    let r1 ← leDw (key.drop 4)
    let r2 ← leDw (key.drop 8)
    let r3 ← leDw (key.drop 12)
    let r4 ← leDw (key.drop 16)
    let r5 ← leDw (key.drop 20)
    let r6 ← leDw (key.drop 24)
    let r7 ← leDw (key.drop 28)
    if nr ≤ 7 then none
    else some (ks256 (nr - 7) r0 r1 r2 r3 r4 r5 r6 r7 r13 v2 ([r0, r1] ++ [r2, r3]))
  else do
    let r4 ← leDw key
    let r5 ← leDw (key.drop 4)
    let r6 ← leDw (key.drop 8)
    let r7 ← leDw (key.drop 12)
    some (ks128 nr r4 r5 r6 r7 r13 v2 ([r4, r5] ++ [r6, r7]))

/-- Four words to a block. -/
def blocksOf : List W32 → List Xmm
  | a :: b :: c :: d :: r => ⟨a, b, c, d⟩ :: blocksOf r
  | _ => []

/-- asm_arm64.s:152-171, 198-219, 257-281: the decryption schedule, made from the blocks from R10 on after it was set back by
176, 208 or 240 bytes.  The blocks are loaded into V0 to V3 and moved to the registers named here. -/
def expandDecArm (nr : Nat) (e : List Xmm) : Option (List Xmm) := do
  let e0 ← e[0]?
  let e1 ← e[1]?
  let e2 ← e[2]?
  let e3 ← e[3]?
  let (v7, v6, v5, v4) := (e0, aesimc e1, aesimc e2, aesimc e3)
  let e4 ← e[4]?
  let e5 ← e[5]?
  let e6 ← e[6]?
  let e7 ← e[7]?
  let (v11, v10, v9, v8) := (aesimc e4, aesimc e5, aesimc e6, aesimc e7)
  let e8 ← e[8]?
  let e9 ← e[9]?
  let e10 ← e[10]?
  if ¬ nr.testBit 1 then do
    let e11 ← e[11]?
    let (v15, v14, v13, v12) := (aesimc e8, aesimc e9, aesimc e10, aesimc e11)
    let e12 ← e[12]?
    some ([e12] ++ [v12, v13, v14, v15] ++ [v8, v9, v10, v11] ++ [v4, v5, v6, v7])
  else if nr.testBit 2 then do
    let e11 ← e[11]?
    let (v15, v14, v13, v12) := (aesimc e8, aesimc e9, aesimc e10, aesimc e11)
    let e12 ← e[12]?
    let e13 ← e[13]?
    let e14 ← e[14]?
    let (v18, v17, v16) := (aesimc e12, aesimc e13, e14)
    some ([v16, v17, v18] ++ [v12, v13, v14, v15] ++ [v8, v9, v10, v11] ++ [v4, v5, v6, v7])
  else
    let (v14, v13, v12) := (aesimc e8, aesimc e9, e10)
    some ([v12, v13, v14] ++ [v8, v9, v10, v11] ++ [v4, v5, v6, v7])

/-- asm_arm64.s:118-283 `expandKeyAsm`.  R10 is set back by a fixed number of bytes, which is the start of the array only if 44, 52 or
60 words were stored; other counts (no caller has them) are `none`. -/
def expandKeyArm (v2 : Xmm) (nr : Nat) (key : List Byte) (enc dec : List Xmm) : Option (List Xmm × List Xmm) := do
  let ws ← expandEncArm v2 nr key
  if ws.length ≠ (if ¬ nr.testBit 1 then 52 else if nr.testBit 2 then 60 else 44) then none
  else do
    let enc ← storeBlocks enc (blocksOf ws)
    let d ← expandDecArm nr enc
    let dec ← storeBlocks dec d
    some (enc, dec)

/-- cipher_asm.go:28-41 `SetKey` on arm64 -/
def AESAsm.setKeyArm (v2 : Xmm) (c : AESAsm) (key : List Byte) : Option AESAsm := do
  let rounds := if key.length = 16 then 10 else if key.length = 24 then 12 else if key.length = 32 then 14 else 0
  let (enc, dec) ← expandKeyArm v2 rounds key c.enc c.dec
  some ⟨enc, dec⟩

/-- cipher_asm.go:45-56 `Encrypt` on arm64 -/
def AESAsm.encryptArm (c : AESAsm) (dst src : List Byte) : Option (List Byte) :=
  if src.length < 16 ∨ dst.length < 16 then none
  else do
    let s ← load src
    let x ← encryptBlockArm (60 / 4 - 1) c.enc s
    some (x.bytes ++ dst.drop 16)

/-- cipher_asm.go:58-69 `Decrypt` on arm64 -/
def AESAsm.decryptArm (c : AESAsm) (dst src : List Byte) : Option (List Byte) :=
  if src.length < 16 ∨ dst.length < 16 then none
  else do
    let s ← load src
    let x ← decryptBlockArm (60 / 4 - 1) c.dec s
    some (x.bytes ++ dst.drop 16)

end Model.AES
