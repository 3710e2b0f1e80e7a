import Verif.Model.DRBG
/-
Model of one generator (drbg/ctr_drbg.go) on which several goroutines call `ReadWithAdditionalData` at the
same time.  A call is the list of its statements; a scheduler picks which goroutine runs its next statement.
Simplification: a statement (`c.inc()`, `SetKey`, `Encrypt`, a copy, the xor loop) is one step, so the model has
fewer interleavings than the program; `inc`, `SetKey`, the xor loop and the copies are loops in the code.
`none` is a panic, which ends the program.
-/
namespace Model.DRBGShared
open Model Model.DRBG

/-- The statements of ctr_drbg.go:88-106 `update` and 131-156 `ReadWithAdditionalData` that touch the object
or the caller's buffer. -/
inductive Stmt where
  /-- :95, :144 `c.inc()` -/
  | inc
  /-- :96, :145 `c.blockEnc.SetKey(c.key[:])` -/
  | setKey
  /-- :146 `c.blockEnc.Encrypt(out[i*BlockLen:], c.v[:])` -/
  | encOut (i : Nat)
  /-- :97, :150 `c.blockEnc.Encrypt(c.tmpBlk[16*k:], c.v[:])` -/
  | encTmp (k : Nat)
  /-- :151 `copy(out[blocks*BlockLen:], c.tmpBlk[:len(out)%BlockLen])` -/
  | copyOut
  /-- :100-102 `c.tmpBlk[i] ^= data[i]` -/
  | xor (data : List Byte)
  /-- :104 `copy(c.key[:], c.tmpBlk[:KeyLen])` -/
  | copyKey
  /-- :105 `copy(c.v[:], c.tmpBlk[KeyLen:])` -/
  | copyV
  /-- :154 `c.counter += 1` -/
  | count

/-- One statement, ctr_drbg.go:88-156, on the shared object and the goroutine's own buffer. -/
def exec (c : CtrDrbg) (out : List Byte) : Stmt → Option (CtrDrbg × List Byte)
  | .inc => some (DRBG.inc c, out)
  | .setKey => (c.blockEnc.setKey c.key).map fun b => ({ c with blockEnc := b }, out)
  | .encOut i => (c.blockEnc.encrypt (out.drop (16 * i)) c.v).map fun t => (c, out.take (16 * i) ++ t)
  | .encTmp k => (c.blockEnc.encrypt (c.tmpBlk.drop (16 * k)) c.v).map fun t =>
      ({ c with tmpBlk := c.tmpBlk.take (16 * k) ++ t }, out)
  | .copyOut => some (c, out.take (out.length / 16 * 16) ++ c.tmpBlk.take (out.length % 16))
  | .xor data => some ({ c with tmpBlk := List.zipWith (· ^^^ ·) c.tmpBlk data }, out)
  | .copyKey => some ({ c with key := c.tmpBlk.take 32 }, out)
  | .copyV => some ({ c with v := c.tmpBlk.drop 32 }, out)
  | .count => some ({ c with counter := c.counter + 1 }, out)

/-- ctr_drbg.go:94-98: the loop of `update`, `i` = 16·k, `n` iterations left. -/
def updateLoop (k : Nat) : Nat → List Stmt
  | 0 => []
  | n + 1 => .inc :: .setKey :: .encTmp k :: updateLoop (k + 1) n

/-- ctr_drbg.go:88-106 `update`, on 48 bytes of data. -/
def update (data : List Byte) : List Stmt := updateLoop 0 3 ++ [.xor data, .copyKey, .copyV]

/-- ctr_drbg.go:143-147: the loop over whole blocks at block `i`, `n` left. -/
def readLoop (i : Nat) : Nat → List Stmt
  | 0 => []
  | n + 1 => .inc :: .setKey :: .encOut i :: readLoop (i + 1) n

/-- ctr_drbg.go:132-138 `seedBuf` after `copy(seedBuf[:], ad)`. -/
def seed (ad : List Byte) : List Byte := ad.take 48 ++ List.replicate (48 - (ad.take 48).length) 0

/-- ctr_drbg.go:131-156 `ReadWithAdditionalData` on a buffer of `n` bytes. -/
def readAD (n : Nat) (ad : List Byte) : List Stmt :=
  (if 0 < ad.length then update (seed ad) else []) ++
  (readLoop 0 (n / 16) ++ ([.encTmp 0, .copyOut] ++ (update (seed ad) ++ [.count])))

/-- Statements in a row, with nothing in between. -/
def execAll (c : CtrDrbg) (out : List Byte) : List Stmt → Option (CtrDrbg × List Byte)
  | [] => some (c, out)
  | s :: ss => (exec c out s).bind fun (c, out) => execAll c out ss

/-- A goroutine: its own buffer and the statements left; it has returned when none are left. -/
structure Gor where
  out : List Byte
  rest : List Stmt

/-- `go c.ReadWithAdditionalData(out, ad)`, ctr_drbg.go:131. -/
def start (out ad : List Byte) : Gor := ⟨out, readAD out.length ad⟩

/-- Goroutine `j` runs its next statement; nothing happens if there is none. -/
def step (c : CtrDrbg) (gs : List Gor) (j : Nat) : Option (CtrDrbg × List Gor) :=
  match gs[j]? with
  | some ⟨out, s :: ss⟩ => (exec c out s).map fun (c, out) => (c, gs.set j ⟨out, ss⟩)
  | _ => some (c, gs)

/-- A schedule: the goroutines in the order in which they run statements. -/
def run (c : CtrDrbg) (gs : List Gor) : List Nat → Option (CtrDrbg × List Gor)
  | [] => some (c, gs)
  | j :: js => (step c gs j).bind fun (c, gs) => run c gs js

end Model.DRBGShared
