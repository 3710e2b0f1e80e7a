import Verif.Model.CsidhArith
import Verif.Model.SidhAlias
/-
The arithmetic of dh/csidh with its destination in memory, as in Model.SidhAlias: a memory maps buffers to word
arrays and the destination may be one of the arguments.  Words are read and written in the order of the code.
-/
namespace Model.Csidh.Alias
open Model Model.Limb Model.Csidh Model.Sidh.Alias

/-- `r[i] = ctPick64(w, r[i], t[i])` for i from the index given, `t` a local array -/
def pickM (z : Nat) (w : W64) (t : List W64) : Nat → Nat → Mem → Mem
  | _, 0, m => m
  | i, k + 1, m => pickM z w t (i + 1) k (store m z i (ctPick64 w (word (m z) i) (word t i)))

/-- `r[i], c = bits.Add64(r[i], ctPick64(w, p[i], 0), c)` -/
def addPickM (z : Nat) (w : W64) : Nat → Nat → Mem × W64 → Mem × W64
  | _, 0, s => s
  | i, k + 1, (m, c) =>
    let (v, c) := add64 (word (m z) i) (ctPick64 w (word p i) 0) c
    addPickM z w (i + 1) k (store m z i v, c)

/-- The conditional subtraction of p from buffer `z`, fp511.go:124-142. -/
def condSubM (z : Nat) (m : Mem) : Mem :=
  let (t, c) := subLoop (m z) p 0
  pickM z (0 - c) t 0 8 m

/-- fp511.go:113-143 `addRdc(r, x, y)` -/
def addRdcM (z x y : Nat) (m : Mem) : Mem :=
  let (m, _) := addM z x y 0 8 (m, 0)
  condSubM z m

/-- fp511.go:146-157 `sub512(r, x, y)` -/
def sub512M (z x y : Nat) (m : Mem) : Mem × W64 := subM z x y 0 8 (m, 0)

/-- fp511.go:160-184 `subRdc(r, x, y)` -/
def subRdcM (z x y : Nat) (m : Mem) : Mem :=
  let (m, c) := subM z x y 0 8 (m, 0)
  (addPickM z (0 - c) 0 8 (m, 0)).1

/-- `r[i] = ws[i]` for the words computed from local arrays -/
def storeM (z : Nat) : List W64 → Nat → Mem → Mem
  | [], _, m => m
  | w :: ws, i, m => storeM z ws (i + 1) (store m z i w)

/-- fp511_generic.go:98-123 `mulRdc(r, x, y)`: `mulGeneric` reads x and y into its local arrays before the last
round, which stores r word by word from local arrays. -/
def mulRdcM (z x y : Nat) (m : Mem) : Mem := condSubM z (storeM z (mulGeneric (m x) (m y)) 0 m)

/-- fp511_generic.go:15-37: the middle words of `mul512(r, m1, m2)` -/
def mulTailM (z x : Nat) (m2 : W64) : Nat → Nat → Mem × W64 → Mem × W64
  | _, 0, s => s
  | i, k + 1, (m, c) =>
    let (h, l) := mul64 m2 (word (m x) i)
    let (r, c) := add64 l c 0
    mulTailM z x m2 (i + 1) k (store m z i r, h + c)

/-- fp511_generic.go:10-41 `mul512(r, m1, m2)` -/
def mul512M (z x : Nat) (m2 : W64) (m : Mem) : Mem :=
  let (c, r0) := mul64 m2 (word (m x) 0)
  let m := store m z 0 r0
  let (m, c) := mulTailM z x m2 1 6 (m, c)
  let (_, l) := mul64 m2 (word (m x) 7)
  let (r7, _) := add64 l c 0
  store m z 7 r7

end Model.Csidh.Alias
