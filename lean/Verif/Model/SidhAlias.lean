import Verif.Model.SidhArith
/-
The word loops of arith_generic.go with their destination in memory: a memory is a map from buffers to word
arrays, and the destination may be one of the arguments, as in the calls add(&x, &x, &y) or sub(&y, &x, &y).
Each iteration reads word i of both arguments and then writes word i of the destination.
-/
namespace Model.Sidh.Alias
open Model Model.Limb Model.Sidh

abbrev Mem := Nat → List W64

/-- `mem[d][i] = w` -/
def store (m : Mem) (d i : Nat) (w : W64) : Mem := fun b => if b = d then (m d).set i w else m b

/-- `for i := ...; i < n; i++ { z[i], carry = bits.Add64(x[i], y[i], carry) }`, `k` iterations left. -/
def addM (z x y : Nat) : Nat → Nat → Mem × W64 → Mem × W64
  | _, 0, s => s
  | i, k + 1, (m, c) =>
    let (w, c) := add64 (word (m x) i) (word (m y) i) c
    addM z x y (i + 1) k (store m z i w, c)

/-- `for i := ...; i < n; i++ { z[i], borrow = bits.Sub64(x[i], y[i], borrow) }` -/
def subM (z x y : Nat) : Nat → Nat → Mem × W64 → Mem × W64
  | _, 0, s => s
  | i, k + 1, (m, c) =>
    let (w, c) := sub64 (word (m x) i) (word (m y) i) c
    subM z x y (i + 1) k (store m z i w, c)

/-- `for i := ...; i < n; i++ { z[i], carry = bits.Add64(z[i], a[i] & mask, carry) }` for a constant array `a` -/
def addMaskM (z : Nat) (a : List W64) (mask : W64) : Nat → Nat → Mem × W64 → Mem × W64
  | _, 0, s => s
  | i, k + 1, (m, c) =>
    let (w, c) := add64 (word (m z) i) (word a i &&& mask) c
    addMaskM z a mask (i + 1) k (store m z i w, c)

/-- `for i := ...; i < n; i++ { z[i], carry = bits.Sub64(z[i], a[i], carry) }` for a constant array `a` -/
def subConstM (z : Nat) (a : List W64) : Nat → Nat → Mem × W64 → Mem × W64
  | _, 0, s => s
  | i, k + 1, (m, c) =>
    let (w, c) := sub64 (word (m z) i) (word a i) c
    subConstM z a (i + 1) k (store m z i w, c)

/-- arith_generic.go:15-35 `addP434(z, x, y)` in memory -/
def addPM (P : Prime) (z x y : Nat) (m : Mem) : Mem :=
  let (m, _) := addM z x y 0 P.n (m, 0)
  let (m, carry) := subConstM z P.px2 0 P.n (m, 0)
  let mask := 0 - carry
  (addMaskM z P.px2 mask 0 P.n (m, 0)).1

/-- arith_generic.go:38-51 `subP434(z, x, y)` in memory -/
def subPM (P : Prime) (z x y : Nat) (m : Mem) : Mem :=
  let (m, borrow) := subM z x y 0 P.n (m, 0)
  let mask := 0 - borrow
  (addMaskM z P.px2 mask 0 P.n (m, 0)).1

/-- arith_generic.go:157-162 `adlP434(z, x, y)` in memory -/
def adlPM (P : Prime) (z x y : Nat) (m : Mem) : Mem := (addM z x y 0 (2 * P.n) (m, 0)).1

end Model.Sidh.Alias
