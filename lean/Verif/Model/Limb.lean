import Verif.Model.Bytes
/-
The functions of Go's math/bits the code uses, by their documented behaviour, and loops over word arrays.
A word array is a list of words, least significant first.
-/
namespace Model.Limb
open Model

/-- `bits.Add64(x, y, carry)`: sum and carry out (carry in is 0 or 1). -/
def add64 (x y c : W64) : W64 × W64 :=
  (BitVec.ofNat 64 (x.toNat + y.toNat + c.toNat), BitVec.ofNat 64 ((x.toNat + y.toNat + c.toNat) / 2 ^ 64))

/-- `bits.Sub64(x, y, borrow)`: difference and borrow out (borrow in is 0 or 1). -/
def sub64 (x y b : W64) : W64 × W64 :=
  (x - y - b, if x.toNat < y.toNat + b.toNat then 1 else 0)

/-- `bits.Mul64(x, y)`: high and low word of the product. -/
def mul64 (x y : W64) : W64 × W64 :=
  (BitVec.ofNat 64 (x.toNat * y.toNat / 2 ^ 64), BitVec.ofNat 64 (x.toNat * y.toNat))

/-- `for i := 0; i < n; i++ { z[i], carry = bits.Add64(x[i], y[i], carry) }`: `z` and the last carry. -/
def addLoop : List W64 → List W64 → W64 → List W64 × W64
  | x :: xs, y :: ys, c =>
    let (s, c) := add64 x y c
    let (z, c) := addLoop xs ys c
    (s :: z, c)
  | _, _, c => ([], c)

/-- `for i := 0; i < n; i++ { z[i], borrow = bits.Sub64(x[i], y[i], borrow) }` -/
def subLoop : List W64 → List W64 → W64 → List W64 × W64
  | x :: xs, y :: ys, b =>
    let (s, b) := sub64 x y b
    let (z, b) := subLoop xs ys b
    (s :: z, b)
  | _, _, b => ([], b)

/-- `y[i] & mask` for all i. -/
def maskWords (y : List W64) (mask : W64) : List W64 := y.map (· &&& mask)

/-- `for i := range x { tmp = mask & (x[i] ^ y[i]); x[i] = tmp ^ x[i]; y[i] = tmp ^ y[i] }` -/
def cswapWords (mask : W64) : List W64 → List W64 → List W64 × List W64
  | x :: xs, y :: ys =>
    let tmp := mask &&& (x ^^^ y)
    let (a, b) := cswapWords mask xs ys
    ((tmp ^^^ x) :: a, (tmp ^^^ y) :: b)
  | xs, ys => (xs, ys)

/-- The accumulator (t, u, v) of the column-wise multiplications. -/
structure Acc where
  v : W64
  u : W64
  t : W64

/-- `hi, lo = bits.Mul64(a, b); v, carry = bits.Add64(lo, v, 0); u, carry = bits.Add64(hi, u, carry); t += carry` -/
def Acc.mac (s : Acc) (a b : W64) : Acc :=
  let (hi, lo) := mul64 a b
  let (v, carry) := add64 lo s.v 0
  let (u, carry) := add64 hi s.u carry
  ⟨v, u, s.t + carry⟩

/-- `v, carry = bits.Add64(v, x, 0); u, carry = bits.Add64(u, 0, carry); t += carry` -/
def Acc.addw (s : Acc) (x : W64) : Acc :=
  let (v, carry) := add64 s.v x 0
  let (u, carry) := add64 s.u 0 carry
  ⟨v, u, s.t + carry⟩

/-- `v = u; u = t; t = 0` -/
def Acc.shift (s : Acc) : Acc := ⟨s.u, s.t, 0⟩

/-- Word `i`; the arrays are long enough wherever this is used. -/
def word (x : List W64) (i : Nat) : W64 := x.getD i 0

/-- The inner loop `for j in js { (t,u,v) += x[j] * y[i-j] }`. -/
def macCol (x y : List W64) (i : Nat) (js : List Nat) (s : Acc) : Acc :=
  js.foldl (fun s j => s.mac (word x j) (word y (i - j))) s

/-- `for j := lo; j < hi; j++` -/
def forJ (lo hi : Nat) : List Nat := List.range' lo (hi - lo)

end Model.Limb
