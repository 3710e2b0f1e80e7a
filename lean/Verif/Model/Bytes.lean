/-
Byte-slice primitives of Go, shared by the models.  A slice is a list (capacity = length); a run-time
panic is `none`.
-/
namespace Model

abbrev Byte := BitVec 8
abbrev W32 := BitVec 32
abbrev W64 := BitVec 64

/-- `binary.LittleEndian.Uint64(b)` (Go standard library): the first 8 bytes, least significant
first; panics on shorter input. -/
def leUint64 (b : List Byte) : Option W64 :=
  match b with
  | b0 :: b1 :: b2 :: b3 :: b4 :: b5 :: b6 :: b7 :: _ =>
    some (b7 ++ b6 ++ b5 ++ b4 ++ b3 ++ b2 ++ b1 ++ b0)
  | _ => none

/-- `binary.LittleEndian.PutUint64`: the 8 bytes written. -/
def leBytes64 (w : W64) : List Byte :=
  [w.extractLsb' 0 8, w.extractLsb' 8 8, w.extractLsb' 16 8, w.extractLsb' 24 8,
   w.extractLsb' 32 8, w.extractLsb' 40 8, w.extractLsb' 48 8, w.extractLsb' 56 8]

/-- `binary.BigEndian.PutUint64`: the 8 bytes written. -/
def beBytes64 (w : W64) : List Byte := (leBytes64 w).reverse

/-- `s[lo:]`; panics unless `lo ≤ len(s)`. -/
def sliceFrom (s : List Byte) (lo : Nat) : Option (List Byte) :=
  if lo ≤ s.length then some (s.drop lo) else none

/-- `s[:hi]`; panics unless `hi ≤ len(s)` (capacity is taken to be the length). -/
def sliceTo (s : List Byte) (hi : Nat) : Option (List Byte) :=
  if hi ≤ s.length then some (s.take hi) else none

/-- `copy(dst, src)`: the new contents of `dst`. -/
def goCopy (dst src : List Byte) : List Byte := src.take dst.length ++ dst.drop src.length

/-- `copy(dst[lo:], src)`: the new contents of `dst`; panics unless `lo ≤ len(dst)`. -/
def copyFrom (dst : List Byte) (lo : Nat) (src : List Byte) : Option (List Byte) :=
  if lo ≤ dst.length then some (dst.take lo ++ goCopy (dst.drop lo) src) else none

/-- `s[i] = v`; panics unless `i < len(s)`. -/
def setAt (s : List Byte) (i : Nat) (v : Byte) : Option (List Byte) :=
  if i < s.length then some (s.set i v) else none

end Model
