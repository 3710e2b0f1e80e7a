import Verif.Model.Bytes
/-
GENERATED from /repo/hash/sha3/keccakf.go (statement by statement; `a[k] = e` becomes `let ak := e`,
`x &^ y` becomes `x &&& ~~~y`, `bits.RotateLeft64` becomes `rotateLeft`).
-/
namespace Model.Sha3

open Model

/-- hash/sha3/keccakf.go:12-37, variable `rc`. -/
def rcTable : List W64 := [
  0x0000000000000001,
  0x0000000000008082,
  0x800000000000808A,
  0x8000000080008000,
  0x000000000000808B,
  0x0000000080000001,
  0x8000000080008081,
  0x8000000000008009,
  0x000000000000008A,
  0x0000000000000088,
  0x0000000080008009,
  0x000000008000000A,
  0x000000008000808B,
  0x800000000000008B,
  0x8000000000008089,
  0x8000000000008003,
  0x8000000000008002,
  0x8000000000000080,
  0x000000000000800A,
  0x800000008000000A,
  0x8000000080008081,
  0x8000000000008080,
  0x0000000080000001,
  0x8000000080008008]

/-- hash/sha3/keccakf.go:50-140, "Round 1" of the unrolled loop body; `rcv` is `rc[i]`. -/
def round1 (a : Vector W64 25) (rcv : W64) : Vector W64 25 :=
  let a0 := a[0]
  let a1 := a[1]
  let a2 := a[2]
  let a3 := a[3]
  let a4 := a[4]
  let a5 := a[5]
  let a6 := a[6]
  let a7 := a[7]
  let a8 := a[8]
  let a9 := a[9]
  let a10 := a[10]
  let a11 := a[11]
  let a12 := a[12]
  let a13 := a[13]
  let a14 := a[14]
  let a15 := a[15]
  let a16 := a[16]
  let a17 := a[17]
  let a18 := a[18]
  let a19 := a[19]
  let a20 := a[20]
  let a21 := a[21]
  let a22 := a[22]
  let a23 := a[23]
  let a24 := a[24]
  let bc0 := a0 ^^^ a5 ^^^ a10 ^^^ a15 ^^^ a20
  let bc1 := a1 ^^^ a6 ^^^ a11 ^^^ a16 ^^^ a21
  let bc2 := a2 ^^^ a7 ^^^ a12 ^^^ a17 ^^^ a22
  let bc3 := a3 ^^^ a8 ^^^ a13 ^^^ a18 ^^^ a23
  let bc4 := a4 ^^^ a9 ^^^ a14 ^^^ a19 ^^^ a24
  let d0 := bc4 ^^^ (bc1).rotateLeft 1
  let d1 := bc0 ^^^ (bc2).rotateLeft 1
  let d2 := bc1 ^^^ (bc3).rotateLeft 1
  let d3 := bc2 ^^^ (bc4).rotateLeft 1
  let d4 := bc3 ^^^ (bc0).rotateLeft 1
  let bc0 := a0 ^^^ d0
  let t := a6 ^^^ d1
  let bc1 := (t).rotateLeft 44
  let t := a12 ^^^ d2
  let bc2 := (t).rotateLeft 43
  let t := a18 ^^^ d3
  let bc3 := (t).rotateLeft 21
  let t := a24 ^^^ d4
  let bc4 := (t).rotateLeft 14
  let a0 := bc0 ^^^ (bc2 &&& ~~~bc1) ^^^ rcv
  let a6 := bc1 ^^^ (bc3 &&& ~~~bc2)
  let a12 := bc2 ^^^ (bc4 &&& ~~~bc3)
  let a18 := bc3 ^^^ (bc0 &&& ~~~bc4)
  let a24 := bc4 ^^^ (bc1 &&& ~~~bc0)
  let t := a10 ^^^ d0
  let bc2 := (t).rotateLeft 3
  let t := a16 ^^^ d1
  let bc3 := (t).rotateLeft 45
  let t := a22 ^^^ d2
  let bc4 := (t).rotateLeft 61
  let t := a3 ^^^ d3
  let bc0 := (t).rotateLeft 28
  let t := a9 ^^^ d4
  let bc1 := (t).rotateLeft 20
  let a10 := bc0 ^^^ (bc2 &&& ~~~bc1)
  let a16 := bc1 ^^^ (bc3 &&& ~~~bc2)
  let a22 := bc2 ^^^ (bc4 &&& ~~~bc3)
  let a3 := bc3 ^^^ (bc0 &&& ~~~bc4)
  let a9 := bc4 ^^^ (bc1 &&& ~~~bc0)
  let t := a20 ^^^ d0
  let bc4 := (t).rotateLeft 18
  let t := a1 ^^^ d1
  let bc0 := (t).rotateLeft 1
  let t := a7 ^^^ d2
  let bc1 := (t).rotateLeft 6
  let t := a13 ^^^ d3
  let bc2 := (t).rotateLeft 25
  let t := a19 ^^^ d4
  let bc3 := (t).rotateLeft 8
  let a20 := bc0 ^^^ (bc2 &&& ~~~bc1)
  let a1 := bc1 ^^^ (bc3 &&& ~~~bc2)
  let a7 := bc2 ^^^ (bc4 &&& ~~~bc3)
  let a13 := bc3 ^^^ (bc0 &&& ~~~bc4)
  let a19 := bc4 ^^^ (bc1 &&& ~~~bc0)
  let t := a5 ^^^ d0
  let bc1 := (t).rotateLeft 36
  let t := a11 ^^^ d1
  let bc2 := (t).rotateLeft 10
  let t := a17 ^^^ d2
  let bc3 := (t).rotateLeft 15
  let t := a23 ^^^ d3
  let bc4 := (t).rotateLeft 56
  let t := a4 ^^^ d4
  let bc0 := (t).rotateLeft 27
  let a5 := bc0 ^^^ (bc2 &&& ~~~bc1)
  let a11 := bc1 ^^^ (bc3 &&& ~~~bc2)
  let a17 := bc2 ^^^ (bc4 &&& ~~~bc3)
  let a23 := bc3 ^^^ (bc0 &&& ~~~bc4)
  let a4 := bc4 ^^^ (bc1 &&& ~~~bc0)
  let t := a15 ^^^ d0
  let bc3 := (t).rotateLeft 41
  let t := a21 ^^^ d1
  let bc4 := (t).rotateLeft 2
  let t := a2 ^^^ d2
  let bc0 := (t).rotateLeft 62
  let t := a8 ^^^ d3
  let bc1 := (t).rotateLeft 55
  let t := a14 ^^^ d4
  let bc2 := (t).rotateLeft 39
  let a15 := bc0 ^^^ (bc2 &&& ~~~bc1)
  let a21 := bc1 ^^^ (bc3 &&& ~~~bc2)
  let a2 := bc2 ^^^ (bc4 &&& ~~~bc3)
  let a8 := bc3 ^^^ (bc0 &&& ~~~bc4)
  let a14 := bc4 ^^^ (bc1 &&& ~~~bc0)
  #v[a0, a1, a2, a3, a4, a5, a6, a7, a8, a9, a10, a11, a12, a13, a14, a15, a16, a17, a18, a19, a20, a21, a22, a23, a24]

/-- hash/sha3/keccakf.go:141-231, "Round 2" of the unrolled loop body; `rcv` is `rc[i+1]`. -/
def round2 (a : Vector W64 25) (rcv : W64) : Vector W64 25 :=
  let a0 := a[0]
  let a1 := a[1]
  let a2 := a[2]
  let a3 := a[3]
  let a4 := a[4]
  let a5 := a[5]
  let a6 := a[6]
  let a7 := a[7]
  let a8 := a[8]
  let a9 := a[9]
  let a10 := a[10]
  let a11 := a[11]
  let a12 := a[12]
  let a13 := a[13]
  let a14 := a[14]
  let a15 := a[15]
  let a16 := a[16]
  let a17 := a[17]
  let a18 := a[18]
  let a19 := a[19]
  let a20 := a[20]
  let a21 := a[21]
  let a22 := a[22]
  let a23 := a[23]
  let a24 := a[24]
  let bc0 := a0 ^^^ a5 ^^^ a10 ^^^ a15 ^^^ a20
  let bc1 := a1 ^^^ a6 ^^^ a11 ^^^ a16 ^^^ a21
  let bc2 := a2 ^^^ a7 ^^^ a12 ^^^ a17 ^^^ a22
  let bc3 := a3 ^^^ a8 ^^^ a13 ^^^ a18 ^^^ a23
  let bc4 := a4 ^^^ a9 ^^^ a14 ^^^ a19 ^^^ a24
  let d0 := bc4 ^^^ (bc1).rotateLeft 1
  let d1 := bc0 ^^^ (bc2).rotateLeft 1
  let d2 := bc1 ^^^ (bc3).rotateLeft 1
  let d3 := bc2 ^^^ (bc4).rotateLeft 1
  let d4 := bc3 ^^^ (bc0).rotateLeft 1
  let bc0 := a0 ^^^ d0
  let t := a16 ^^^ d1
  let bc1 := (t).rotateLeft 44
  let t := a7 ^^^ d2
  let bc2 := (t).rotateLeft 43
  let t := a23 ^^^ d3
  let bc3 := (t).rotateLeft 21
  let t := a14 ^^^ d4
  let bc4 := (t).rotateLeft 14
  let a0 := bc0 ^^^ (bc2 &&& ~~~bc1) ^^^ rcv
  let a16 := bc1 ^^^ (bc3 &&& ~~~bc2)
  let a7 := bc2 ^^^ (bc4 &&& ~~~bc3)
  let a23 := bc3 ^^^ (bc0 &&& ~~~bc4)
  let a14 := bc4 ^^^ (bc1 &&& ~~~bc0)
  let t := a20 ^^^ d0
  let bc2 := (t).rotateLeft 3
  let t := a11 ^^^ d1
  let bc3 := (t).rotateLeft 45
  let t := a2 ^^^ d2
  let bc4 := (t).rotateLeft 61
  let t := a18 ^^^ d3
  let bc0 := (t).rotateLeft 28
  let t := a9 ^^^ d4
  let bc1 := (t).rotateLeft 20
  let a20 := bc0 ^^^ (bc2 &&& ~~~bc1)
  let a11 := bc1 ^^^ (bc3 &&& ~~~bc2)
  let a2 := bc2 ^^^ (bc4 &&& ~~~bc3)
  let a18 := bc3 ^^^ (bc0 &&& ~~~bc4)
  let a9 := bc4 ^^^ (bc1 &&& ~~~bc0)
  let t := a15 ^^^ d0
  let bc4 := (t).rotateLeft 18
  let t := a6 ^^^ d1
  let bc0 := (t).rotateLeft 1
  let t := a22 ^^^ d2
  let bc1 := (t).rotateLeft 6
  let t := a13 ^^^ d3
  let bc2 := (t).rotateLeft 25
  let t := a4 ^^^ d4
  let bc3 := (t).rotateLeft 8
  let a15 := bc0 ^^^ (bc2 &&& ~~~bc1)
  let a6 := bc1 ^^^ (bc3 &&& ~~~bc2)
  let a22 := bc2 ^^^ (bc4 &&& ~~~bc3)
  let a13 := bc3 ^^^ (bc0 &&& ~~~bc4)
  let a4 := bc4 ^^^ (bc1 &&& ~~~bc0)
  let t := a10 ^^^ d0
  let bc1 := (t).rotateLeft 36
  let t := a1 ^^^ d1
  let bc2 := (t).rotateLeft 10
  let t := a17 ^^^ d2
  let bc3 := (t).rotateLeft 15
  let t := a8 ^^^ d3
  let bc4 := (t).rotateLeft 56
  let t := a24 ^^^ d4
  let bc0 := (t).rotateLeft 27
  let a10 := bc0 ^^^ (bc2 &&& ~~~bc1)
  let a1 := bc1 ^^^ (bc3 &&& ~~~bc2)
  let a17 := bc2 ^^^ (bc4 &&& ~~~bc3)
  let a8 := bc3 ^^^ (bc0 &&& ~~~bc4)
  let a24 := bc4 ^^^ (bc1 &&& ~~~bc0)
  let t := a5 ^^^ d0
  let bc3 := (t).rotateLeft 41
  let t := a21 ^^^ d1
  let bc4 := (t).rotateLeft 2
  let t := a12 ^^^ d2
  let bc0 := (t).rotateLeft 62
  let t := a3 ^^^ d3
  let bc1 := (t).rotateLeft 55
  let t := a19 ^^^ d4
  let bc2 := (t).rotateLeft 39
  let a5 := bc0 ^^^ (bc2 &&& ~~~bc1)
  let a21 := bc1 ^^^ (bc3 &&& ~~~bc2)
  let a12 := bc2 ^^^ (bc4 &&& ~~~bc3)
  let a3 := bc3 ^^^ (bc0 &&& ~~~bc4)
  let a19 := bc4 ^^^ (bc1 &&& ~~~bc0)
  #v[a0, a1, a2, a3, a4, a5, a6, a7, a8, a9, a10, a11, a12, a13, a14, a15, a16, a17, a18, a19, a20, a21, a22, a23, a24]

/-- hash/sha3/keccakf.go:232-322, "Round 3" of the unrolled loop body; `rcv` is `rc[i+2]`. -/
def round3 (a : Vector W64 25) (rcv : W64) : Vector W64 25 :=
  let a0 := a[0]
  let a1 := a[1]
  let a2 := a[2]
  let a3 := a[3]
  let a4 := a[4]
  let a5 := a[5]
  let a6 := a[6]
  let a7 := a[7]
  let a8 := a[8]
  let a9 := a[9]
  let a10 := a[10]
  let a11 := a[11]
  let a12 := a[12]
  let a13 := a[13]
  let a14 := a[14]
  let a15 := a[15]
  let a16 := a[16]
  let a17 := a[17]
  let a18 := a[18]
  let a19 := a[19]
  let a20 := a[20]
  let a21 := a[21]
  let a22 := a[22]
  let a23 := a[23]
  let a24 := a[24]
  let bc0 := a0 ^^^ a5 ^^^ a10 ^^^ a15 ^^^ a20
  let bc1 := a1 ^^^ a6 ^^^ a11 ^^^ a16 ^^^ a21
  let bc2 := a2 ^^^ a7 ^^^ a12 ^^^ a17 ^^^ a22
  let bc3 := a3 ^^^ a8 ^^^ a13 ^^^ a18 ^^^ a23
  let bc4 := a4 ^^^ a9 ^^^ a14 ^^^ a19 ^^^ a24
  let d0 := bc4 ^^^ (bc1).rotateLeft 1
  let d1 := bc0 ^^^ (bc2).rotateLeft 1
  let d2 := bc1 ^^^ (bc3).rotateLeft 1
  let d3 := bc2 ^^^ (bc4).rotateLeft 1
  let d4 := bc3 ^^^ (bc0).rotateLeft 1
  let bc0 := a0 ^^^ d0
  let t := a11 ^^^ d1
  let bc1 := (t).rotateLeft 44
  let t := a22 ^^^ d2
  let bc2 := (t).rotateLeft 43
  let t := a8 ^^^ d3
  let bc3 := (t).rotateLeft 21
  let t := a19 ^^^ d4
  let bc4 := (t).rotateLeft 14
  let a0 := bc0 ^^^ (bc2 &&& ~~~bc1) ^^^ rcv
  let a11 := bc1 ^^^ (bc3 &&& ~~~bc2)
  let a22 := bc2 ^^^ (bc4 &&& ~~~bc3)
  let a8 := bc3 ^^^ (bc0 &&& ~~~bc4)
  let a19 := bc4 ^^^ (bc1 &&& ~~~bc0)
  let t := a15 ^^^ d0
  let bc2 := (t).rotateLeft 3
  let t := a1 ^^^ d1
  let bc3 := (t).rotateLeft 45
  let t := a12 ^^^ d2
  let bc4 := (t).rotateLeft 61
  let t := a23 ^^^ d3
  let bc0 := (t).rotateLeft 28
  let t := a9 ^^^ d4
  let bc1 := (t).rotateLeft 20
  let a15 := bc0 ^^^ (bc2 &&& ~~~bc1)
  let a1 := bc1 ^^^ (bc3 &&& ~~~bc2)
  let a12 := bc2 ^^^ (bc4 &&& ~~~bc3)
  let a23 := bc3 ^^^ (bc0 &&& ~~~bc4)
  let a9 := bc4 ^^^ (bc1 &&& ~~~bc0)
  let t := a5 ^^^ d0
  let bc4 := (t).rotateLeft 18
  let t := a16 ^^^ d1
  let bc0 := (t).rotateLeft 1
  let t := a2 ^^^ d2
  let bc1 := (t).rotateLeft 6
  let t := a13 ^^^ d3
  let bc2 := (t).rotateLeft 25
  let t := a24 ^^^ d4
  let bc3 := (t).rotateLeft 8
  let a5 := bc0 ^^^ (bc2 &&& ~~~bc1)
  let a16 := bc1 ^^^ (bc3 &&& ~~~bc2)
  let a2 := bc2 ^^^ (bc4 &&& ~~~bc3)
  let a13 := bc3 ^^^ (bc0 &&& ~~~bc4)
  let a24 := bc4 ^^^ (bc1 &&& ~~~bc0)
  let t := a20 ^^^ d0
  let bc1 := (t).rotateLeft 36
  let t := a6 ^^^ d1
  let bc2 := (t).rotateLeft 10
  let t := a17 ^^^ d2
  let bc3 := (t).rotateLeft 15
  let t := a3 ^^^ d3
  let bc4 := (t).rotateLeft 56
  let t := a14 ^^^ d4
  let bc0 := (t).rotateLeft 27
  let a20 := bc0 ^^^ (bc2 &&& ~~~bc1)
  let a6 := bc1 ^^^ (bc3 &&& ~~~bc2)
  let a17 := bc2 ^^^ (bc4 &&& ~~~bc3)
  let a3 := bc3 ^^^ (bc0 &&& ~~~bc4)
  let a14 := bc4 ^^^ (bc1 &&& ~~~bc0)
  let t := a10 ^^^ d0
  let bc3 := (t).rotateLeft 41
  let t := a21 ^^^ d1
  let bc4 := (t).rotateLeft 2
  let t := a7 ^^^ d2
  let bc0 := (t).rotateLeft 62
  let t := a18 ^^^ d3
  let bc1 := (t).rotateLeft 55
  let t := a4 ^^^ d4
  let bc2 := (t).rotateLeft 39
  let a10 := bc0 ^^^ (bc2 &&& ~~~bc1)
  let a21 := bc1 ^^^ (bc3 &&& ~~~bc2)
  let a7 := bc2 ^^^ (bc4 &&& ~~~bc3)
  let a18 := bc3 ^^^ (bc0 &&& ~~~bc4)
  let a4 := bc4 ^^^ (bc1 &&& ~~~bc0)
  #v[a0, a1, a2, a3, a4, a5, a6, a7, a8, a9, a10, a11, a12, a13, a14, a15, a16, a17, a18, a19, a20, a21, a22, a23, a24]

/-- hash/sha3/keccakf.go:323-412, "Round 4" of the unrolled loop body; `rcv` is `rc[i+3]`. -/
def round4 (a : Vector W64 25) (rcv : W64) : Vector W64 25 :=
  let a0 := a[0]
  let a1 := a[1]
  let a2 := a[2]
  let a3 := a[3]
  let a4 := a[4]
  let a5 := a[5]
  let a6 := a[6]
  let a7 := a[7]
  let a8 := a[8]
  let a9 := a[9]
  let a10 := a[10]
  let a11 := a[11]
  let a12 := a[12]
  let a13 := a[13]
  let a14 := a[14]
  let a15 := a[15]
  let a16 := a[16]
  let a17 := a[17]
  let a18 := a[18]
  let a19 := a[19]
  let a20 := a[20]
  let a21 := a[21]
  let a22 := a[22]
  let a23 := a[23]
  let a24 := a[24]
  let bc0 := a0 ^^^ a5 ^^^ a10 ^^^ a15 ^^^ a20
  let bc1 := a1 ^^^ a6 ^^^ a11 ^^^ a16 ^^^ a21
  let bc2 := a2 ^^^ a7 ^^^ a12 ^^^ a17 ^^^ a22
  let bc3 := a3 ^^^ a8 ^^^ a13 ^^^ a18 ^^^ a23
  let bc4 := a4 ^^^ a9 ^^^ a14 ^^^ a19 ^^^ a24
  let d0 := bc4 ^^^ (bc1).rotateLeft 1
  let d1 := bc0 ^^^ (bc2).rotateLeft 1
  let d2 := bc1 ^^^ (bc3).rotateLeft 1
  let d3 := bc2 ^^^ (bc4).rotateLeft 1
  let d4 := bc3 ^^^ (bc0).rotateLeft 1
  let bc0 := a0 ^^^ d0
  let t := a1 ^^^ d1
  let bc1 := (t).rotateLeft 44
  let t := a2 ^^^ d2
  let bc2 := (t).rotateLeft 43
  let t := a3 ^^^ d3
  let bc3 := (t).rotateLeft 21
  let t := a4 ^^^ d4
  let bc4 := (t).rotateLeft 14
  let a0 := bc0 ^^^ (bc2 &&& ~~~bc1) ^^^ rcv
  let a1 := bc1 ^^^ (bc3 &&& ~~~bc2)
  let a2 := bc2 ^^^ (bc4 &&& ~~~bc3)
  let a3 := bc3 ^^^ (bc0 &&& ~~~bc4)
  let a4 := bc4 ^^^ (bc1 &&& ~~~bc0)
  let t := a5 ^^^ d0
  let bc2 := (t).rotateLeft 3
  let t := a6 ^^^ d1
  let bc3 := (t).rotateLeft 45
  let t := a7 ^^^ d2
  let bc4 := (t).rotateLeft 61
  let t := a8 ^^^ d3
  let bc0 := (t).rotateLeft 28
  let t := a9 ^^^ d4
  let bc1 := (t).rotateLeft 20
  let a5 := bc0 ^^^ (bc2 &&& ~~~bc1)
  let a6 := bc1 ^^^ (bc3 &&& ~~~bc2)
  let a7 := bc2 ^^^ (bc4 &&& ~~~bc3)
  let a8 := bc3 ^^^ (bc0 &&& ~~~bc4)
  let a9 := bc4 ^^^ (bc1 &&& ~~~bc0)
  let t := a10 ^^^ d0
  let bc4 := (t).rotateLeft 18
  let t := a11 ^^^ d1
  let bc0 := (t).rotateLeft 1
  let t := a12 ^^^ d2
  let bc1 := (t).rotateLeft 6
  let t := a13 ^^^ d3
  let bc2 := (t).rotateLeft 25
  let t := a14 ^^^ d4
  let bc3 := (t).rotateLeft 8
  let a10 := bc0 ^^^ (bc2 &&& ~~~bc1)
  let a11 := bc1 ^^^ (bc3 &&& ~~~bc2)
  let a12 := bc2 ^^^ (bc4 &&& ~~~bc3)
  let a13 := bc3 ^^^ (bc0 &&& ~~~bc4)
  let a14 := bc4 ^^^ (bc1 &&& ~~~bc0)
  let t := a15 ^^^ d0
  let bc1 := (t).rotateLeft 36
  let t := a16 ^^^ d1
  let bc2 := (t).rotateLeft 10
  let t := a17 ^^^ d2
  let bc3 := (t).rotateLeft 15
  let t := a18 ^^^ d3
  let bc4 := (t).rotateLeft 56
  let t := a19 ^^^ d4
  let bc0 := (t).rotateLeft 27
  let a15 := bc0 ^^^ (bc2 &&& ~~~bc1)
  let a16 := bc1 ^^^ (bc3 &&& ~~~bc2)
  let a17 := bc2 ^^^ (bc4 &&& ~~~bc3)
  let a18 := bc3 ^^^ (bc0 &&& ~~~bc4)
  let a19 := bc4 ^^^ (bc1 &&& ~~~bc0)
  let t := a20 ^^^ d0
  let bc3 := (t).rotateLeft 41
  let t := a21 ^^^ d1
  let bc4 := (t).rotateLeft 2
  let t := a22 ^^^ d2
  let bc0 := (t).rotateLeft 62
  let t := a23 ^^^ d3
  let bc1 := (t).rotateLeft 55
  let t := a24 ^^^ d4
  let bc2 := (t).rotateLeft 39
  let a20 := bc0 ^^^ (bc2 &&& ~~~bc1)
  let a21 := bc1 ^^^ (bc3 &&& ~~~bc2)
  let a22 := bc2 ^^^ (bc4 &&& ~~~bc3)
  let a23 := bc3 ^^^ (bc0 &&& ~~~bc4)
  let a24 := bc4 ^^^ (bc1 &&& ~~~bc0)
  #v[a0, a1, a2, a3, a4, a5, a6, a7, a8, a9, a10, a11, a12, a13, a14, a15, a16, a17, a18, a19, a20, a21, a22, a23, a24]

/-- hash/sha3/keccakf.go:46-: one iteration of `for i := 0; i < 24; i += 4`. -/
def rounds4 (a : Vector W64 25) (i : Nat) : Vector W64 25 :=
  round4 (round3 (round2 (round1 a (rcTable.getD i 0)) (rcTable.getD (i + 1) 0))
    (rcTable.getD (i + 2) 0)) (rcTable.getD (i + 3) 0)

/-- hash/sha3/keccakf.go:41-, `keccakF1600`: the loop runs for `i = 0, 4, …, 20`. -/
def keccakF1600 (a : Vector W64 25) : Vector W64 25 :=
  [0, 4, 8, 12, 16, 20].foldl rounds4 a

end Model.Sha3
