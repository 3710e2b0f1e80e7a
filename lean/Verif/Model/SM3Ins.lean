import Verif.Model.Bytes
/- The helper functions of hash/sm3/compress.go and the statements its unrolled body is made of. -/
namespace Model.SM3
open Model

/-- hash/sm3/compress.go:3-5 `rotl32` (only constant counts 1..31 occur; Go shifts by ≥ 32 give 0, as
here). -/
def rotl32 (count : Nat) (val : W32) : W32 := (val <<< count) ||| (val >>> (32 - count))

/-- compress.go:8-10 -/
def p0 (X : W32) : W32 := X ^^^ rotl32 9 X ^^^ rotl32 17 X
/-- compress.go:13-15 -/
def p1 (X : W32) : W32 := X ^^^ rotl32 15 X ^^^ rotl32 23 X
/-- compress.go:20-22 -/
def ch (M A B : W32) : W32 := ((A ^^^ B) &&& M) ^^^ B
/-- compress.go:26-32 -/
def maj (X Y Z : W32) : W32 := ch (Y ^^^ Z) X Y
/-- compress.go:64-66 -/
def sm3e (W0 W7 W13 W3 W10 : W32) : W32 := p1 (W0 ^^^ W7 ^^^ rotl32 15 W13) ^^^ rotl32 7 W3 ^^^ W10

/-- compress.go:68-70 `loadBe32`; reading `x[3]` first panics on a short slice. -/
def loadBe32 : List Byte → Option W32
  | x0 :: x1 :: x2 :: x3 :: _ =>
    some (x3.setWidth 32 ||| (x2.setWidth 32 <<< 8) ||| (x1.setWidth 32 <<< 16) ||| (x0.setWidth 32 <<< 24))
  | _ => none

/-- The statements of the loop body, compress.go:119-234.  Registers A..H are numbered 0..7, the message
words W00..W15 0..15.  `r1 a b c d e f g h TJ wi wj wk` is
`r1(a, &b, c, &d, e, &f, g, &h, TJ, wi, wj^wk)`; `sm3e dst w0 w7 w13 w3 w10` is an assignment. -/
inductive Ins
  | r1 (a b c d e f g h : Fin 8) (tj : W32) (wi wj wk : Fin 16)
  | r2 (a b c d e f g h : Fin 8) (tj : W32) (wi wj wk : Fin 16)
  | sm3e (dst w0 w7 w13 w3 w10 : Fin 16)
  deriving DecidableEq, Repr

/-- Registers and message words. -/
structure Mach where
  r : Vector W32 8
  w : Vector W32 16

/-- Assignment to a numbered variable. -/
def put {n : Nat} (v : Vector W32 n) (i : Fin n) (x : W32) : Vector W32 n := v.set i x

/-- compress.go:34-47 `r1` and 49-62 `r2` differ in the two boolean functions only. -/
def roundBody (ff gg : W32 → W32 → W32 → W32) (r : Vector W32 8) (a b c d e f g h : Fin 8) (TJ Wi Wj : W32) :
    Vector W32 8 :=
  let A12 := rotl32 12 (r.get a)
  let SS1 := rotl32 7 (A12 + (r.get e) + TJ)
  let TT1 := ff (r.get a) (r.get b) (r.get c) + (r.get d) + (SS1 ^^^ A12) + Wj
  let TT2 := gg (r.get e) (r.get f) (r.get g) + (r.get h) + SS1 + Wi
  let r := put r b (rotl32 9 (r.get b))
  let r := put r d TT1
  let r := put r f (rotl32 19 (r.get f))
  put r h (p0 TT2)

/-- One statement. -/
def step (m : Mach) : Ins → Mach
  | .r1 a b c d e f g h tj wi wj wk =>
    let x3 := fun x y z : W32 => x ^^^ y ^^^ z
    { m with r := roundBody x3 x3 m.r a b c d e f g h tj (m.w.get wi) ((m.w.get wj) ^^^ (m.w.get wk)) }
  | .r2 a b c d e f g h tj wi wj wk =>
    { m with r := roundBody maj ch m.r a b c d e f g h tj (m.w.get wi) ((m.w.get wj) ^^^ (m.w.get wk)) }
  | .sm3e dst w0 w7 w13 w3 w10 =>
    { m with w := put m.w dst (sm3e (m.w.get w0) (m.w.get w7) (m.w.get w13) (m.w.get w3) (m.w.get w10)) }

end Model.SM3
