/- The Advanced Encryption Standard, FIPS 197. -/
namespace Spec.AES

abbrev Byte := BitVec 8
abbrev Word := BitVec 32

/-! ### GF(2^8), section 4 -/

/-- Multiplication by x modulo x⁸+x⁴+x³+x+1 (section 4.2.1). -/
def xtime (a : Byte) : Byte := if a.msb then (a <<< 1) ^^^ 0x1b else a <<< 1

/-- Multiplication (section 4.2): the sum of `xtime^i a` over the set bits `i` of `b`. -/
def mulFrom (a b : Byte) : Nat → Nat → Byte
  | _, 0 => 0
  | i, n + 1 => (if b.getLsbD i then a else 0) ^^^ mulFrom (xtime a) b (i + 1) n

def mul (a b : Byte) : Byte := mulFrom a b 0 8

/-- The inverse: a^254, with 0 for 0 (the group of units has order 255). -/
def inv (a : Byte) : Byte :=
  let a2 := mul a a
  let a4 := mul a2 a2
  let a8 := mul a4 a4
  let a16 := mul a8 a8
  let a32 := mul a16 a16
  let a64 := mul a32 a32
  let a128 := mul a64 a64
  mul a128 (mul a64 (mul a32 (mul a16 (mul a8 (mul a4 a2)))))

/-- The S-box (section 5.1.1): inversion, then the affine map on bits. -/
def sbox (a : Byte) : Byte :=
  let b := inv a
  BitVec.ofBoolListLE ((List.range 8).map fun i =>
    Bool.xor (b.getLsbD i) (Bool.xor (b.getLsbD ((i + 4) % 8)) (Bool.xor (b.getLsbD ((i + 5) % 8))
      (Bool.xor (b.getLsbD ((i + 6) % 8)) (Bool.xor (b.getLsbD ((i + 7) % 8)) ((0x63 : Byte).getLsbD i))))))

/-- The inverse S-box: inverse affine map, then inversion (section 5.3.2). -/
def invSbox (a : Byte) : Byte :=
  inv (BitVec.ofBoolListLE ((List.range 8).map fun i =>
    Bool.xor (a.getLsbD ((i + 2) % 8)) (Bool.xor (a.getLsbD ((i + 5) % 8)) (Bool.xor (a.getLsbD ((i + 7) % 8))
      ((0x05 : Byte).getLsbD i)))))

/-! ### The state, section 3.4: row, column -/

abbrev State := Fin 4 → Fin 4 → Byte

/-- s[r,c] = in[r + 4c] -/
def toState (b : List Byte) : State := fun r c => b.getD (r.val + 4 * c.val) 0
/-- out[r + 4c] = s[r,c] -/
def ofState (s : State) : List Byte :=
  (List.finRange 4).flatMap fun c => (List.finRange 4).map fun r => s r c

/-! ### Transformations, sections 5.1 and 5.3 -/

def subBytes (s : State) : State := fun r c => sbox (s r c)
def shiftRows (s : State) : State := fun r c => s r (c + r)
def mixColumns (s : State) : State := fun r c =>
  mul 2 (s r c) ^^^ mul 3 (s (r + 1) c) ^^^ s (r + 2) c ^^^ s (r + 3) c
def invSubBytes (s : State) : State := fun r c => invSbox (s r c)
def invShiftRows (s : State) : State := fun r c => s r (c - r)
def invMixColumns (s : State) : State := fun r c =>
  mul 0xe (s r c) ^^^ mul 0xb (s (r + 1) c) ^^^ mul 0xd (s (r + 2) c) ^^^ mul 0x9 (s (r + 3) c)

/-- Byte `r` of a word [a0,a1,a2,a3]. -/
def wordByte (w : Word) (r : Fin 4) : Byte := w.extractLsb' (24 - 8 * r.val) 8

/-- XOR of round key `j` of a key schedule. -/
def addRoundKey (w : Nat → Word) (j : Nat) (s : State) : State :=
  fun r c => s r c ^^^ wordByte (w (4 * j + c.val)) r

/-! ### Key expansion, section 5.2 -/

def mkWord (a b c d : Byte) : Word := a ++ b ++ c ++ d
def subWord (w : Word) : Word :=
  mkWord (sbox (wordByte w 0)) (sbox (wordByte w 1)) (sbox (wordByte w 2)) (sbox (wordByte w 3))
def rotWord (w : Word) : Word := mkWord (wordByte w 1) (wordByte w 2) (wordByte w 3) (wordByte w 0)
/-- x^(i-1) -/
def rconByte : Nat → Byte
  | 0 => 0
  | 1 => 1
  | n + 1 => xtime (rconByte n)
def rcon (i : Nat) : Word := mkWord (rconByte i) 0 0 0

def keyWord (key : List Byte) (i : Nat) : Word :=
  mkWord (key.getD (4 * i) 0) (key.getD (4 * i + 1) 0) (key.getD (4 * i + 2) 0) (key.getD (4 * i + 3) 0)

/-- Word `i` of the key schedule of a key of `nk` words. -/
def w (key : List Byte) (nk i : Nat) : Word :=
  if _h : i < nk ∨ nk = 0 then keyWord key i
  else
    let temp := w key nk (i - 1)
    let temp := if i % nk = 0 then subWord (rotWord temp) ^^^ rcon (i / nk)
      else if nk > 6 ∧ i % nk = 4 then subWord temp
      else temp
    w key nk (i - nk) ^^^ temp
termination_by i
decreasing_by all_goals omega

/-! ### Cipher, section 5.1, and inverse cipher, section 5.3 -/

/-- Rounds 1 … n. -/
def rounds (w : Nat → Word) : Nat → State → State
  | 0, s => s
  | n + 1, s => addRoundKey w (n + 1) (mixColumns (shiftRows (subBytes (rounds w n s))))

/-- The cipher with `nr` rounds and key schedule `w`. -/
def cipherState (w : Nat → Word) (nr : Nat) (s : State) : State :=
  addRoundKey w nr (shiftRows (subBytes (rounds w (nr - 1) (addRoundKey w 0 s))))

/-- Rounds n … 1 of the inverse cipher. -/
def invRounds (w : Nat → Word) : Nat → State → State
  | 0, s => s
  | n + 1, s => invRounds w n (invMixColumns (addRoundKey w (n + 1) (invSubBytes (invShiftRows s))))

def invCipherState (w : Nat → Word) (nr : Nat) (s : State) : State :=
  addRoundKey w 0 (invSubBytes (invShiftRows (invRounds w (nr - 1) (addRoundKey w nr s))))

/-- AES with a key of 16, 24 or 32 bytes: Nk words, Nk + 6 rounds. -/
def encrypt (key block : List Byte) : List Byte :=
  ofState (cipherState (w key (key.length / 4)) (key.length / 4 + 6) (toState block))
def decrypt (key block : List Byte) : List Byte :=
  ofState (invCipherState (w key (key.length / 4)) (key.length / 4 + 6) (toState block))

end Spec.AES
