/- The SM3 hash function, GB/T 32905-2016 (also draft-shen-sm3-hash-01), for byte strings. -/
namespace Spec.SM3

abbrev Byte := BitVec 8
abbrev Word := BitVec 32

/-- Constants T_j (section 4.2). -/
def T (j : Nat) : Word := if j < 16 then 0x79cc4519 else 0x7a879d8a

/-- Boolean functions FF_j and GG_j (section 4.3). -/
def FF (j : Nat) (x y z : Word) : Word :=
  if j < 16 then x ^^^ y ^^^ z else (x &&& y) ||| (x &&& z) ||| (y &&& z)
def GG (j : Nat) (x y z : Word) : Word :=
  if j < 16 then x ^^^ y ^^^ z else (x &&& y) ||| (~~~x &&& z)

/-- Permutation functions (section 4.4). -/
def P0 (x : Word) : Word := x ^^^ x.rotateLeft 9 ^^^ x.rotateLeft 17
def P1 (x : Word) : Word := x ^^^ x.rotateLeft 15 ^^^ x.rotateLeft 23

/-- Word `j` of a 64-byte block, big-endian. -/
def blockWord (B : List Byte) (j : Nat) : Word :=
  B.getD (4 * j) 0 ++ B.getD (4 * j + 1) 0 ++ B.getD (4 * j + 2) 0 ++ B.getD (4 * j + 3) 0

/-- Message expansion (section 5.3.2): W_0 … W_67. -/
def W (B : List Byte) (j : Nat) : Word :=
  if j < 16 then blockWord B j
  else P1 (W B (j - 16) ^^^ W B (j - 9) ^^^ (W B (j - 3)).rotateLeft 15) ^^^
    (W B (j - 13)).rotateLeft 7 ^^^ W B (j - 6)
termination_by j
decreasing_by all_goals omega

/-- W'_0 … W'_63. -/
def W' (B : List Byte) (j : Nat) : Word := W B j ^^^ W B (j + 4)

/-- The eight registers / the 256-bit chaining value. -/
structure Regs where
  A : Word
  B : Word
  C : Word
  D : Word
  E : Word
  F : Word
  G : Word
  H : Word
  deriving DecidableEq, Repr

/-- Round `j` of the compression function (section 5.3.3). -/
def round (M : List Byte) (j : Nat) (r : Regs) : Regs :=
  let SS1 := (r.A.rotateLeft 12 + r.E + (T j).rotateLeft (j % 32)).rotateLeft 7
  let SS2 := SS1 ^^^ r.A.rotateLeft 12
  let TT1 := FF j r.A r.B r.C + r.D + SS2 + W' M j
  let TT2 := GG j r.E r.F r.G + r.H + SS1 + W M j
  { A := TT1, B := r.A, C := r.B.rotateLeft 9, D := r.C,
    E := P0 TT2, F := r.E, G := r.F.rotateLeft 19, H := r.G }

/-- The first `n` rounds. -/
def rounds (M : List Byte) : Nat → Regs → Regs
  | 0, r => r
  | n + 1, r => round M n (rounds M n r)

def Regs.xor (a b : Regs) : Regs :=
  ⟨a.A ^^^ b.A, a.B ^^^ b.B, a.C ^^^ b.C, a.D ^^^ b.D, a.E ^^^ b.E, a.F ^^^ b.F, a.G ^^^ b.G, a.H ^^^ b.H⟩

/-- The compression function CF(V, B). -/
def CF (V : Regs) (B : List Byte) : Regs := (rounds B 64 V).xor V

/-- The initial value (section 4.1). -/
def IV : Regs :=
  ⟨0x7380166f, 0x4914b2b9, 0x172442d7, 0xda8a0600, 0xa96f30bc, 0x163138aa, 0xe38dee4d, 0xb0fb0e4e⟩

/-- The 64-bit big-endian encoding of a number. -/
def be64 (x : Nat) : List Byte := (List.range 8).map fun i => BitVec.ofNat 8 (x / 256 ^ (7 - i))

/-- Padding (section 5.2) of a byte string: bit `1`, the least number of zero bits so that the
length is 448 mod 512, and the 64-bit length in bits. -/
def pad (m : List Byte) : List Byte :=
  m ++ [0x80] ++ List.replicate ((119 - m.length % 64) % 64) 0 ++ be64 (8 * m.length)

/-- Iteration over the first `n` blocks of `p` (section 5.3.1). -/
def iterate (p : List Byte) : Nat → Regs
  | 0 => IV
  | n + 1 => CF (iterate p n) ((p.drop (64 * n)).take 64)

def wordBytes (w : Word) : List Byte :=
  [w.extractLsb' 24 8, w.extractLsb' 16 8, w.extractLsb' 8 8, w.extractLsb' 0 8]

def Regs.bytes (r : Regs) : List Byte :=
  wordBytes r.A ++ wordBytes r.B ++ wordBytes r.C ++ wordBytes r.D ++
  wordBytes r.E ++ wordBytes r.F ++ wordBytes r.G ++ wordBytes r.H

/-- The digest of a message of less than 2^61 bytes. -/
def hash (m : List Byte) : List Byte := (iterate (pad m) ((pad m).length / 64)).bytes

end Spec.SM3
