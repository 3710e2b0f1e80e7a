import Verif.Model.Limb
/-
Model of dh/csidh/consts.go, fp511.go and fp511_generic.go (the build without assembly).  A field element is the
list of its 8 words, least significant first.  Destinations that coincide with arguments are the subject of
Model.CsidhAlias; here every function returns its result.
-/
namespace Model.Csidh
open Model Model.Limb

/-- csidh.go:8 `fp` -/
abbrev Fp := List W64

/-- consts.go:27-34 `primes` -/
def primes : List W64 := [
  0x0003, 0x0005, 0x0007, 0x000B, 0x000D, 0x0011, 0x0013, 0x0017, 0x001D, 0x001F, 0x0025,
  0x0029, 0x002B, 0x002F, 0x0035, 0x003B, 0x003D, 0x0043, 0x0047, 0x0049, 0x004F, 0x0053,
  0x0059, 0x0061, 0x0065, 0x0067, 0x006B, 0x006D, 0x0071, 0x007F, 0x0083, 0x0089, 0x008B,
  0x0095, 0x0097, 0x009D, 0x00A3, 0x00A7, 0x00AD, 0x00B3, 0x00B5, 0x00BF, 0x00C1, 0x00C5,
  0x00C7, 0x00D3, 0x00DF, 0x00E3, 0x00E5, 0x00E9, 0x00EF, 0x00F1, 0x00FB, 0x0101, 0x0107,
  0x010D, 0x010F, 0x0115, 0x0119, 0x011B, 0x0125, 0x0133, 0x0137, 0x0139, 0x013D, 0x014B,
  0x0151, 0x015B, 0x015D, 0x0161, 0x0167, 0x016F, 0x0175, 0x024B]

/-- consts.go:36-41 `p` -/
def p : Fp := [
  0x1B81B90533C6C87B, 0xC2721BF457ACA835, 0x516730CC1F0B4F25, 0xA7AAC6C567F35507,
  0x5AFBFCC69322C9CD, 0xB42D083AEDC88C42, 0xFC8AB0D15E3E4C4A, 0x65B48E8F740F89BF]

/-- consts.go:44-49 `one` -/
def one : Fp := [
  0xC8FC8DF598726F0A, 0x7B1BC81750A6AF95, 0x5D319E67C1E961B4, 0xB0AA7275301955F1,
  0x4A080672D9BA6C64, 0x97A5EF8A246EE77B, 0x06EA9E5D4383676A, 0x3496E2E117E0EC80]

/-- consts.go:52-57 `two` -/
def two : Fp := [
  0x767762E5FD1E1599, 0x33C5743A49A0B6F6, 0x68FC0C0364C77443, 0xB9AA1E24F83F56DB,
  0x3914101F20520EFB, 0x7B1ED6D95B1542B4, 0x114A8BE928C8828A, 0x03793732BBB24F40]

/-- consts.go:60-65 `twoNeg` -/
def twoNeg : Fp := [
  0xA50A561F36A8B2E2, 0x8EACA7BA0E0BF13E, 0xE86B24C8BA43DAE2, 0xEE00A8A06FB3FE2B,
  0x21E7ECA772D0BAD1, 0x390E316192B3498E, 0xEB4024E83575C9C0, 0x623B575CB85D3A7F]

/-- consts.go:68-73 `four` -/
def four : Fp := [
  0xECEEC5CBFA3C2B32, 0x678AE87493416DEC, 0xD1F81806C98EE886, 0x73543C49F07EADB6,
  0x7228203E40A41DF7, 0xF63DADB2B62A8568, 0x229517D251910514, 0x06F26E6577649E80]

/-- consts.go:76-80 `fourSqrtP` -/
def fourSqrtP : Fp := [
  0x17895E71E1A20B3F, 0x38D0CD95F8636A56, 0x142B9541E59682CD, 0x856F1399D91D6592,
  0x0000000000000002, 0, 0, 0]

/-- consts.go:83-85 `pNegInv` -/
def pNegInv : Fp := [
  0x66c1301f632e294d, 0, 0, 0,
  0, 0, 0, 0]

/-- consts.go:89-94 `pMin1By2` -/
def pMin1By2 : Fp := [
  0x8DC0DC8299E3643D, 0xE1390DFA2BD6541A, 0xA8B398660F85A792, 0xD3D56362B3F9AA83,
  0x2D7DFE63499164E6, 0x5A16841D76E44621, 0xFE455868AF1F2625, 0x32DA4747BA07C4DF]

/-- consts.go:98-103 `pMin1` -/
def pMin1 : Fp := [
  0x1B81B90533C6C879, 0xC2721BF457ACA835, 0x516730CC1F0B4F25, 0xA7AAC6C567F35507,
  0x5AFBFCC69322C9CD, 0xB42D083AEDC88C42, 0xFC8AB0D15E3E4C4A, 0x65B48E8F740F89BF]

/-- fp511.go:24-26 `ctPick64` -/
def ctPick64 (which in1 in2 : W64) : W64 := (in1 &&& which) ||| (in2 &&& ~~~which)

/-- fp511.go:30-36 `ctIsNonZero64` -/
def ctIsNonZero64 (i : W64) : Nat := ((i ||| ~~~(i - 1)) >>> 63).toNat

/-- `r[i] = ctPick64(w, a[i], b[i])` for all i -/
def pickWords (w : W64) (a b : List W64) : List W64 := List.zipWith (ctPick64 w) a b

/-- fp511_generic.go:15-37: `h, l = bits.Mul64(m2, m1[i]); r[i], c = bits.Add64(l, c, 0); c = h + c` for the words
of `m1` given; the words written and the last `c`. -/
def mulTail (m2 : W64) : List W64 → W64 → List W64 × W64
  | [], c => ([], c)
  | w :: ws, c =>
    let (h, l) := mul64 m2 w
    let (r, c) := add64 l c 0
    let (rs, c) := mulTail m2 ws (h + c)
    (r :: rs, c)

/-- fp511_generic.go:10-41 `mul512` -/
def mul512 (m1 : Fp) (m2 : W64) : Fp :=
  let (c, r0) := mul64 m2 (word m1 0)
  let (r, c) := mulTail m2 ((m1.drop 1).take 6) c
  let (_, l) := mul64 m2 (word m1 7)
  let (r7, _) := add64 l c 0
  r0 :: r ++ [r7]

/-- fp511_generic.go:47-80 `mul576`: 9 words -/
def mul576 (m1 : Fp) (m2 : W64) : List W64 :=
  let (c, r0) := mul64 m2 (word m1 0)
  let (r, c) := mulTail m2 ((m1.drop 1).take 6) c
  let (h, l) := mul64 m2 (word m1 7)
  let (r7, c) := add64 l c 0
  let (r8, c) := add64 h c 0
  r0 :: r ++ [r7, r8 + c]

/-- fp511_generic.go:85-94 `cswap512` -/
def cswap512 (x y : Fp) (choice : Byte) : Fp × Fp := cswapWords (0 - choice.setWidth 64) x y

/-- fp511.go:43-68: one round of `mulGeneric`, with carry `c0` into the first addition; the new `s` and `c`. -/
def mulRound (y s : Fp) (xi c0 : W64) : Fp × W64 :=
  let q := (xi * word y 0 + word s 0) * word pNegInv 0
  let t1 := mul576 p q
  let t2 := mul576 y xi
  let (t1, _) := addLoop t1 t2 c0
  let (_, c) := add64 (word t1 0) (word s 0) 0
  let (r, c) := addLoop ((t1.drop 1).take 7) ((s.drop 1).take 7) c
  let (r7, _) := add64 (word t1 8) 0 c
  (r ++ [r7], c)

/-- fp511.go:43-69: the loop of `mulGeneric` over the words of x given. -/
def mulLoop (y : Fp) : List W64 → Fp × W64 → Fp × W64
  | [], s => s
  | xi :: xs, (s, _) => mulLoop y xs (mulRound y s xi 0)

/-- fp511.go:38-95 `mulGeneric`.  The last round starts its first addition with whatever carry is left. -/
def mulGeneric (x y : Fp) : Fp :=
  let (s, c) := mulLoop y (x.take 7) (List.replicate 8 0, 0)
  (mulRound y s (word x 7) c).1

/-- "if p <= r < 2p then r = r-p", fp511_generic.go:104-122, fp511.go:124-142 and 217-235. -/
def condSub (r : Fp) : Fp :=
  let (t, c) := subLoop r p 0
  pickWords (0 - c) r t

/-- fp511_generic.go:98-123 `mulRdc` -/
def mulRdc (x y : Fp) : Fp := condSub (mulGeneric x y)

/-- fp511.go:98-110 `isLess`: the loop over the words from the most significant down. -/
def isLessLoop : List (W64 × W64) → Bool
  | [] => false
  | (x, y) :: ws =>
    let (v, c) := sub64 y x 0
    if c ≠ 0 then false
    else if v ≠ 0 then true
    else isLessLoop ws

/-- fp511.go:98-110 `isLess` -/
def isLess (x y : Fp) : Bool := isLessLoop ((List.zip x y).reverse)

/-- fp511.go:113-143 `addRdc` -/
def addRdc (x y : Fp) : Fp :=
  let (r, _) := addLoop x y 0
  condSub r

/-- fp511.go:146-157 `sub512` -/
def sub512 (x y : Fp) : Fp × W64 := subLoop x y 0

/-- fp511.go:160-184 `subRdc` -/
def subRdc (x y : Fp) : Fp :=
  let (r, c) := subLoop x y 0
  let w := 0 - c
  (addLoop r (p.map fun a => ctPick64 w a 0) 0).1

/-- fp511.go:198-205: the table after `k` iterations of the precomputation loop. -/
def precomp (b : Fp) : Nat → List Fp
  | 0 => [one, b]
  | k + 1 =>
    let t := precomp b k
    let i := 2 * (k + 1)
    let h := t.getD (i / 2) []
    let sq := mulRdc h h
    t ++ [sq, mulRdc sq b]

/-- fp511.go:209-211: `for j := 0; j < 4; j++ { mulRdc(r, r, r) }` -/
def sqrTimes : Nat → Fp → Fp
  | 0, r => r
  | k + 1, r => sqrTimes k (mulRdc r r)

/-- fp511.go:208-215: the loop of `modExpRdcCommon`, `i` iterations left. -/
def expLoop (tab : List Fp) (e : Fp) : Nat → Fp → Fp
  | 0, r => r
  | i + 1, r =>
    let r := sqrTimes 4 r
    let idx := (word e (i / 16) >>> (i % 16 * 4)) &&& 15
    expLoop tab e i (mulRdc r (tab.getD idx.toNat []))

/-- fp511.go:190-236 `modExpRdcCommon` -/
def modExpRdcCommon (b e : Fp) (fpBitLen : Nat) : Fp :=
  condSub (expLoop (precomp b 7) e (fpBitLen / 4) one)

/-- fp511.go:240-242 `modExpRdc512` -/
def modExpRdc512 (b e : Fp) : Fp := modExpRdcCommon b e 512

/-- fp511.go:246-248 `modExpRdc64` -/
def modExpRdc64 (b : Fp) (e : W64) : Fp := modExpRdcCommon b (e :: List.replicate 7 0) 64

/-- fp511.go:259-269 `isNonQuadRes` -/
def isNonQuadRes (v : Fp) : Nat :=
  let res := modExpRdc512 v pMin1By2
  ctIsNonZero64 ((List.zipWith (· ^^^ ·) res one).foldl (· ||| ·) 0)

/-- fp511.go:273-279 `isZero` -/
def isZero (v : Fp) : Bool := ctIsNonZero64 (v.foldl (· ||| ·) 0) = 0

/-- fp511.go:282-288 `equal` -/
def equal (v w : Fp) : Bool := ctIsNonZero64 ((List.zipWith (· ^^^ ·) v w).foldl (· ||| ·) 0) = 0

end Model.Csidh
