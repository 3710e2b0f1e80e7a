import Verif.Model.SidhCurve
import Verif.Model.SidhParams
import Verif.Model.Bytes
/-
Model of dh/sidh/common/{params,utils}.go and dh/sidh/sidh.go.  A panic is `none`.
-/
namespace Model.Sidh
open Model Model.Limb

/-! ### common/utils.go -/

/-- common/utils.go:8: `byte((int8(pick << 7)) >> 7)` for `pick` an `int` -/
def which (pick : W64) : Byte := (BitVec.sshiftRight ((pick <<< 7).truncate 8) 7)

/-- common/utils.go:7-12 `Cpick`; `out` has `n` bytes and is written in full.  `none` is the index panic. -/
def cpick (pick : W64) (n : Nat) (in1 in2 : List Byte) : Option (List Byte) :=
  (List.range n).mapM fun i => do
    let a ← in1[i]?
    let b ← in2[i]?
    some ((a &&& which pick) ||| (b &&& ~~~ which pick))

/-- common/utils.go:25 `fp2.A[j] |= uint64(input[i]) << (8 * k)` with i = 8j + k -/
def orByte (w : List W64) (i : Nat) (b : Byte) : List W64 :=
  w.set (i / 8) (w.getD (i / 8) 0 ||| (b.zeroExtend 64 <<< (8 * (i % 8))))

/-- common/utils.go:22-27: the loop over one of the two coordinates, from byte `i` -/
def orBytes (w : List W64) (i : Nat) : List Byte → List W64
  | [] => w
  | b :: bs => orBytes (orByte w i b) (i + 1) bs

/-- common/utils.go:17-28 `BytesToFp2`.  (The loop of the code treats the two coordinates together.) -/
def bytesToFp2 (x : Fp2) (input : List Byte) (bytelen : Nat) : Option Fp2 :=
  if input.length < 2 * bytelen then none
  else some ⟨orBytes x.A 0 (input.take bytelen), orBytes x.B 0 ((input.drop bytelen).take bytelen)⟩

/-- common/utils.go:39-45: `byte(fp2.A[i/8] >> (8 * (i%8)))` for the `bytelen` first `i` -/
def wordsToBytes (w : List W64) (bytelen : Nat) : List Byte :=
  (List.range bytelen).map fun i => (w.getD (i / 8) 0 >>> (8 * (i % 8))).truncate 8

/-- common/utils.go:33-46 `Fp2ToBytes`: the new content of `output` -/
def fp2ToBytes (output : List Byte) (x : Fp2) (bytelen : Nat) : Option (List Byte) :=
  if output.length < 2 * bytelen then none
  else some (wordsToBytes x.A bytelen ++ wordsToBytes x.B bytelen ++ output.drop (2 * bytelen))

/-! ### common/params.go -/

/-- common/params.go:6 `sidhParams` -/
abbrev Registry := List (Byte × SidhParams)

/-- common/params.go:10-15 `Params` -/
def Registry.params (r : Registry) (id : Byte) : Option SidhParams := (r.find? fun e => e.1 == id).map (·.2)

/-- common/params.go:18-24 `Register` -/
def Registry.register (r : Registry) (id : Byte) (p : SidhParams) : Option Registry :=
  if (r.find? fun e => e.1 == id).isSome then none else some ((id, p) :: r)

/-- common/types.go:22-27 -/
def fp503 : Byte := 0
def fp751 : Byte := 1
def fp434 : Byte := 2

/-- p434/params.go:195-197, p503/params.go `init`, p751/params.go `init`: the registry once the packages are
initialised (in the order of their import paths) -/
def registry : Option Registry := do
  let r ← Registry.register [] fp434 params434
  let r ← Registry.register r fp503 params503
  Registry.register r fp751 params751

/-- `common.Params` once the packages are initialised -/
def stdParams (id : Byte) : Option SidhParams := do
  let r ← registry
  r.params id

/-! ### sidh.go -/

/-- sidh.go:49-59 -/
def variantA : W64 := 1
def variantB : W64 := 2
def variantSike : W64 := 6

/-- sidh.go:26-30 `PublicKey` with 18-23 `Key`; of `Params` only the pointed-to value matters. -/
structure PublicKey where
  params : SidhParams
  variant : W64
  pts : Tri Fp2

/-- sidh.go:33-39 `PrivateKey` -/
structure PrivateKey where
  params : SidhParams
  variant : W64
  scalar : List Byte
  S : List Byte

/-- A zeroed `Fp2`, cut to `n` words -/
def zeroFp2 (n : Nat) : Fp2 := ⟨List.replicate n 0, List.replicate n 0⟩

/-- sidh.go:68-70 `NewPublicKey` -/
def newPublicKey (id : Byte) (v : W64) : Option PublicKey := do
  let p ← stdParams id
  let z := zeroFp2 p.prime.n
  some ⟨p, v, ⟨z, z, z⟩⟩

/-- sidh.go:129-131 `Size` -/
def PublicKey.size (k : PublicKey) : Nat := k.params.publicKeySize

/-- sidh.go:83-98, 107-122, 231-252, 267-288: the package the `switch` on `Params.ID` selects, that is its `params`
variable; `none` is the panic of the default case. -/
def pkg (id : Nat) : Option SidhParams :=
  if id = 2 then some params434 else if id = 0 then some params503 else if id = 1 then some params751 else none

/-- sidh.go:75-100 `PublicKey.Import`: outer `none` is a panic; otherwise the key afterwards and whether the error is
nil. -/
def PublicKey.importKey (k : PublicKey) (input : List Byte) : Option (PublicKey × Bool) :=
  if input.length ≠ k.size then some (k, false)
  else do
    let sz := k.params.sharedSecretSize
    let p ← bytesToFp2 k.pts.p (input.take sz) k.params.bytelen
    let q ← bytesToFp2 k.pts.q ((input.drop sz).take sz) k.params.bytelen
    let r ← bytesToFp2 k.pts.r ((input.drop (2 * sz)).take sz) k.params.bytelen
    let g ← pkg k.params.id
    let m := toMontgomery g.prime
    some ({k with pts := ⟨m p, m q, m r⟩}, true)

/-- sidh.go:104-126 `PublicKey.Export`: the new content of `out` -/
def PublicKey.exportKey (k : PublicKey) (out : List Byte) : Option (List Byte) := do
  let sz := k.params.sharedSecretSize
  let g ← pkg k.params.id
  let m := fromMontgomery g.prime
  if out.length < 3 * sz then none
  else do
    let a ← fp2ToBytes (out.take sz) (m k.pts.p) k.params.bytelen
    let b ← fp2ToBytes ((out.drop sz).take sz) (m k.pts.q) k.params.bytelen
    let c ← fp2ToBytes ((out.drop (2 * sz)).take sz) (m k.pts.r) k.params.bytelen
    some (a ++ b ++ c ++ out.drop (3 * sz))

/-- sidh.go: `(v & KeyVariantSidhA) == KeyVariantSidhA` -/
def isA (v : W64) : Bool := v &&& variantA == variantA

/-- sidh.go:135-146 `NewPrivateKey` -/
def newPrivateKey (id : Byte) (v : W64) : Option PrivateKey := do
  let p ← stdParams id
  some ⟨p, v, List.replicate (if isA v then p.A.secretByteLen else p.B.secretByteLen) 0,
    if v = variantSike then List.replicate p.msgLen 0 else []⟩

/-- sidh.go:150-153 `PrivateKey.Export` -/
def PrivateKey.exportKey (k : PrivateKey) (out : List Byte) : Option (List Byte) :=
  copyFrom (goCopy out k.S) k.S.length k.scalar

/-- sidh.go:156-162 `PrivateKey.Size` -/
def PrivateKey.size (k : PrivateKey) : Nat :=
  k.scalar.length + (if k.variant = variantSike then k.params.msgLen else 0)

/-- sidh.go:173-180 `PrivateKey.Import` -/
def PrivateKey.importKey (k : PrivateKey) (input : List Byte) : Option (PrivateKey × Bool) :=
  if input.length ≠ k.size then some (k, false)
  else do
    let hd ← sliceTo input k.S.length
    let tl ← sliceFrom input k.S.length
    some ({k with S := goCopy k.S hd, scalar := goCopy k.scalar tl}, true)

/-- `io.ReadFull(rand, buf)` from a source that yields the bytes of `rng` and then fails: the new content of `buf`,
the rest of the source, and whether the error is nil. -/
def readFull (rng buf : List Byte) : List Byte × List Byte × Bool :=
  (goCopy buf rng, rng.drop buf.length, decide (buf.length ≤ rng.length))

/-- sidh.go:213-218: the last byte `b` of the scalar is masked and its top bit set.  Shifting a byte by 8 or more
gives 0; `(bits % 8) - 1` wraps. -/
def topByte (bits : Nat) (b : Byte) : Byte :=
  let n := (BitVec.ofNat 64 (bits % 8) - 1).toNat
  (b &&& ((1 : Byte) <<< (bits % 8) - 1)) ||| (if n < 8 then (1 : Byte) <<< n else 0)

/-- sidh.go:188-221 `PrivateKey.Generate`: the key afterwards, the rest of the random source, and whether the error
is nil. -/
def PrivateKey.generate (k : PrivateKey) (rng : List Byte) : Option (PrivateKey × List Byte × Bool) :=
  let dp := if isA k.variant then k.params.A else k.params.B
  let (s, rng, ok) := if k.variant = variantSike then readFull rng k.S else (k.S, rng, true)
  let k := {k with S := s}
  if !ok then some (k, rng, false)
  else
    let (sc, rng, ok) := readFull rng k.scalar
    if !ok then some ({k with scalar := sc}, rng, false)
    else if sc.length = 0 then none
    else some ({k with scalar := sc.set (sc.length - 1) (topByte dp.secretBitLen (sc.getD (sc.length - 1) 0))}, rng, true)

/-- sidh.go:224-253 `PrivateKey.GeneratePublicKey`: the public key afterwards -/
def PrivateKey.generatePublicKey (k : PrivateKey) (pub : PublicKey) : Option PublicKey :=
  if pub.variant ≠ k.variant ∨ pub.params.id ≠ k.params.id then none
  else do
    let g ← pkg k.params.id
    let t ← if isA k.variant then publicKeyGenA (limbOps g.prime) g.curve k.scalar
            else publicKeyGenB (limbOps g.prime) g.curve k.scalar
    some {pub with pts := t}

/-- core.go:229-254 `DeriveSecretA`, 257-282 `DeriveSecretB`: the new content of `ss` -/
def deriveSecretPkg (g : SidhParams) (a : Bool) (ss prv : List Byte) (pub : Tri Fp2) : Option (List Byte) := do
  let j ← if a then deriveA (limbOps g.prime) g.curve prv pub else deriveB (limbOps g.prime) g.curve prv pub
  fp2ToBytes ss (fromMontgomery g.prime j) g.bytelen

/-- sidh.go:260-289 `PrivateKey.DeriveSecret`: the new content of `ss` -/
def PrivateKey.deriveSecret (k : PrivateKey) (ss : List Byte) (pub : PublicKey) : Option (List Byte) :=
  if pub.variant = k.variant ∨ pub.params.id ≠ k.params.id then none
  else do
    let g ← pkg k.params.id
    deriveSecretPkg g (isA k.variant) ss k.scalar pub.pts

/-- sidh.go:293-299, 301-311 `PrivateKey.Init` on an object holding `old`: slices not set by it are kept. -/
def PrivateKey.init (old : PrivateKey) (id : Byte) (v : W64) : Option PrivateKey := do
  let p ← stdParams id
  some ⟨p, v, List.replicate (if isA v then p.A.secretByteLen else p.B.secretByteLen) 0,
    if v = variantSike then List.replicate p.msgLen 0 else old.S⟩

/-- sidh.go:293-299 `Key.Init` on a public key holding `old`: the points are kept.  Faithful if `old` is of the same
field; otherwise the kept points would have to be read as the 12-word arrays of the code, which the model cuts to the
length of the field. -/
def PublicKey.init (old : PublicKey) (id : Byte) (v : W64) : Option PublicKey := do
  let p ← stdParams id
  some {old with params := p, variant := v}

/-- sidh.go:313-315 `GeneratePrivateKey`: the error is dropped. -/
def generatePrivateKey (k : PrivateKey) (rng : List Byte) : Option (PrivateKey × List Byte) := do
  let (k, rng, _) ← k.generate rng
  some (k, rng)

end Model.Sidh
