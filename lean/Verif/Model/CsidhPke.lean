import Verif.Model.Csidh
import Verif.Model.Sha3
/-
Model of kem/mkem/csidh.go.

`Rng *drbg.CtrDrbg` is read in blocks of 64 bytes only, by the functions of dh/csidh; it is the list of the bytes it will
yield (then it fails), as in Model/Csidh.lean.  A panic is `none`.  The message is taken not to overlap the object.
-/
namespace Model.CsidhPke
open Model Model.Csidh Model.Sha3

/-- csidh.go:22-25 `PKE`; `none` is a nil field. -/
structure PKE where
  rng : Option (List Byte)
  h : Option State

/-- csidh.go:27-33 `MultiPKE` -/
structure MultiPKE where
  pke : PKE
  ct0 : List Byte
  cts : List (List Byte)

/-- csidh.go:15-20 `ciphertext` -/
structure Ciphertext where
  U : List Byte
  V : List Byte

/-- `PKE{}` and `MultiPKE{}` -/
def PKE.zero : PKE := ⟨none, none⟩
def MultiPKE.zero : MultiPKE := ⟨PKE.zero, List.replicate 64 0, []⟩

/-- csidh.go:36-41 `PKE.Allocate` -/
def PKE.allocate (rng : List Byte) : PKE := ⟨some rng, some newShake128⟩

/-- csidh.go:44-47 `MultiPKE.Allocate` -/
def MultiPKE.allocate (c : MultiPKE) (n : Nat) (rng : List Byte) : MultiPKE :=
  ⟨PKE.allocate rng, c.ct0, List.replicate n (List.replicate 64 0)⟩

/-- `for i := 0; i < 16; i++ { dst[i] = pt[i] ^ ss[i] }` -/
def mask (dst pt ss : List Byte) : List Byte := List.zipWith (· ^^^ ·) (pt.take 16) (ss.take 16) ++ dst.drop 16

variable (P : Plat)

/-- `H.Write(ss[:])`, `H.Read(ss[:16])`: the hash object and the new ss -/
def hash (h : State) (ss : List Byte) : Option (State × List Byte) := do
  let (h, _, _) ← write P h ss
  let (h, out, _) ← Model.Sha3.read P h (ss.take 16)
  some (h, out ++ ss.drop 16)

/-- csidh.go:50-69 `PKE.Enc`.  The errors of `GeneratePrivateKey` and `DeriveSecret` are ignored. -/
def PKE.enc (c : PKE) (pk : PublicKey) (pt : List Byte) : Option (PKE × Ciphertext) := do
  let rng ← c.rng
  let (skA, rng, _) := generatePrivateKey rng
  let (ss, _, rng) ← deriveSecret (List.replicate 64 0) pk skA rng
  let h ← c.h
  let (h, ss) ← hash P (reset h) ss
  let V := mask (List.replicate 64 0) pt ss
  let (pkA, rng) ← generatePublicKey skA rng
  some (⟨some rng, some h⟩, ⟨(pkA.exportKey (List.replicate 64 0)).1, V⟩)

/-- csidh.go:72-87 `PKE.Dec` -/
def PKE.dec (c : PKE) (sk : PrivateKey) (ct : Ciphertext) : Option (PKE × List Byte) := do
  let rng ← c.rng
  let (pk, _) := PublicKey.zero.importKey ct.U
  let (ss, _, rng) ← deriveSecret (List.replicate 64 0) pk sk rng
  let h ← c.h
  let (h, ss) ← hash P (reset h) ss
  some (⟨some rng, some h⟩, mask (List.replicate 16 0) ct.V ss)

/-- csidh.go:97-106: the loop of `Encrypt` over the keys, the first being number `i`; `ss` isn't cleared in between. -/
def encryptLoop (skA : PrivateKey) (pt : List Byte) : List PublicKey → Nat → List Byte → List Byte → Option State → List (List Byte) →
    Option (List Byte × Option State × List (List Byte))
  | [], _, _, rng, h, cts => some (rng, h, cts)
  | pk :: pks, i, ss, rng, h, cts => do
    let (ss, _, rng) ← deriveSecret ss pk skA rng
    let h ← h
    let (h, ss) ← hash P h ss
    if cts.length ≤ i then none
    encryptLoop skA pt pks (i + 1) ss rng (some (reset h)) (cts.set i (mask (cts.getD i []) pt ss))

/-- csidh.go:90-111 `MultiPKE.Encrypt` -/
def MultiPKE.encrypt (c : MultiPKE) (keys : List PublicKey) (pt : List Byte) : Option MultiPKE := do
  let rng ← c.pke.rng
  let (skA, rng, _) := generatePrivateKey rng
  let (rng, h, cts) ← encryptLoop P skA pt keys 0 (List.replicate 64 0) rng c.pke.h c.cts
  let (pkA, rng) ← generatePublicKey skA rng
  some ⟨⟨some rng, h⟩, (pkA.exportKey c.ct0).1, cts⟩

end Model.CsidhPke
