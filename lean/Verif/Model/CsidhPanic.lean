import Verif.Model.CsidhPke
/-
CSIDH keys and the encryption objects of kem/mkem/csidh.go once more, now with what a call that panics leaves behind: a
program that recovers from the panic goes on with that.

A call gives the objects afterwards in every case, and its result, `none` being a panic.  A random source is the list of
the bytes it still delivers; `io.ReadFull` on one that is too short takes all of it, and `randFp` then panics
(dh/csidh/csidh.go:48-51), so that after such a panic nothing is left.  Buffers `wbuf` of keys aren't modelled: nothing is
read from them before they are written.
-/
namespace Model.CsidhPanic
open Model Model.Csidh Model.Sha3 Model.CsidhPke

/-- dh/csidh/csidh.go:199-207 `PrivateKey.Import`: a longer string is copied until the array is full -/
def importPrivate (c : PrivateKey) (key : List Byte) : PrivateKey × Option Bool :=
  if key.length < c.e.length then (c, some false)
  else if c.e.length < key.length then (⟨key.take c.e.length⟩, none)
  else (⟨key⟩, some true)

/-- dh/csidh/csidh.go:271-276 `GeneratePublicKey`: the key, the random source, and whether it returns.  The key is zeroed
first and written again after the last random number. -/
def generatePublicKey (prv : PrivateKey) (rng : List Byte) : PublicKey × List Byte × Option Unit :=
  match groupAction fp0 prv rng with
  | none => (PublicKey.zero, [], none)
  | some (a, rest) => (⟨a⟩, rest, some ())

/-- dh/csidh/csidh.go:321-332 `DeriveSecret`: the content of `out`, the random source, and the answer.  `out` is written after the
last random number. -/
def deriveSecret (out : List Byte) (pub : PublicKey) (prv : PrivateKey) (rng : List Byte) : List Byte × List Byte × Option Bool :=
  match validate pub rng with
  | none => (out, [], none)
  | some (false, rng) => (out, rng, some false)
  | some (true, rng) =>
    match groupAction pub.a prv rng with
    | none => (out, [], none)
    | some (a, rng) => ((PublicKey.exportKey ⟨a⟩ out).1, rng, some true)

/-! ### kem/mkem/csidh.go -/

variable (P : Plat)

/-- csidh.go:50-69 `PKE.Enc` -/
def enc (c : PKE) (pk : PublicKey) (pt : List Byte) : PKE × Option Ciphertext :=
  match c.rng with
  | none => (c, none)
  | some rng =>
    let (skA, rng, _) := generatePrivateKey rng
    match deriveSecret (List.replicate 64 0) pk skA rng with
    | (_, rng, none) => (⟨some rng, c.h⟩, none)
    | (ss, rng, some _) =>
      match c.h with
      | none => (⟨some rng, none⟩, none)
      | some h =>
        match hash P (reset h) ss with
        | none => (⟨some rng, some h⟩, none)
        | some (h, ss) =>
          match generatePublicKey skA rng with
          | (_, rng, none) => (⟨some rng, some h⟩, none)
          | (pkA, rng, some _) => (⟨some rng, some h⟩, some ⟨(pkA.exportKey (List.replicate 64 0)).1, mask (List.replicate 64 0) pt ss⟩)

/-- csidh.go:72-87 `PKE.Dec` -/
def dec (c : PKE) (sk : PrivateKey) (ct : Ciphertext) : PKE × Option (List Byte) :=
  match c.rng with
  | none => (c, none)
  | some rng =>
    let (pk, _) := PublicKey.zero.importKey ct.U
    match deriveSecret (List.replicate 64 0) pk sk rng with
    | (_, rng, none) => (⟨some rng, c.h⟩, none)
    | (ss, rng, some _) =>
      match c.h with
      | none => (⟨some rng, none⟩, none)
      | some h =>
        match hash P (reset h) ss with
        | none => (⟨some rng, some h⟩, none)
        | some (h, ss) => (⟨some rng, some h⟩, some (mask (List.replicate 16 0) ct.V ss))

/-- csidh.go:97-106: the loop of `Encrypt` over the keys, the first being number `i`.  The hash object is reset before the
ciphertext is written. -/
def encryptLoop (skA : PrivateKey) (pt : List Byte) : List PublicKey → Nat → List Byte → List Byte → Option State → List (List Byte) →
    (List Byte × Option State × List (List Byte)) × Option Unit
  | [], _, _, rng, h, cts => ((rng, h, cts), some ())
  | pk :: pks, i, ss, rng, h, cts =>
    match deriveSecret ss pk skA rng with
    | (_, rng, none) => ((rng, h, cts), none)
    | (ss, rng, some _) =>
      match h with
      | none => ((rng, none, cts), none)
      | some h =>
        match hash P h ss with
        | none => ((rng, some h, cts), none)
        | some (h, ss) =>
          if cts.length ≤ i then ((rng, some (reset h), cts), none)
          else encryptLoop skA pt pks (i + 1) ss rng (some (reset h)) (cts.set i (mask (cts.getD i []) pt ss))

/-- csidh.go:90-111 `MultiPKE.Encrypt`: `Ct0` is written last -/
def encrypt (c : MultiPKE) (keys : List PublicKey) (pt : List Byte) : MultiPKE × Option Unit :=
  match c.pke.rng with
  | none => (c, none)
  | some rng =>
    let (skA, rng, _) := generatePrivateKey rng
    match encryptLoop P skA pt keys 0 (List.replicate 64 0) rng c.pke.h c.cts with
    | ((rng, h, cts), none) => (⟨⟨some rng, h⟩, c.ct0, cts⟩, none)
    | ((rng, h, cts), some _) =>
      match generatePublicKey skA rng with
      | (_, rng, none) => (⟨⟨some rng, h⟩, c.ct0, cts⟩, none)
      | (pkA, rng, some _) => (⟨⟨some rng, h⟩, (pkA.exportKey c.ct0).1, cts⟩, some ())

end Model.CsidhPanic
