import Verif.Model.SikePanic
/-
One KEM object (dh/sidh/sike.go; the same text is in kem/mkem/sike.go) on which several goroutines call `Encapsulate` at
the same time.  The object holds the message that was drawn (`c.msg`), the ephemeral scalar (`c.secretBytes`), the hash object
and the random source, and all of them are shared.

Simplified: a call is two steps, up to the message having been drawn into the object (sike.go:58-79) and the rest
(sike.go:81-105), and other goroutines run only between them.  The program has more interleavings than this.
A panic ends the program (`none`).
-/
namespace Model.SikeShared
open Model Model.Sidh Model.Sha3 Model.Sike

/-- The arguments of a call of `Encapsulate`, sike.go:58 -/
structure Args where
  ciphertext : List Byte
  secret : List Byte
  pub : PublicKey

/-- A goroutine: about to call `Encapsulate`, having drawn the message, or having returned the contents of the two buffers
and whether the error is nil. -/
inductive Gor
  | called (a : Args)
  | drawn (a : Args)
  | done (r : List Byte × List Byte × Bool)

variable (P : Plat)

/-- sike.go:58-79: the checks, and `io.ReadFull(c.rng, c.msg[:])` -/
def enter (c : KEM) (a : Args) : Option (KEM × Gor) :=
  if c.allocated = false then none
  else if variantSike ≠ a.pub.variant then none
  else if a.secret.length < c.params.kemSize then none
  else if a.ciphertext.length < c.params.ciphertextSize then none
  else match SikePanic.draw c with
    | (_, none) => none
    | (c, some false) => some (c, .done (a.ciphertext, a.secret, false))
    | (c, some true) => some (c, .drawn a)

/-- The next step of a goroutine: sike.go:58-79, then sike.go:81-105, then nothing. -/
def act (c : KEM) : Gor → Option (KEM × Gor)
  | .called a => enter c a
  | .drawn a =>
    match SikePanic.encapsulateRest P a.ciphertext a.secret a.pub c with
    | (_, none) => none
    | (c, some r) => some (c, .done r)
  | .done r => some (c, .done r)

/-- Goroutine j makes a step; there may be none with this number. -/
def step (c : KEM) (gs : List Gor) (j : Nat) : Option (KEM × List Gor) :=
  match gs[j]? with
  | none => some (c, gs)
  | some g => (act P c g).map fun (c, g) => (c, gs.set j g)

/-- The goroutines make steps in the order of the schedule. -/
def run (c : KEM) (gs : List Gor) : List Nat → Option (KEM × List Gor)
  | [] => some (c, gs)
  | j :: js => (step P c gs j).bind fun (c, gs) => run c gs js

end Model.SikeShared
