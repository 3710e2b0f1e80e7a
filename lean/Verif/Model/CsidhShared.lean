import Verif.Model.Reader
/-
One public key used by several goroutines at the same time.

`Validate` and `DeriveSecret` take a pointer to the public key and use the buffer `wbuf` inside it (dh/csidh/csidh.go:22-33, 44-64,
295-307) for random bytes, so that goroutines that are given the same key overwrite each other's bytes.  A call is here a
sequence of accesses to single bytes of that buffer; accesses of different goroutines come in any order, each seeing the last value
written (byte accesses are not torn; the order is one order for all goroutines).  Everything else such a call writes is its own:
local variables, `out`, its random source; the coordinate `a` of the key is only read.
-/
namespace Model.CsidhShared
open Model Model.Csidh

/-- A call that is going on: it has returned, has panicked, or is about to write or read one byte of the buffer. -/
inductive Proc (α : Type)
  | ret (a : α)
  | panic
  | write (i : Nat) (b : Byte) (k : Proc α)
  | read (i : Nat) (k : Byte → Proc α)

variable {α : Type}

/-- csidh.go:48 `io.ReadFull(rng, s.wbuf[:])`: the bytes in turn, from position i on -/
def writeBuf : List Byte → Nat → Proc α → Proc α
  | [], _, k => k
  | b :: bs, i, k => .write i b (writeBuf bs (i + 1) k)

/-- csidh.go:53-57: each byte of the buffer is read once, in turn; n bytes from position i on -/
def readBuf : Nat → Nat → (List Byte → Proc α) → Proc α
  | 0, _, k => k []
  | n + 1, i, k => .read i fun b => readBuf n (i + 1) fun bs => k (b :: bs)

/-- csidh.go:298-311: what the loop of `Validate` does with a random number: whether it has finished, and the answer -/
def judge (a : Fp) (x : Fp) : Bool × Bool := ((Model.Reader.checkPoint a x).1, (Model.Reader.checkPoint a x).2.1)

/-- csidh.go:295-313 the loop of `Validate`, with that of `randFp` (csidh.go:46-63) inside: both go on with the next 64 random
bytes.  There are n times 64 bytes left, and a rest with which `randFp` panics.  `k` is what follows. -/
def validateLoop (f : Fp → Bool × Bool) (k : Bool → List Byte → Proc α) : Nat → List Byte → Proc α
  | 0, rng => writeBuf rng 0 .panic
  | n + 1, rng =>
    writeBuf (rng.take 64) 0 <| readBuf 64 0 fun buf =>
      let v := candidate buf
      if isLess v p then
        if (f v).1 then k (f v).2 (rng.drop 64) else validateLoop f k n (rng.drop 64)
      else validateLoop f k n (rng.drop 64)

/-- csidh.go:283-314 `Validate` -/
def validate (pub : PublicKey) (rng : List Byte) (k : Bool → List Byte → Proc α) : Proc α :=
  if !isLess pub.a p then k false rng
  else if equal pub.a two || equal pub.a twoNeg then k false rng
  else validateLoop (judge pub.a) k (rng.length / 64) rng

/-- The result of a call -/
inductive Result
  | validated (ok : Bool) (rest : List Byte)
  | derived (out : List Byte) (ok : Bool) (rest : List Byte)

/-- csidh.go:321-332 `DeriveSecret`: the action is on a local key, with its own buffer -/
def deriveSecret (out : List Byte) (pub : PublicKey) (prv : PrivateKey) (rng : List Byte) : Proc Result :=
  validate pub rng fun ok rng =>
    if ok then
      match groupAction pub.a prv rng with
      | none => .panic
      | some (a, rng) => .ret (.derived (PublicKey.exportKey ⟨a⟩ out).1 true rng)
    else .ret (.derived out false rng)

/-- A call with the shared key, each with its own random source -/
inductive Call
  | validate (rng : List Byte)
  | derive (out : List Byte) (prv : PrivateKey) (rng : List Byte)

/-- The call before its first step -/
def start (pub : PublicKey) : Call → Proc Result
  | .validate rng => validate pub rng fun ok rest => .ret (.validated ok rest)
  | .derive out prv rng => deriveSecret out pub prv rng

/-- One step of a call: the buffer and the call afterwards -/
def act (B : List Byte) : Proc α → List Byte × Proc α
  | .write i b k => (B.set i b, k)
  | .read i k => (B, k (B.getD i 0))
  | q => (B, q)

/-- The goroutine with number j makes a step; there may be none with this number. -/
def step (s : List Byte × List (Proc α)) (j : Nat) : List Byte × List (Proc α) :=
  match s.2[j]? with
  | none => s
  | some q => ((act s.1 q).1, s.2.set j (act s.1 q).2)

/-- The goroutines make steps in the order of the schedule. -/
def run (s : List Byte × List (Proc α)) (sched : List Nat) : List Byte × List (Proc α) := sched.foldl step s

end Model.CsidhShared
