import Verif.Model.Reader
/-!
What is known of a source of random bytes.
-/
namespace Spec.Source
open Model Model.Reader

variable {σ : Type}

/-- The rules of `io.Reader`: a call delivers at most as many bytes as the slice has, and the slice stays where it is.
(It may return fewer bytes, none at all, an error and bytes together, an error now and more bytes later, and it may use
the rest of the slice as it likes.) -/
def Lawful (R : Reader σ) : Prop :=
  ∀ s p n e p' s', R.read s p = some (n, e, p', s') → n ≤ p.length ∧ p'.length = p.length

/-- Calls of `Read` that take the reader from the first state to the second deliver these bytes, in this order. -/
inductive Delivers (R : Reader σ) : σ → List Byte → σ → Prop
  | nothing (s : σ) : Delivers R s [] s
  | more {s s' s'' : σ} {p p' d : List Byte} {n : Nat} {e : Bool} : R.read s p = some (n, e, p', s') → Delivers R s' d s'' →
      Delivers R s (p'.take n ++ d) s''

/-- The reader hands out the bytes `left s` in pieces of its choice, and then reports an error.  The error may come with
the last bytes or later.  A call may also deliver nothing without an error, but not for ever (`idle`).  Only the bytes
delivered are written. -/
def Serves (R : Reader σ) (left : σ → List Byte) (idle : σ → Nat) : Prop :=
  ∀ s p, 0 < p.length → ∃ n e s', R.read s p = some (n, e, (left s).take n ++ p.drop n, s') ∧ n ≤ p.length ∧ n ≤ (left s).length ∧
    left s' = (left s).drop n ∧ (e = true → left s' = []) ∧ (n = 0 → e = false → idle s' < idle s)

/-- The reader fills every slice, without an error, from the states with `I` on. -/
def Fills (R : Reader σ) (I : σ → Prop) : Prop :=
  ∀ s p, I s → ∃ p' s', R.read s p = some (p.length, false, p', s') ∧ p'.length = p.length ∧ I s'

end Spec.Source
