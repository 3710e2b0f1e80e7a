import Mathlib.SetTheory.Cardinal.Finite

/-!
Outcomes that are equally likely for a source of independent uniformly random bytes.
-/

namespace Spec

/-- Of the 256^n sources of n bytes, as many lead to the outcome A as to the outcome B, for every n. -/
def AsLikely (A B : List (BitVec 8) → Prop) : Prop :=
  ∀ n, Nat.card {l : List (BitVec 8) // l.length = n ∧ A l} = Nat.card {l : List (BitVec 8) // l.length = n ∧ B l}

end Spec
