import Mathlib.Data.Rat.Defs
import Mathlib.Algebra.BigOperators.Group.Finset.Basic
import Mathlib.Algebra.Field.Rat
import Mathlib.SetTheory.Cardinal.Finite

/-!
How often a call that reads 64 bytes at a time from its random source is still not finished.
-/

namespace Spec

/-- The fraction of the 256^(64 k) sources of k blocks of 64 bytes on which the call has not returned when they are used up. -/
noncomputable def unfinished {α : Type} (f : List (BitVec 8) → Option α) (k : ℕ) : ℚ :=
  Nat.card {l : List (BitVec 8) // l.length = 64 * k ∧ f l = none} / 256 ^ (64 * k)

/-- The call reads on average at most `c` blocks of 64 random bytes: the number T of the blocks read by it, for a source of
independent uniformly random bytes, has the expectation Σ_k P(T > k), which is at most c. -/
def MeanBlocks {α : Type} (f : List (BitVec 8) → Option α) (c : ℚ) : Prop := ∀ n, ∑ k ∈ Finset.range n, unfinished f k ≤ c

end Spec
