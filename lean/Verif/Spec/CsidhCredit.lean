import Verif.Spec.CsidhField
/-
Which primes the validation of a CSIDH public key counts when the ladder meets the point (0, 0).

The validation splits the list of the 74 primes in halves, again and again, down to single primes.  If [p+1]S = (0, 0), then the order
of [4]S is 2·d for a product d of some of the primes.  A part of the list that has none of the primes of d is reached
with the point (0, 0), for which the ladder answers "infinity" whatever the scalar: if that part is a single prime it
is counted, though it does not divide the order.
-/
namespace Spec.Csidh

/-- The product of the primes counted in the part of the list of primes from index `lo`, of length `n`, when the primes with `D i` divide the order:
a part without any of them counts if it is a single prime; a part with some of them is split, if it is not a single prime. -/
def credit (D : Nat → Bool) (lo n : Nat) : Nat :=
  if (List.range' lo n).all (fun i => !D i) then (if n = 1 then ell.getD lo 0 else 1)
  else if n ≤ 1 then 1
  else credit D lo ((n + 1) / 2) * credit D (lo + (n + 1) / 2) (n - (n + 1) / 2)
termination_by n
decreasing_by all_goals omega

end Spec.Csidh
