import Verif.Model.SidhCurve
/-!
Specification of the isogeny walk: the plain chain.  With `n` isogenies to go before the last one, the kernel of the
next isogeny is the multiple of `xR` by 4ⁿ (3ⁿ); everything is mapped through it.  Every multiple is computed from
scratch, nothing is stored.
-/
namespace Spec.Sidh
open Model.Sidh

/-- plain chain, for any multiplication, isogeny and evaluation routines -/
def plain {α C I : Type} (pw : C → Nat → α → α) (gen : α → C × I) (ev : I → α → α) : Nat → C → α → List α → α × List α
  | 0, _, x, e => (x, e)
  | n + 1, c, x, e =>
    let phi := gen (pw c (n + 1) x)
    plain pw gen ev n phi.1 (ev phi.2 x) (e.map (ev phi.2))

/-- the chain of 4-isogenies -/
def plain4 {F : Type} (o : Ops F) (n : Nat) (curve : Coef F) (xR : Pt F) (extra : List (Pt F)) : Pt F × List (Pt F) :=
  plain (fun c k => pow2k o c (2 * k)) (gen4 o) (eval4 o) n (calcCurveParamsEquiv4 o curve) xR extra

/-- the chain of 3-isogenies -/
def plain3 {F : Type} (o : Ops F) (n : Nat) (curve : Coef F) (xR : Pt F) (extra : List (Pt F)) : Pt F × List (Pt F) :=
  plain (fun c k => pow3k o c k) (gen3 o) (eval3 o) n (calcCurveParamsEquiv3 o curve) xR extra

end Spec.Sidh
