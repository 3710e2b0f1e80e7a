import Verif.Spec.SpongeObject
/-
What an observer of the calls on a hash object may know: the kind of each call and the length of its argument.
-/
namespace Spec.Sponge

/-- Calls of the same kind with arguments of the same length. -/
def SameShape : Call → Call → Prop
  | .write x, .write y => x.length = y.length
  | .read x, .read y => x.length = y.length
  | .sum x, .sum y => x.length = y.length
  | .reset, .reset => True
  | _, _ => False

end Spec.Sponge
