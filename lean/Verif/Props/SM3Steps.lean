import Verif.Lemmas.SM3Steps
/-!
C118: the steps of hash/sm3 depend on what is called and on lengths, not on the bytes hashed.  `runT` (`Verif/Model/SM3Steps.lean`) is a
sequence of calls together with the list of everything an observer sees: outcomes of conditions, indices and lengths.
-/
namespace Props.SM3Steps
open Model Model.SM3 Model.SM3.Steps Model.Steps Lemmas.Steps Lemmas.SM3Steps

/-- Recording the steps changes no result. -/
theorem c118_value (d : Digest) (h : List Call) : (runT d h).val = run d h := runT_val h d

/-- Two histories of a new object with the same calls and lengths: the same steps, whatever the bytes. -/
theorem c118_steps (h h' : List Call) (hs : List.Forall₂ SameShape h h') : (runT new h).log = (runT new h').log :=
  (runT_rel h ⟨rfl, rfl⟩ hs).1

/-- The same for two objects that have taken in secrets before: if what they were given had the same lengths, later calls take the
same steps. -/
theorem c118_later (h h' k k' : List Call) (hs : List.Forall₂ SameShape h h') (hk : List.Forall₂ SameShape k k') {d d' : Digest}
    {r r' : List Res} (e : run new h = some (d, r)) (e' : run new h' = some (d', r')) : (runT d k).log = (runT d' k').log := by
  have h1 := (runT_rel h (d := new) (d' := new) ⟨rfl, rfl⟩ hs).2
  rw [runT_val, runT_val, e, e'] at h1
  cases h1 with
  | some h1 => exact (runT_rel k h1 hk).1

/-- Hypotheses met: two messages of 100 bytes, absorbed in two parts, and two digests. -/
example : List.Forall₂ SameShape [.write (List.replicate 70 0), .sum [], .write (List.replicate 30 1), .sum [1, 2]]
    [.write (List.replicate 70 0xff), .sum [], .write ((List.range 30).map (BitVec.ofNat 8)), .sum [3, 4]] := by
  refine .cons ?_ (.cons ?_ (.cons ?_ (.cons ?_ .nil))) <;> simp only [SameShape, List.length_replicate, List.length_map, List.length_range]
  · rfl

/-- The steps are not trivial: they tell a short message from a long one. -/
example : (runT new [.write (List.replicate 5 0)]).log = [.test true, .copy 0 5] := by decide +kernel

example : (runT new [.write (List.replicate 64 0)]).log =
    [.test false, .copy 0 64, .test true] ++ (List.range 16).map (fun k => .word (4 * k)) ++ [.body, .test false, .test false, .copy 0 0] := by
  decide +kernel

end Props.SM3Steps
