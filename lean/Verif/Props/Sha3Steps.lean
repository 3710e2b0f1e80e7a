import Verif.Lemmas.Sha3Steps
/-!
C116: the steps of hash/sha3 depend on what is called and on lengths, not on the bytes hashed.  `callsT` (`Verif/Model/Sha3Steps.lean`)
is a sequence of calls together with the list of everything an observer sees: outcomes of conditions, indices and lengths.
-/
namespace Props.Sha3Steps
open Model Model.Sha3 Model.Sha3.Steps Model.Steps Lemmas.Steps Lemmas.Sha3Steps
open Spec.Sponge (Call SameShape)

/-- The two portable platforms with their steps. -/
inductive Plats : PlatT → Plat → Prop
  | generic : Plats platGenericT platGeneric
  | unaligned : Plats platUnalignedT platUnaligned

theorem same {PT : PlatT} {P : Plat} (h : Plats PT P) : Same PT P := by
  cases h
  · exact same_generic
  · exact same_unaligned

theorem blind {PT : PlatT} {P : Plat} (h : Plats PT P) : Blind PT := by
  cases h
  · exact blind_generic
  · exact blind_unaligned

/-- Recording the steps changes no result. -/
theorem c116_value {PT : PlatT} {P : Plat} (hP : Plats PT P) (c : State) (h : List Call) :
    (callsT PT c h).val = callsModel P c h := callsT_val (same hP) h c

/-- Two histories of a new object with the same calls and lengths: the same steps, whatever the bytes. -/
theorem c116_steps {PT : PlatT} {P : Plat} (hP : Plats PT P) (i : Spec.Sha3.Inst) (h h' : List Call) (hs : List.Forall₂ SameShape h h') :
    (callsT PT (new i) h).log = (callsT PT (new i) h').log :=
  (callsT_rel (blind hP) h ⟨rfl, rfl, rfl, rfl, rfl⟩ hs).1

/-- The same for two objects that have taken in secrets before: if what they were given had the same lengths, later calls take the
same steps. -/
theorem c116_later {PT : PlatT} {P : Plat} (hP : Plats PT P) (i : Spec.Sha3.Inst) (h h' k k' : List Call) (hs : List.Forall₂ SameShape h h')
    (hk : List.Forall₂ SameShape k k') {c c' : State} {r r' : List Spec.Sponge.Result} (e : callsModel P (new i) h = some (c, r))
    (e' : callsModel P (new i) h' = some (c', r')) : (callsT PT c k).log = (callsT PT c' k').log := by
  have h1 := (callsT_rel (blind hP) h (c := new i) (c' := new i) ⟨rfl, rfl, rfl, rfl, rfl⟩ hs).2
  rw [c116_value hP, c116_value hP, e, e'] at h1
  cases h1 with
  | some h1 => exact (callsT_rel (blind hP) k h1 hk).1

/-- Hypotheses met: two messages of 200 bytes, absorbed in two parts, and 300 bytes of output. -/
example : List.Forall₂ SameShape [.write (List.replicate 150 0), .write (List.replicate 50 1), .read (List.replicate 300 0)]
    [.write (List.replicate 150 0xff), .write ((List.range 50).map (BitVec.ofNat 8)), .read (List.replicate 300 7)] := by
  refine .cons ?_ (.cons ?_ (.cons ?_ .nil)) <;> simp only [SameShape, List.length_replicate, List.length_map, List.length_range]

/-- The steps are not trivial: they tell a short message from a long one. -/
example : (callsT platGenericT (new .sha3_256) [.write (List.replicate 5 0)]).log = [.test false, .test true, .copy 0 5] := by decide +kernel

example : (callsT platGenericT (new .sha3_256) [.write (List.replicate 136 0)]).log =
    [.test false, .test false, .copy 0 136] ++ (List.range 21).flatMap (fun i => [.test true, .lane i]) ++ [.test false] ++
      [0, 4, 8, 12, 16, 20].flatMap (fun i => [.test true, .round i, .round (i + 1), .round (i + 2), .round (i + 3)]) ++ [.test false] ++
      [.test false, .copy 0 0] := by decide +kernel

end Props.Sha3Steps
