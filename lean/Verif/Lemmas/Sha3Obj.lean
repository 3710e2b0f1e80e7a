import Verif.Lemmas.Sha3Stream
import Verif.Model.Sha3Calls
/-! Call sequences on the modelled object. -/
namespace Lemmas.Sha3
open Model Model.Sha3 Spec.Sponge

/-- The simulation relation. -/
def Sim (c : State) : Obj → Prop
  | .absorbing m => Absorbed c m
  | .squeezing m k => Squeezing c m k

theorem SameParams.refl (c : State) : SameParams c c := ⟨rfl, rfl, rfl⟩
theorem SameParams.trans {a b c : State} (h : SameParams a b) (h' : SameParams b c) : SameParams a c :=
  ⟨h'.1.trans h.1, h'.2.1.trans h.2.1, h'.2.2.trans h.2.2⟩

theorem Sim.rate {c : State} {o : Obj} (h : Sim c o) : IsRate c.rate := by
  cases o with
  | absorbing m => exact Absorbed.rate h
  | squeezing m k => exact Squeezing.rate h

theorem flatMap_zero (n : Nat) :
    (List.replicate n (0 : W64)).flatMap leBytes64 = List.replicate (8 * n) 0 := by
  induction n with
  | zero => rfl
  | succ n ih =>
    rw [List.replicate_succ, List.flatMap_cons, ih]
    have : leBytes64 0 = List.replicate 8 0 := by decide
    rw [this, List.replicate_append_replicate]
    congr 1; omega

theorem laneBytes_zero : laneBytes (Vector.replicate 25 0) = List.replicate 200 0 := by
  rw [laneBytes, Vector.toList_replicate, flatMap_zero]

theorem absorbed_reset {c : State} (h : IsRate c.rate) : Absorbed (reset c) [] := by
  constructor
  · exact h
  · rfl
  · exact List.length_replicate
  · simp [reset]
  · simp only [reset, List.take_zero, List.drop_nil]
  · simp only [reset, List.drop_replicate, maxRate]
  · simp only [reset, laneBytes_zero, List.length_nil, Nat.zero_div]; rfl

theorem reset_eq_new {c d : State} (h : SameParams c d) : reset d = newState c.rate c.dsize c.sfx := by
  obtain ⟨h1, h2, h3⟩ := h
  simp [reset, newState, h1, h2, h3]

theorem read_sim {P : Plat} (hP : Good P) {c : State} {o : Obj} (h : Sim c o) (out : List Byte) :
    ∃ c', Model.Sha3.read P c out = some (c', Spec.Keccak.spongeBytes Spec.Keccak.keccakF c.rate c.sfx
        o.pos.1 o.pos.2 out.length, out.length) ∧
      Squeezing c' o.pos.1 (o.pos.2 + out.length) ∧ SameParams c c' := by
  cases o with
  | absorbing m =>
    obtain ⟨c', h1, h2, h3⟩ := read_absorbed hP (h : Absorbed c m) out
    exact ⟨c', h1, by simpa [Obj.pos] using h2, h3⟩
  | squeezing m k => exact read_squeezing hP h out

theorem call_sim {P : Plat} (hP : Good P) {c : State} {o : Obj} (h : Sim c o) (k : Call) :
    ∃ c', callModel P c k = some (c', (call c.rate c.sfx c.dsize o k).2) ∧
      Sim c' (call c.rate c.sfx c.dsize o k).1 ∧ SameParams c c' := by
  cases k with
  | write x =>
    cases o with
    | absorbing m =>
      obtain ⟨c', h1, h2, h3⟩ := write_spec hP (h : Absorbed c m) x
      exact ⟨c', by simp [callModel, h1, call], h2, h3⟩
    | squeezing m k =>
      refine ⟨c, ?_, h, SameParams.refl c⟩
      simp [callModel, write, Squeezing.squeezing h, call]
  | read buf =>
    obtain ⟨c', h1, h2, h3⟩ := read_sim hP h buf
    exact ⟨c', by simp [callModel, h1, call], by simpa [call, Sim] using h2, h3⟩
  | sum b =>
    obtain ⟨c', h1, h2, h3⟩ := read_sim hP h (List.replicate c.dsize 0)
    rw [List.length_replicate] at h1 h2
    exact ⟨c', by simp only [callModel, sum, h1, call, Option.bind_eq_bind, Option.bind_some, Option.map_some], by simpa [call, Sim] using h2, h3⟩
  | reset => exact ⟨reset c, rfl, absorbed_reset h.rate, ⟨rfl, rfl, rfl⟩⟩

theorem calls_sim {P : Plat} (hP : Good P) (ks : List Call) {c : State} {o : Obj} (h : Sim c o) :
    ∃ c', callsModel P c ks = some (c', (calls c.rate c.sfx c.dsize o ks).2) ∧
      Sim c' (calls c.rate c.sfx c.dsize o ks).1 ∧ SameParams c c' := by
  induction ks generalizing c o with
  | nil => exact ⟨c, rfl, h, SameParams.refl c⟩
  | cons k ks ih =>
    obtain ⟨c1, h1, h2, h3⟩ := call_sim hP h k
    obtain ⟨c2, h4, h5, h6⟩ := ih h2
    rw [h3.1, h3.2.1, h3.2.2] at h4 h5
    refine ⟨c2, ?_, h5, h3.trans h6⟩
    simp [callsModel, h1, h4, calls]

theorem absorbed_new {r d : Nat} {sfx : Byte} (h : IsRate r) : Absorbed (newState r d sfx) [] :=
  absorbed_reset (c := newState r d sfx) h

end Lemmas.Sha3
