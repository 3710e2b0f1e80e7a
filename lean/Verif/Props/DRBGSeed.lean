import Verif.Props.DRBG
/-!
C115: what a generator keeps of the entropy it is given.  The model is `Verif/Model/DRBG.lean`, `view` (the standard's Key and V of a
generator) and `Reached` are in `Verif/Props/DRBG.lean`.
-/
namespace Props.DRBGSeed
open Model Model.DRBG Spec.DRBG Lemmas.DRBG Props.DRBG

theorem xor_right {a b c : List Byte} (hab : a.length = c.length) (hb : b.length = c.length) :
    List.zipWith (· ^^^ ·) c a = List.zipWith (· ^^^ ·) c b ↔ a = b := by
  refine ⟨fun h => ?_, fun h => by rw [h]⟩
  induction c generalizing a b with
  | nil => rw [List.length_eq_zero_iff.mp hab, List.length_eq_zero_iff.mp hb]
  | cons x c ih =>
    cases a with
    | nil => simp at hab
    | cons y a =>
      cases b with
      | nil => simp at hb
      | cons z b =>
        simp only [List.zipWith_cons_cons, List.cons.injEq] at h
        obtain ⟨h1, h2⟩ := h
        have : y = z := by
          have := congrArg (x ^^^ ·) h1
          simpa [← BitVec.xor_assoc] using this
        rw [this, ih (by simpa using hab) (by simpa using hb) h2]

theorem zip_comm (a b : List Byte) : List.zipWith (· ^^^ ·) a b = List.zipWith (· ^^^ ·) b a := by
  rw [List.zipWith_comm]
  congr 1
  funext x y
  exact BitVec.xor_comm _ _

theorem num_inj {a b : List Byte} (h : a.length = b.length) (e : num a = num b) : a = b := by
  rw [← be_num a, ← be_num b, h, e]

/-- The update step of the standard loses nothing of what it is given. -/
theorem update_inj (s : State) {a b : List Byte} (ha : a.length = 48) (hb : b.length = 48) : update a s = update b s ↔ a = b := by
  refine ⟨fun h => ?_, fun h => by rw [h]⟩
  have hl : (blocks 3 s).1.length = 48 := blocks_length 3 s
  rw [spec_update, spec_update, State.mk.injEq] at h
  obtain ⟨h1, h2⟩ := h
  have h3 := num_inj (by simp [hl, ha, hb]) h2
  refine (xor_right (c := (blocks 3 s).1) (by rw [ha, hl]) (by rw [hb, hl])).mp ?_
  rw [← List.take_append_drop 32 (List.zipWith _ _ a), ← List.take_append_drop 32 (List.zipWith _ _ b), h1, h3]

/-- The first 48 bytes, with zeros for missing ones, are the same. -/
def SameSeed (a b : List Byte) : Prop := ∀ i < 48, a.getD i 0 = b.getD i 0

theorem pad48_iff (a b : List Byte) : pad48 a = pad48 b ↔ SameSeed a b := by
  have g : ∀ (a : List Byte) i, i < 48 → (pad48 a).getD i 0 = a.getD i 0 := by
    intro a i hi
    rw [pad48, List.getD_eq_getElem?_getD, List.getD_eq_getElem?_getD, List.getElem?_append, List.getElem?_take, List.length_take]
    split
    · first | rfl | rw [if_pos hi]
    · rw [List.getElem?_replicate]
      rw [List.getElem?_eq_none (l := a) (by omega)]
      split <;> rfl
  constructor
  · intro h i hi
    rw [← g a i hi, ← g b i hi, h]
  · intro h
    apply List.ext_getElem (by rw [pad48_length, pad48_length])
    intro i h1 h2
    rw [pad48_length] at h1
    have := h i h1
    rw [← g a i h1, ← g b i h1] at this
    rwa [List.getD_eq_getElem?_getD, List.getD_eq_getElem?_getD, List.getElem?_eq_getElem (by rw [pad48_length]; exact h1),
      List.getElem?_eq_getElem (by rw [pad48_length]; exact h1)] at this

theorem seed_iff (e1 e2 d : List Byte) : Spec.DRBG.seed e1 d = Spec.DRBG.seed e2 d ↔ SameSeed e1 e2 := by
  rw [← pad48_iff, Spec.DRBG.seed, Spec.DRBG.seed, zip_comm, zip_comm (pad48 e2)]
  exact xor_right (by rw [pad48_length, pad48_length]) (by rw [pad48_length, pad48_length])

/-- C115, what holds: `Reseed` with two entropy strings that differ in their first 48 bytes leaves different generators.  Missing: the
bytes after the 48th, and zeros at the end (`c115_full_false`). -/
theorem c115_reseed_partial (hw : Bool) (c c1 c2 : CtrDrbg) (h : Reached hw c) (e1 e2 d : List Byte) (h1 : reseed c e1 d = some c1)
    (h2 : reseed c e2 d = some c2) : view c1 = view c2 ↔ SameSeed e1 e2 := by
  obtain ⟨_, s, k, hi, _⟩ := reached_inv h
  obtain ⟨c1', a1, a2, -⟩ := reseed_eq hi e1 d
  obtain ⟨c2', b1, b2, -⟩ := reseed_eq hi e2 d
  obtain rfl := Option.some.inj (h1.symm.trans a1)
  obtain rfl := Option.some.inj (h2.symm.trans b1)
  rw [view_eq a2, view_eq b2, Spec.DRBG.reseed, Spec.DRBG.reseed, update_inj s (seed_length _ _) (seed_length _ _), seed_iff]

/-- C115, what holds, for `Init` of a new generator. -/
theorem c115_init_partial (hw : Bool) (c1 c2 : CtrDrbg) (e1 e2 p : List Byte) (h1 : init (new hw) e1 p = some (c1, true))
    (h2 : init (new hw) e2 p = some (c2, true)) : view c1 = view c2 ↔ SameSeed e1 e2 := by
  obtain ⟨c1', a1, a2, -⟩ := init_eq (new_inv hw) e1 p (new_ok hw e1)
  obtain ⟨c2', b1, b2, -⟩ := init_eq (new_inv hw) e2 p (new_ok hw e2)
  obtain rfl := (Prod.mk.inj (Option.some.inj (h1.symm.trans a1))).1
  obtain rfl := (Prod.mk.inj (Option.some.inj (h2.symm.trans b1))).1
  rw [view_eq a2, view_eq b2, update_inj _ (seed_length _ _) (seed_length _ _), seed_iff]

/-- C115. The personalization string, or the data given to `Reseed`, is kept in the same way. -/
theorem c115_data_partial (hw : Bool) (c c1 c2 : CtrDrbg) (h : Reached hw c) (e d1 d2 : List Byte) (h1 : reseed c e d1 = some c1)
    (h2 : reseed c e d2 = some c2) : view c1 = view c2 ↔ SameSeed d1 d2 := by
  have comm : ∀ a b, Spec.DRBG.seed a b = Spec.DRBG.seed b a := fun a b => by rw [Spec.DRBG.seed, Spec.DRBG.seed, zip_comm]
  obtain ⟨_, s, k, hi, _⟩ := reached_inv h
  obtain ⟨c1', a1, a2, -⟩ := reseed_eq hi e d1
  obtain ⟨c2', b1, b2, -⟩ := reseed_eq hi e d2
  obtain rfl := Option.some.inj (h1.symm.trans a1)
  obtain rfl := Option.some.inj (h2.symm.trans b1)
  rw [view_eq a2, view_eq b2, Spec.DRBG.reseed, Spec.DRBG.reseed, update_inj s (seed_length _ _) (seed_length _ _), comm e, comm e, seed_iff]

/-- C115. Entropy strings of any length with the same first 48 bytes are the same to the generator: `Init` and `Reseed` do the same, and so
every later call returns the same. -/
theorem c115_ignored (hw : Bool) (e1 e2 p : List Byte) (he : SameSeed e1 e2) (cs : List Call) :
    run (new hw) (.init e1 p :: cs) = run (new hw) (.init e2 p :: cs) ∧
    ∀ c, run c (.reseed e1 p :: cs) = run c (.reseed e2 p :: cs) := by
  have hs : seedBuf e1 p = seedBuf e2 p := by rw [seedBuf_eq, seedBuf_eq, seed_iff]; exact he
  constructor
  · have : init (new hw) e1 p = init (new hw) e2 p := by
      rw [init, init, if_neg (Nat.not_lt.mpr (new_ok hw e1)), if_neg (Nat.not_lt.mpr (new_ok hw e2)), hs]
    simp only [run, call, this]
  · intro c
    have : Model.DRBG.reseed c e1 p = Model.DRBG.reseed c e2 p := by rw [Model.DRBG.reseed, Model.DRBG.reseed, hs]
    simp only [run, call, this]

/-- C115, the full claim is false: two different strings of 64 bytes of entropy give generators that return the same for ever. -/
theorem c115_full_false (hw : Bool) : ∃ e1 e2 : List Byte, e1 ≠ e2 ∧ e1.length = 64 ∧ e2.length = 64 ∧
    ∀ p cs, run (new hw) (.init e1 p :: cs) = run (new hw) (.init e2 p :: cs) :=
  ⟨List.replicate 64 7, List.replicate 48 7 ++ List.replicate 16 8, by decide, by decide, by decide,
    fun p cs => (c115_ignored hw _ _ p (by unfold SameSeed; decide) cs).1⟩

/-- Two strings of 48 bytes that differ in one bit: the generators differ. -/
example (hw : Bool) : ∃ c1 c2, init (new hw) (List.replicate 48 7) [] = some (c1, true) ∧
    init (new hw) (List.replicate 47 7 ++ [6]) [] = some (c2, true) ∧ view c1 ≠ view c2 := by
  obtain ⟨c1, a1, -⟩ := init_eq (new_inv hw) (List.replicate 48 7) [] (new_ok hw _)
  obtain ⟨c2, b1, -⟩ := init_eq (new_inv hw) (List.replicate 47 7 ++ [6]) [] (new_ok hw _)
  refine ⟨c1, c2, a1, b1, ?_⟩
  rw [ne_eq, c115_init_partial hw c1 c2 _ _ [] a1 b1]
  unfold SameSeed
  decide

end Props.DRBGSeed
